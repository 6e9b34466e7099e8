import Verif.Model.SdkClient
import Verif.Spec.Base58

/-!
# The command line tool

`cli/src/commands.rs` and `cli/src/main.rs`: how the texts on the command line and the answers to prompts become credentials, wallet ids,
permissions and wallet objects of the SDK (`Model/SdkClient.lean`).  Not modelled: terminal output, the configuration file, the RPC client,
option parsing other than the splitting at commas.  External crates are parameters where nothing is said about them here: the JSON
parser (`serde_json::from_str`) and the parsers of private keys.
-/

namespace Verif.Cli
open Sdk

/-- A Rust `&str`. -/
abbrev Text := List Char

/-- `str::as_bytes`. -/
def utf8 (t : Text) : Bytes := t.flatMap String.utf8EncodeChar

/-- How a command ends without being carried out: an error message or a panic. -/
inductive Fail where
  | refused
  | panic
  deriving DecidableEq, Repr

/-! ## JSON values -/

/-- `serde_json::Value`: of a number only whether `as_u64` can read it; an object as the list of its members, of which a later one replaces an
earlier one of the same name. -/
inductive Value where
  | null
  | bool (b : Bool)
  | num (n : Option Nat)
  | str (t : Text)
  | arr (xs : List Value)
  | obj (fields : List (Text × Value))

/-- `Value::get(name)`: `None` unless an object with such a member. -/
def Value.get (v : Value) (name : String) : Option Value :=
  match v with
  | .obj fields => (fields.reverse.find? fun p => decide (p.1 = name.toList)).map (·.2)
  | _ => none

/-- `value[name]`: null where there is no such member. -/
def Value.at (v : Value) (name : String) : Value := (v.get name).getD .null

/-- `Value::as_u64`. -/
def Value.asU64 : Value → Option Nat
  | .num n => n
  | _ => none

/-- `Value::as_str`. -/
def Value.asStr : Value → Option Text
  | .str t => some t
  | _ => none

/-! ## Keys as texts -/

/-- Position of a base58 character. -/
def digit58 (c : Char) : Option Nat := if c ∈ base58Alphabet then some (base58Alphabet.idxOf c) else none

/-- Value of a base58 text. -/
def value58 (t : Text) : Nat := t.foldl (fun acc c => acc * 58 + base58Alphabet.idxOf c) 0

/-- The bytes of a number, least significant first, without leading zeros; the first argument bounds their number. -/
def minBytes : Nat → Nat → Bytes
  | 0, _ => []
  | f + 1, n => if n = 0 then [] else UInt8.ofNat n :: minBytes f (n / 256)

/-- base58 decoding: a zero byte for each leading `1`, then the number in base 256. -/
def decode58 (t : Text) : Option Bytes :=
  if t.all fun c => (digit58 c).isSome then
    some (zeros (t.takeWhile (· == '1')).length ++ (minBytes t.length (value58 t)).reverse)
  else none

/-- `Pubkey::from_str` (external crate `solana-pubkey`): at most 44 characters that decode to 32 bytes. -/
def pubkey (t : Text) : Option Key :=
  if t.length ≤ 44 then (decode58 t).bind fun k => if k.length = 32 then some k else none else none

/-- Value of a hexadecimal digit of either case. -/
def hexDigit (c : Char) : Option Nat :=
  if '0' ≤ c ∧ c ≤ '9' then some (c.toNat - '0'.toNat)
  else if 'a' ≤ c ∧ c ≤ 'f' then some (c.toNat - 'a'.toNat + 10)
  else if 'A' ≤ c ∧ c ≤ 'F' then some (c.toNat - 'A'.toNat + 10)
  else none

/-- `hex::decode` (external crate `hex`). -/
def hexDecode : Text → Option Bytes
  | [] => some []
  | [_] => none
  | a :: b :: t => do
    let x ← hexDigit a
    let y ← hexDigit b
    let r ← hexDecode t
    some (UInt8.ofNat (16 * x + y) :: r)

/-- `str::trim_start_matches("0x")`: as often as it is there. -/
def trim0x : Text → Text
  | '0' :: 'x' :: t => trim0x t
  | t => t

/-- `parse_authority_type`, cli/src/commands.rs:955-965. -/
def authorityType (t : Text) : Option Nat :=
  if t = "Ed25519".toList then some T.ed25519
  else if t = "Secp256k1".toList then some T.secp256k1
  else if t = "Secp256r1".toList then some T.secp256r1
  else if t = "Ed25519Session".toList then some T.ed25519Session
  else if t = "Secp256k1Session".toList then some T.secp256k1Session
  else if t = "Secp256r1Session".toList then some T.secp256r1Session
  else none

/-- `format_authority`, cli/src/main.rs:674-727. -/
def formatAuthority (ty : Nat) (t : Text) : Option Bytes :=
  if ty = T.ed25519 ∨ ty = T.ed25519Session then pubkey t
  else if ty = T.secp256k1 ∨ ty = T.secp256k1Session then
    (hexDecode (trim0x t)).bind fun b =>
      if b.length = 65 ∧ b.head? = some 4 then some (b.drop 1)
      else if b.length = 33 ∧ (b.head? = some 2 ∨ b.head? = some 3) then some (b.drop 1)
      else none
  else if ty = T.secp256r1 ∨ ty = T.secp256r1Session then
    (hexDecode (trim0x t)).bind fun b => if b.length = 33 then some b else none
  else none

/-- `hex::encode`. -/
def hexText (b : Bytes) : Text :=
  b.flatMap fun x => ["0123456789abcdef".toList.getD (x.toNat / 16) '0', "0123456789abcdef".toList.getD (x.toNat % 16) '0']

/-- The digits of a number in base 58, least significant first; the first argument bounds their number. -/
def digits58 : Nat → Nat → Text
  | 0, _ => []
  | f + 1, n => if n = 0 then [] else base58Alphabet.getD (n % 58) '1' :: digits58 f (n / 58)

/-- `bs58::encode` and `Pubkey::to_string`: a `1` for each leading zero byte, then the number in base 58. -/
def encode58 (b : Bytes) : Text :=
  List.replicate (b.takeWhile (· == 0)).length '1' ++ (digits58 (2 * b.length) (leNat b.reverse)).reverse

/-- The public key as `Generate` prints it, cli/src/commands.rs:585-812, for the public key as the program stores it for that type
(Ed25519: 32 bytes, Secp256k1: the 64 bytes of the uncompressed key without its mark, Secp256r1: 33 bytes). -/
def generated (ty : Nat) (key : Bytes) : Text :=
  if ty = T.ed25519 ∨ ty = T.ed25519Session then encode58 key else hexText key

/-! ## Wallet ids -/

/-- `format!("{:0<32}", id).as_bytes()[..32]`, cli/src/commands.rs:256-265, 291 and in every other command. -/
def walletId (t : Text) : Bytes := (utf8 (t ++ List.replicate (32 - t.length) '0')).take 32

/-! ## Permissions -/

/-- The limit of `sol`, `solDestination` and `tokenDestination`, cli/src/commands.rs:152, 207, 227. -/
def amountOf (v : Value) : Nat := (v.at "amount").asU64.getD 1000000000

/-- The `recurring` member, cli/src/commands.rs:153-158, 208-213, 228-233: whatever it is, if it is there. -/
def recurringOf (v : Value) : Option Recurring :=
  (v.get "recurring").map fun r => Recurring.new ((r.at "window").asU64.getD 86400)

/-- A member that has to be a text. -/
def textOf (v : Value) (name : String) : Except Fail Text :=
  match (v.at name).asStr with
  | some t => .ok t
  | none => .error .refused

/-- `Pubkey::from_str(..)?`. -/
def addressOf (t : Text) : Except Fail Key :=
  match pubkey t with
  | some k => .ok k
  | none => .error .refused

/-- `sub_account.as_bytes().try_into().unwrap()`, cli/src/commands.rs:199-201. -/
def bytes32 (t : Text) : Except Fail Key := if (utf8 t).length = 32 then .ok (utf8 t) else .error .panic

/-- The cases of `parse_permission_from_json`, cli/src/commands.rs:149-243. -/
def parseAs (v : Value) (ty : Text) : Except Fail Permission :=
  if ty = "all".toList then .ok .all
  else if ty = "programCurated".toList then .ok .programCurated
  else if ty = "sol".toList then .ok (.sol (amountOf v) (recurringOf v))
  else if ty = "allButManageAuthority".toList then .ok .allButManageAuthority
  else if ty = "manageAuthority".toList then .ok .manageAuthority
  else if ty = "program".toList then do
    let p ← textOf v "programId"
    let p ← addressOf p
    .ok (.program p)
  else if ty = "programAll".toList then .ok .programAll
  else if ty = "programScope".toList then do
    let p ← textOf v "programId"
    let t ← textOf v "targetAccount"
    let p ← addressOf p
    let t ← addressOf t
    .ok (.programScope p t ((v.at "numericType").asU64.getD 0) (v.at "limit").asU64 (v.at "window").asU64
      (v.at "balanceFieldStart").asU64 (v.at "balanceFieldEnd").asU64)
  else if ty = "subAccount".toList then do
    let s ← textOf v "subAccount"
    let k ← bytes32 s
    .ok (.subAccount k)
  else if ty = "solDestination".toList then do
    let d ← textOf v "destination"
    let d ← addressOf d
    .ok (.solDestination d (amountOf v) (recurringOf v))
  else if ty = "tokenDestination".toList then do
    let m ← textOf v "mint"
    let d ← textOf v "destination"
    let m ← addressOf m
    let d ← addressOf d
    .ok (.tokenDestination m d (amountOf v) (recurringOf v))
  else .error .refused

/-- `parse_permission_from_json`, cli/src/commands.rs:147-244. -/
def parsePermission (v : Value) : Except Fail Permission :=
  match (v.at "type").asStr with
  | none => .error .refused
  | some ty => parseAs v ty

/-- Splitting at a delimiter, `value_delimiter = ','` (external crate `clap`), cli/src/main.rs:115, 155, 158. -/
def splitCommas : Text → List Text
  | [] => [[]]
  | c :: t =>
    if c = ',' then [] :: splitCommas t
    else match splitCommas t with
      | [] => [[c]]
      | p :: ps => (c :: p) :: ps

/-- The permissions given with `--permissions`, cli/src/commands.rs:293-307, 840-853, 854-867: `args` as the shell passes them, `fromStr` is
`serde_json::from_str`. -/
def permissionsArg (fromStr : Text → Option Value) (args : List Text) : Except Fail (List Permission) :=
  if (args.flatMap splitCommas).isEmpty then .error .refused
  else (args.flatMap splitCommas).mapM fun p =>
    match fromStr p with
    | some v => parsePermission v
    | none => .error .refused

/-- The permission standing for a kind in `RemoveActionsByType`, cli/src/commands.rs:874-924. -/
def removalKind (t : Text) : Except Fail Permission :=
  if t = "All".toList then .ok .all
  else if t = "AllButManageAuthority".toList then .ok .allButManageAuthority
  else if t = "ManageAuthority".toList then .ok .manageAuthority
  else if t = "Sol".toList then .ok (.sol 0 none)
  else if t = "Token".toList then .ok (.token (zeros 32) 0 none)
  else if t = "Program".toList then .ok (.program (zeros 32))
  else if t = "ProgramAll".toList then .ok .programAll
  else if t = "ProgramCurated".toList then .ok .programCurated
  else if t = "ProgramScope".toList then .ok (.programScope (zeros 32) (zeros 32) 0 none none none none)
  else if t = "SubAccount".toList then .ok (.subAccount (zeros 32))
  else if t = "Stake".toList then .ok (.stake 0 none)
  else if t = "StakeAll".toList then .ok .stakeAll
  else if t = "SolDestination".toList then .ok (.solDestination (zeros 32) 0 none)
  else if t = "TokenDestination".toList then .ok (.tokenDestination (zeros 32) (zeros 32) 0 none)
  else .error .refused

/-- The change an `UpdateAuthority` command asks for, cli/src/commands.rs:839-942; `indices` are u16. -/
def updateArg (fromStr : Text → Option Value) (operation : Text) (permissions kinds : List Text) (indices : List Nat) : Except Fail UpdateData :=
  if operation = "ReplaceAll".toList then do
    let ps ← permissionsArg fromStr permissions
    .ok (.replaceAll ps)
  else if operation = "AddActions".toList then do
    let ps ← permissionsArg fromStr permissions
    .ok (.addActions ps)
  else if operation = "RemoveActionsByType".toList then
    if (kinds.flatMap splitCommas).isEmpty then .error .refused
    else do
      let ps ← (kinds.flatMap splitCommas).mapM removalKind
      .ok (.removeByType ps)
  else if operation = "RemoveActionsByIndex".toList then
    if indices.isEmpty then .error .refused else .ok (.removeByIndex indices)
  else .error .refused

/-! ## Prompts -/

/-- The answers of a user choosing a permission in the interactive mode, cli/src/main.rs:417-656: texts of addresses, numbers (u64, as read by
the prompt), whether to repeat and with which window. -/
inductive Answer where
  | all
  | manageAuthority
  | allButManageAuthority
  | token (mint : Text) (amount : Nat) (window : Option Nat)
  | sol (amount : Nat) (window : Option Nat)
  | tokenDestination (mint destination : Text) (amount : Nat) (window : Option Nat)
  | solDestination (destination : Text) (amount : Nat) (window : Option Nat)
  | program (programId : Text)
  | programAll
  | programScope (token2022 : Bool) (target : Text) (limit : Option (Nat × Nat))
  | programCurated
  | subAccount (address : Text)
  | stake
  | stakeAll

/-- `get_permissions_interactive`, cli/src/main.rs:417-672, one turn. -/
def Answer.permission : Answer → Except Fail Permission
  | .all => .ok .all
  | .manageAuthority => .ok .manageAuthority
  | .allButManageAuthority => .ok .allButManageAuthority
  | .token mint amount window => do
    let m ← addressOf mint
    .ok (.token m amount (window.map Recurring.new))
  | .sol amount window => .ok (.sol amount (window.map Recurring.new))
  | .tokenDestination mint dest amount window => do
    let m ← addressOf mint
    let d ← addressOf dest
    .ok (.tokenDestination m d amount (window.map Recurring.new))
  | .solDestination dest amount window => do
    let d ← addressOf dest
    .ok (.solDestination d amount (window.map Recurring.new))
  | .program p => do
    let p ← addressOf p
    .ok (.program p)
  | .programAll => .ok .programAll
  | .programScope token2022 target limit =>
    if token2022 then .error .panic
    else do
      let t ← addressOf target
      .ok (.programScope tokenId t 2 (limit.map (·.1)) (limit.map (·.2)) (some 64) (some 72))
  | .programCurated => .ok .programCurated
  | .subAccount a => do
    let _ ← addressOf a
    .ok (.subAccount (zeros 32))
  | .stake => .ok (.stake 0 none)
  | .stakeAll => .ok .stakeAll

/-! ## Wallet objects -/

/-- The parsers of private keys, with what they yield: `Keypair::from_base58_string` the public key (it panics on other texts),
`LocalSigner::from_str` the 64 bytes of the public key and the signing function, `EcKey::private_key_from_der` (external crates) the 33
bytes of the compressed key and the signing function. -/
structure Keys where
  solana : Text → Option Key
  k1 : Text → Option (Bytes × (Bytes → Bytes))
  r1 : Bytes → Option (Bytes × (Bytes → Bytes))

/-- Holder and fee payer of `create_swig_instance`, cli/src/commands.rs:29-144; the fee payer is also the authority keypair of the wallet
object (128-137). -/
def instanceOf (ks : Keys) (ty : Nat) (authority kp : Text) (feePayer : Option Text) : Except Fail (Holder × Key) :=
  match ks.solana (feePayer.getD kp) with
  | none => .error .panic
  | some fee =>
    if ty = T.ed25519 then
      match ks.solana kp with
      | none => .error .panic
      | some k => do
        let a ← addressOf authority
        .ok (.ed25519 a, k)
    else if ty = T.secp256k1 then
      match ks.k1 kp with
      | none => .error .refused
      | some (k, f) => .ok (.secp256k1 k f 0, fee)
    else if ty = T.secp256r1 then
      match (hexDecode (trim0x kp)).bind ks.r1 with
      | none => .error .refused
      | some (k, f) => .ok (.secp256r1 k f 0, fee)
    else .error .refused

/-- The wallet object of a command for a wallet that exists, cli/src/commands.rs:126-144 and `SwigWallet::new`; an error of the SDK
panics there.  `data` is the configuration account. -/
def openFor (ks : Keys) (ty : Nat) (authority kp : Text) (feePayer : Option Text) (swig wallet : Key) (data : Bytes) : Except Fail Obj :=
  match instanceOf ks ty authority kp feePayer with
  | .error e => .error e
  | .ok (h, payer) =>
    match openWallet data h with
    | some (id, h) => .ok ⟨swig, wallet, id, h, payer, some payer⟩
    | none => .error .panic

/-- The commands that look a role up by the text of its credential. -/
inductive Lookup where
  /-- `RemoveAuthority`, cli/src/commands.rs:336-366, and `remove_authority`, rust-sdk/src/wallet.rs:258-303. -/
  | remove
  /-- `GetRoleId`, cli/src/commands.rs:390-424. -/
  | roleId

/-- The bytes a command looks up. -/
def Lookup.bytes (c : Lookup) (ty : Nat) (t : Text) : Option Bytes :=
  match c with
  | .remove => some (utf8 t)
  | .roleId => formatAuthority ty t

/-- The role a command finds in the configuration account; for `RemoveAuthority` the one it asks the program to remove. -/
def Lookup.finds (c : Lookup) (ty : Nat) (t : Text) (data : Bytes) : Option Nat :=
  (c.bytes ty t).bind fun b =>
    match lookupRoleId data b with
    | .ok id => id
    | .error _ => none

end Verif.Cli
