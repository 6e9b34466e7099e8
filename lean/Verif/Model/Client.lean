import Verif.Model.Auth
import Verif.Model.Manage
import Verif.Model.Cpi
import Verif.Spec.Auth

/-!
# Client library

`interface/src/lib.rs` and `interface/src/replace_authority.rs`: how a client builds the instructions of the program.  The keys
and signing functions of the caller are parameters.  A builder returns the instruction for the program and what has to precede
it in the transaction.  Casts (`as u16`, `as u8`, `as u32`) truncate; `natLE` and `UInt8.ofNat` truncate in the same way.
-/

namespace Verif.Client

/-! ## Actions -/

/-- `ClientAction`, interface/src/lib.rs:68-96: one constructor per action, with the fields of its struct (state/src/action/*.rs) in
memory order. -/
inductive Action where
  | tokenLimit (mint : Key) (current : Nat)
  | tokenDestinationLimit (mint destination : Key) (amount : Nat)
  | tokenRecurringLimit (mint : Key) (window limit current lastReset : Nat)
  | tokenRecurringDestinationLimit (mint destination : Key) (recurring window lastReset current : Nat)
  | solLimit (amount : Nat)
  | solRecurringLimit (recurring window lastReset current : Nat)
  | solDestinationLimit (destination : Key) (amount : Nat)
  | solRecurringDestinationLimit (destination : Key) (recurring window lastReset current : Nat)
  | program (programId : Key)
  | programAll
  | programCurated (reserved : Bytes)
  | programScope (current limit window lastReset : Nat) (programId target : Key)
      (scopeType numericType fieldStart fieldEnd : Nat)
  | all
  | allButManageAuthority
  | manageAuthority
  | replaceAuthority (role : Nat) (pad : Bytes)
  | closeSwigAuthority
  | subAccount (address : Key) (bump : UInt8) (enabled : Bool) (pad : Bytes) (role : Nat) (swigId : Key)
  | subAccountV2Create
  | subAccountV2All (id : Nat) (pad : Bytes)
  | subAccountV2Sign (id : Nat) (pad : Bytes)
  | subAccountV2Withdraw (id : Nat) (pad : Bytes)
  | subAccountV2Toggle (id : Nat) (pad : Bytes)
  | stakeLimit (amount : Nat)
  | stakeRecurringLimit (recurring window lastReset current : Nat)
  | stakeAll
  deriving DecidableEq, Repr

/-- Permission number and length written into the header, `ClientAction::write`, interface/src/lib.rs:99-160. -/
def Action.header : Action → Nat × Nat
  | .tokenLimit .. => (P.tokenLimit, 40)
  | .tokenDestinationLimit .. => (P.tokenDestinationLimit, 72)
  | .tokenRecurringLimit .. => (P.tokenRecurringLimit, 64)
  | .tokenRecurringDestinationLimit .. => (P.tokenRecurringDestinationLimit, 96)
  | .solLimit .. => (P.solLimit, 8)
  | .solRecurringLimit .. => (P.solRecurringLimit, 32)
  | .solDestinationLimit .. => (P.solDestinationLimit, 40)
  | .solRecurringDestinationLimit .. => (P.solRecurringDestinationLimit, 64)
  | .program .. => (P.program, 32)
  | .programAll => (P.programAll, 0)
  | .programCurated .. => (P.programCurated, 32)
  | .programScope .. => (P.programScope, 144)
  | .all => (P.all, 0)
  | .allButManageAuthority => (P.allButManageAuthority, 0)
  | .manageAuthority => (P.manageAuthority, 0)
  | .replaceAuthority .. => (P.replaceAuthority, 8)
  | .closeSwigAuthority => (P.closeSwigAuthority, 0)
  | .subAccount .. => (P.subAccount, 72)
  | .subAccountV2Create => (P.subAccountV2Create, 0)
  | .subAccountV2All .. => (P.subAccountV2All, 8)
  | .subAccountV2Sign .. => (P.subAccountV2Sign, 8)
  | .subAccountV2Withdraw .. => (P.subAccountV2Withdraw, 8)
  | .subAccountV2Toggle .. => (P.subAccountV2Toggle, 8)
  | .stakeLimit .. => (P.stakeLimit, 8)
  | .stakeRecurringLimit .. => (P.stakeRecurringLimit, 32)
  | .stakeAll => (P.stakeAll, 0)

/-- `into_bytes` of the struct, interface/src/lib.rs:171-198: its memory (`repr(C)`, little endian); state/src/action/*.rs. -/
def Action.bytes : Action → Bytes
  | .tokenLimit m a => m ++ natLE 8 a
  | .tokenDestinationLimit m d a => m ++ d ++ natLE 8 a
  | .tokenRecurringLimit m w l c r => m ++ natLE 8 w ++ natLE 8 l ++ natLE 8 c ++ natLE 8 r
  | .tokenRecurringDestinationLimit m d a w r c => m ++ d ++ natLE 8 a ++ natLE 8 w ++ natLE 8 r ++ natLE 8 c
  | .solLimit a => natLE 8 a
  | .solRecurringLimit a w r c => natLE 8 a ++ natLE 8 w ++ natLE 8 r ++ natLE 8 c
  | .solDestinationLimit d a => d ++ natLE 8 a
  | .solRecurringDestinationLimit d a w r c => d ++ natLE 8 a ++ natLE 8 w ++ natLE 8 r ++ natLE 8 c
  | .program p => p
  | .programAll => []
  | .programCurated r => r
  | .programScope c l w r p t st nt s e =>
    natLE 16 c ++ natLE 16 l ++ natLE 8 w ++ natLE 8 r ++ p ++ t ++ natLE 8 st ++ natLE 8 nt ++ natLE 8 s ++ natLE 8 e
  | .all => []
  | .allButManageAuthority => []
  | .manageAuthority => []
  | .replaceAuthority r pad => natLE 4 r ++ pad
  | .closeSwigAuthority => []
  | .subAccount a b en pad r s => a ++ [b] ++ [if en then 1 else 0] ++ pad ++ natLE 4 r ++ s
  | .subAccountV2Create => []
  | .subAccountV2All i pad => natLE 4 i ++ pad
  | .subAccountV2Sign i pad => natLE 4 i ++ pad
  | .subAccountV2Withdraw i pad => natLE 4 i ++ pad
  | .subAccountV2Toggle i pad => natLE 4 i ++ pad
  | .stakeLimit a => natLE 8 a
  | .stakeRecurringLimit a w r c => natLE 8 a ++ natLE 8 w ++ natLE 8 r ++ natLE 8 c
  | .stakeAll => []

/-- `ClientAction::write`, interface/src/lib.rs:98-203: header (type, length, end offset in the buffer), then the struct. -/
def Action.write (buf : Bytes) (a : Action) : Bytes :=
  buf ++ (natLE 2 a.header.1 ++ natLE 2 a.header.2 ++ natLE 4 (buf.length + 8 + a.header.2)) ++ a.bytes

/-- The loop over the actions, for instance interface/src/lib.rs:296-301, 1249-1258. -/
def writeActions (as : List Action) : Bytes := as.foldl Action.write []

/-! ## Callers and their proofs -/

/-- What the builder of one credential kind is given about the caller. -/
inductive Caller where
  /-- A key that signs the transaction. -/
  | ed25519 (authority : Key)
  /-- A function signing a 32-byte hash with 65 bytes, the slot and the counter to use. -/
  | secp256k1 (sign : Bytes → Bytes) (slot counter : Nat)
  /-- A function signing a 32-byte hash with 64 bytes, the public key, the slot and the counter to use. -/
  | secp256r1 (sign : Bytes → Bytes) (pk : Bytes) (slot counter : Nat)
  /-- The instruction that proves the authority, and its index in the transaction if given. -/
  | exec (preceding : TxIx) (target : Option UInt8)

/-- The instructions returned: those before, and accounts and data of the one for the program. -/
structure Built where
  before : List TxIx
  accounts : List Meta
  data : Bytes

/-- `AccountMeta::new(key, false)`, `AccountMeta::new(key, true)`, `AccountMeta::new_readonly(key, ..)`. -/
def w (k : Key) : Meta := ⟨k, false, true⟩
def ws (k : Key) : Meta := ⟨k, true, true⟩
def ro (k : Key) : Meta := ⟨k, false, false⟩
def ros (k : Key) : Meta := ⟨k, true, false⟩

/-- `accounts_payload_from_meta(..).into_bytes()` for all accounts, interface/src/lib.rs:266-268, 4528-4538;
`AccountsPayload`, state/src/authority/secp256k1.rs:582-610: key, writable, signer, six zero bytes. -/
def accountsPayload (accounts : List Meta) : Bytes :=
  accounts.flatMap fun a => a.key ++ [if a.writable then 1 else 0] ++ [if a.signer then 1 else 0] ++ zeros 6

/-- `prepare_secp256k1_payload`, interface/src/lib.rs:244-264, with the empty prefix all builders pass. -/
def k1Message (env : Env) (slot counter : Nat) (data : Bytes) (accounts : List Meta) : Bytes :=
  env.keccak (hexEncode (env.sha256 (data ++ accountsPayload accounts ++ natLE 8 slot ++ natLE 4 counter)))

/-- The message of the Secp256r1 builders, for instance interface/src/lib.rs:489-498, 4565-4574. -/
def r1Digest (env : Env) (slot counter : Nat) (data : Bytes) (accounts : List Meta) : Bytes :=
  env.keccak (data ++ accountsPayload accounts ++ natLE 8 slot ++ natLE 4 counter)

/-- `new_secp256r1_instruction_with_signature` of the external crate `solana-secp256r1-program`: one signature, all offsets
into this instruction; header of 2 bytes, offsets of 14 bytes, public key, signature, message. -/
def r1Verify (message signature pk : Bytes) : TxIx where
  program := secp256r1Id
  accounts := []
  data := [1, 0] ++ natLE 2 49 ++ natLE 2 0xFFFF ++ natLE 2 16 ++ natLE 2 0xFFFF ++ natLE 2 113 ++ natLE 2 message.length ++
    natLE 2 0xFFFF ++ pk ++ signature ++ message

/-- Ed25519 builders: the index of the signer, for instance interface/src/lib.rs:351. -/
def byEd (accounts : List Meta) (data : Bytes) (index : UInt8) : Built := ⟨[], accounts, data ++ [index]⟩

/-- Secp256k1 builders: slot, counter, signature; for instance interface/src/lib.rs:403-428, 4507-4525. -/
def byK1 (env : Env) (accounts : List Meta) (data signed : Bytes) (sign : Bytes → Bytes) (slot counter : Nat) : Built :=
  ⟨[], accounts, data ++ (natLE 8 slot ++ natLE 4 counter ++ sign (k1Message env slot counter signed accounts))⟩

/-- Older Secp256k1 builders: counter 0 in the message, slot and signature only in the payload; for instance
interface/src/lib.rs:1941-1950. -/
def byK1Old (env : Env) (accounts : List Meta) (data signed : Bytes) (sign : Bytes → Bytes) (slot : Nat) : Built :=
  ⟨[], accounts, data ++ (natLE 8 slot ++ sign (k1Message env slot 0 signed accounts))⟩

/-- Secp256r1 builders: slot, counter, index of the instructions sysvar, four zero bytes; for instance
interface/src/lib.rs:500-528, 4548-4589. -/
def byR1 (env : Env) (accounts : List Meta) (data signed : Bytes) (sign : Bytes → Bytes) (pk : Bytes) (slot counter : Nat)
    (index : UInt8) : Built :=
  let d := r1Digest env slot counter signed accounts
  ⟨[r1Verify d (sign d) pk], accounts, data ++ (natLE 8 slot ++ natLE 4 counter ++ [index] ++ zeros 4)⟩

/-- Older Secp256r1 builders: the same without the four zero bytes, for instance interface/src/lib.rs:2020-2026. -/
def byR1Old (env : Env) (accounts : List Meta) (data signed : Bytes) (sign : Bytes → Bytes) (pk : Bytes) (slot counter : Nat)
    (index : UInt8) : Built :=
  let d := r1Digest env slot counter signed accounts
  ⟨[r1Verify d (sign d) pk], accounts, data ++ (natLE 8 slot ++ natLE 4 counter ++ [index])⟩

/-- Program-exec builders: `build_program_exec_authority_payload`, interface/src/lib.rs:229-237. -/
def byExec (preceding : TxIx) (accounts : List Meta) (data : Bytes) (index : UInt8) (target : Option UInt8) : Built :=
  ⟨[preceding], accounts, data ++ (match target with | some i => [index, i] | none => [index])⟩

/-! ## Creating a wallet -/

/-- `CreateInstruction::new`, interface/src/lib.rs:272-313; `CreateV1Args`, program/src/actions/create_v1.rs:43-76. -/
def create (swig payer wallet : Key) (bump walletBump : UInt8) (ty : Nat) (cred : Bytes) (acts : List Action) (id : Key) : Built :=
  ⟨[], [w swig, ws payer, w wallet, w systemId],
    natLE 2 0 ++ natLE 2 ty ++ natLE 2 cred.length ++ [bump] ++ [walletBump] ++ id ++ cred ++ writeActions acts⟩

/-! ## Managing a wallet -/

/-- `AddAuthorityV1Args` with credential and actions: program/src/actions/add_authority_v1.rs:59-99, interface/src/lib.rs:332-349. -/
def addData (acting ty : Nat) (cred : Bytes) (acts : List Action) : Bytes :=
  natLE 2 1 ++ natLE 2 cred.length ++ natLE 2 (writeActions acts).length ++ natLE 2 ty ++ [UInt8.ofNat acts.length] ++ zeros 3 ++
    natLE 4 acting ++ cred ++ writeActions acts

/-- The accounts most managing instructions share. -/
def managing (swig payer : Key) : List Meta := [w swig, ws payer, ro systemId]

/-- The four credential kinds of the managing instructions with the same accounts: signer at index 3, instructions sysvar at index 3. -/
def manageBy (env : Env) (swig payer : Key) (data : Bytes) : Caller → Built
  | .ed25519 k => byEd (managing swig payer ++ [ros k]) data 3
  | .secp256k1 sign slot counter => byK1 env (managing swig payer) data data sign slot counter
  | .secp256r1 sign pk slot counter =>
    byR1 env (managing swig payer ++ [ro instructionsSysvarId]) data data sign pk slot counter 3
  | .exec p t => byExec p (managing swig payer ++ [ro instructionsSysvarId]) data 3 t

/-- `AddAuthorityInstruction::new_with_*`, interface/src/lib.rs:317-647. -/
def addAuthority (env : Env) (swig payer : Key) (acting ty : Nat) (cred : Bytes) (acts : List Action) : Caller → Built :=
  manageBy env swig payer (addData acting ty cred acts)

/-- `RemoveAuthorityV1Args`, program/src/actions/remove_authority_v1.rs:50-82; `authority_payload_len` as the builders of
interface/src/lib.rs:993-1218 pass it (the program does not read it). -/
def removeData (payloadLen acting target : Nat) : Bytes :=
  natLE 2 2 ++ natLE 2 payloadLen ++ zeros 4 ++ natLE 4 acting ++ natLE 4 target

/-- `RemoveAuthorityInstruction::new_with_*`, interface/src/lib.rs:992-1218. -/
def removeAuthority (env : Env) (swig payer : Key) (acting target : Nat) (c : Caller) : Built :=
  match c with
  | .ed25519 _ => manageBy env swig payer (removeData 1 acting target) c
  | .secp256k1 .. => manageBy env swig payer (removeData 65 acting target) c
  | .secp256r1 .. => manageBy env swig payer (removeData 17 acting target) c
  | .exec .. => manageBy env swig payer (removeData 1 acting target) c

/-- `UpdateAuthorityData`, interface/src/lib.rs:1220-1225. -/
inductive Change where
  | replaceAll (acts : List Action)
  | addActions (acts : List Action)
  | removeByType (types : Bytes)
  | removeByIndex (indices : List Nat)
  deriving DecidableEq, Repr

/-- `to_operation_and_data` (interface/src/lib.rs:1228-1247) with the operation byte in front (1300-1303);
`AuthorityUpdateOperation`, program/src/actions/update_authority_v1.rs:92-103. -/
def Change.bytes : Change → Bytes
  | .replaceAll acts => 0 :: writeActions acts
  | .addActions acts => 1 :: writeActions acts
  | .removeByType types => 2 :: types
  | .removeByIndex indices => 3 :: indices.flatMap (natLE 2)

/-- `UpdateAuthorityV1Args`, program/src/actions/update_authority_v1.rs:129-160, interface/src/lib.rs:1305-1314. -/
def updateData (acting target : Nat) (c : Change) : Bytes :=
  natLE 2 3 ++ natLE 2 c.bytes.length ++ [0] ++ zeros 3 ++ natLE 4 acting ++ natLE 4 target ++ c.bytes

/-- `UpdateAuthorityInstruction::new_with_*`, interface/src/lib.rs:1263-1634. -/
def updateAuthority (env : Env) (swig payer : Key) (acting target : Nat) (c : Change) : Caller → Built :=
  manageBy env swig payer (updateData acting target c)

/-- `CreateSessionV1Args`, program/src/actions/create_session_v1.rs:34-62. -/
def sessionData (role duration : Nat) (key : Key) : Bytes :=
  natLE 2 5 ++ zeros 2 ++ natLE 4 role ++ natLE 8 duration ++ key

/-- `CreateSessionInstruction::new_with_*`, interface/src/lib.rs:1638-1875; the Ed25519 builder passes no System program. -/
def createSession (env : Env) (swig payer : Key) (role duration : Nat) (key : Key) (c : Caller) : Built :=
  match c with
  | .ed25519 k => byEd [w swig, ws payer, ros k] (sessionData role duration key) 2
  | c => manageBy env swig payer (sessionData role duration key) c

/-- `SetRentClaimerV1Args`, program/src/actions/set_rent_claimer_v1.rs:27-45. -/
def claimerData (role : Nat) (claimer : Key) : Bytes := natLE 2 17 ++ zeros 2 ++ natLE 4 role ++ claimer

/-- `SetRentClaimerV1Instruction::new_with_*`, interface/src/lib.rs:3366-3515; no program-exec builder. -/
def setRentClaimer (env : Env) (swig payer : Key) (role : Nat) (claimer : Key) (c : Caller) : Option Built :=
  match c with
  | .exec .. => none
  | c => some (manageBy env swig payer (claimerData role claimer) c)

/-- `build_data_payload`, interface/src/replace_authority.rs:24-42; `ReplaceAuthorityV1Args`,
program/src/actions/replace_authority_v1.rs:50-75.  Only lengths 32, 33 and 64 are accepted. -/
def replaceData (acting target : Nat) (new : Bytes) : Option Bytes :=
  if new.length = 32 ∨ new.length = 33 ∨ new.length = 64 then
    some (natLE 2 16 ++ zeros 2 ++ natLE 4 acting ++ natLE 4 target ++ natLE 2 new.length ++ zeros 2 ++ new)
  else none

/-- The keys as `program_exec_proof_data` takes them for the type of the target, interface/src/replace_authority.rs:55-79, with
`normalize_secp256k1_authority`, 249-265. -/
def proofKey (ty : Nat) (key : Bytes) : Option Bytes :=
  if ty = T.ed25519 ∨ ty = T.ed25519Session then if key.length = 32 then some key else none
  else if ty = T.secp256k1 ∨ ty = T.secp256k1Session then
    if key.length = 33 then some key else if key.length = 64 then some (compressKey key) else none
  else if ty = T.secp256r1 ∨ ty = T.secp256r1Session then if key.length = 33 then some key else none
  else none

/-- `program_exec_proof_data`, interface/src/replace_authority.rs:44-98: the data of the instruction by which a program proves a
replacement.  `hashv` hashes the concatenation. -/
def proofData (env : Env) (swig wallet : Key) (acting target ty : Nat) (current new : Bytes) : Option Bytes :=
  (proofKey ty current).bind fun current => (proofKey ty new).bind fun new =>
    some (ascii "rplauth1" ++
      env.sha256 (ascii "swig-replace-authority-v1" ++ swig ++ wallet ++ natLE 4 acting ++ natLE 4 target ++ natLE 2 ty ++ current ++ new))

/-- `ReplaceAuthorityInstruction::new_with_*`, interface/src/replace_authority.rs:102-246; the program-exec builder has no
instruction index. -/
def replaceAuthority (env : Env) (swig wallet : Key) (acting target : Nat) (new : Bytes) (c : Caller) : Option Built :=
  (replaceData acting target new).bind fun data =>
    match c with
    | .ed25519 k => some (byEd [w swig, ros k] data 1)
    | .secp256k1 sign slot counter => some (byK1 env [w swig] data data sign slot counter)
    | .secp256r1 sign pk slot counter =>
      some (byR1 env [w swig, ro instructionsSysvarId] data data sign pk slot counter 1)
    | .exec p none => some (byExec p [w swig, ro wallet, ro instructionsSysvarId] data 2 none)
    | .exec _ (some _) => none

/-! ## Signing -/

/-- Loop of the `_with_signers` builders, interface/src/lib.rs:677-684. -/
def markSigners (signers : List Key) (accounts : List Meta) : List Meta :=
  accounts.map fun a => if signers.contains a.key then { a with signer := true } else a

/-- `SignV2Args` and the inner instructions, program/src/actions/sign_v2.rs:121-140, interface/src/lib.rs:685-699. -/
def signData (role : Nat) (ixBytes : Bytes) : Bytes := natLE 2 11 ++ natLE 2 ixBytes.length ++ natLE 4 role ++ ixBytes

/-- `SignV2Instruction::new_*`, interface/src/lib.rs:650-989.  Only the compact instructions are signed.  The program-exec
builders take the payer and no extra signers. -/
def signV2 (env : Env) (swig wallet payer : Key) (role : Nat) (inner : FullIx) (signers : List Key) : Caller → Built
  | .ed25519 k =>
    let (accounts, ixs) := compactInstructions [swig] [w swig, w wallet, ros k] [inner]
    byEd (markSigners signers accounts) (signData role (compactBytes ixs)) 2
  | .secp256k1 sign slot counter =>
    let (accounts, ixs) := compactInstructions [swig] [w swig, w wallet, ro systemId] [inner]
    byK1 env (markSigners signers accounts) (signData role (compactBytes ixs)) (compactBytes ixs) sign slot counter
  | .secp256r1 sign pk slot counter =>
    let (accounts, ixs) := compactInstructions [swig] [w swig, w wallet, ro systemId, ro instructionsSysvarId] [inner]
    byR1 env (markSigners signers accounts) (signData role (compactBytes ixs)) (compactBytes ixs) sign pk slot counter 3
  | .exec p t =>
    let (accounts, ixs) := compactInstructions [swig] [w swig, w wallet, ws payer] [inner]
    byExec p (accounts ++ [ro instructionsSysvarId]) (signData role (compactBytes ixs)) (UInt8.ofNat accounts.length) t

/-! ## Sub-accounts, version 1 -/

/-- `CreateSubAccountV1Args`, program/src/actions/create_sub_account_v1.rs:49-75. -/
def createSubData (role : Nat) (bump : UInt8) : Bytes := natLE 2 6 ++ zeros 2 ++ natLE 4 role ++ [bump] ++ zeros 7

/-- `CreateSubAccountInstruction::new_with_*`, interface/src/lib.rs:1879-2112. -/
def createSubV1 (env : Env) (swig payer sub : Key) (role : Nat) (bump : UInt8) : Caller → Built
  | .ed25519 k => byEd [w swig, ws payer, w sub, ro systemId, ros k] (createSubData role bump) 4
  | .secp256k1 sign slot _ =>
    byK1Old env [w swig, ws payer, w sub, ro systemId] (createSubData role bump) (createSubData role bump) sign slot
  | .secp256r1 sign pk slot counter =>
    byR1Old env [w swig, ws payer, w sub, ro systemId, ro instructionsSysvarId] (createSubData role bump) (createSubData role bump)
      sign pk slot counter 4
  | .exec p t => byExec p [w swig, ws payer, w sub, ro systemId, ro instructionsSysvarId] (createSubData role bump) 4 t

/-- `WithdrawFromSubAccountV1Args`, program/src/actions/withdraw_from_sub_account_v1.rs:46-70. -/
def withdrawSubData (role amount : Nat) : Bytes := natLE 2 7 ++ zeros 2 ++ natLE 4 role ++ natLE 8 amount

/-- Accounts of a token withdrawal: token account of the sub-account, of the wallet, token program. -/
structure Tokens where
  sub : Key
  wallet : Key
  program : Key
  deriving DecidableEq, Repr

def Tokens.metas (t : Tokens) : List Meta := [w t.sub, w t.wallet, ro t.program]

/-- `WithdrawFromSubAccountInstruction`, SOL: interface/src/lib.rs:2117-2199, 2297-2376, 2463-2502, 2551-2589. -/
def withdrawSubV1 (env : Env) (swig payer sub wallet : Key) (role amount : Nat) : Caller → Built
  | .ed25519 k => byEd [w swig, ros payer, w sub, ros k, w wallet, ro systemId] (withdrawSubData role amount) 3
  | .secp256k1 sign slot _ =>
    byK1Old env [w swig, ros payer, w sub, ro systemId, w wallet, ro systemId] (withdrawSubData role amount)
      (withdrawSubData role amount) sign slot
  | .secp256r1 sign pk slot counter =>
    byR1 env [w swig, ros payer, w sub, ro instructionsSysvarId, w wallet, ro systemId] (withdrawSubData role amount)
      (withdrawSubData role amount) sign pk slot counter 3
  | .exec p t =>
    byExec p [w swig, ros payer, w sub, w wallet, ro systemId, ro instructionsSysvarId] (withdrawSubData role amount) 5 t

/-- `WithdrawFromSubAccountInstruction`, tokens: interface/src/lib.rs:2201-2295, 2378-2461, 2504-2549, 2591-2636. -/
def withdrawSubTokenV1 (env : Env) (swig payer sub wallet : Key) (t : Tokens) (role amount : Nat) : Caller → Built
  | .ed25519 k => byEd ([w swig, ros payer, w sub, ros k, w wallet, ro systemId] ++ t.metas) (withdrawSubData role amount) 3
  | .secp256k1 sign slot _ =>
    byK1Old env ([w swig, ros payer, w sub, ro systemId, w wallet, ro systemId] ++ t.metas) (withdrawSubData role amount)
      (withdrawSubData role amount) sign slot
  | .secp256r1 sign pk slot counter =>
    byR1Old env ([w swig, ros payer, w sub, ro instructionsSysvarId, w wallet, ro systemId] ++ t.metas) (withdrawSubData role amount)
      (withdrawSubData role amount) sign pk slot counter 3
  | .exec p tgt =>
    byExec p [w swig, ros payer, w sub, w wallet, w t.sub, w t.wallet, ro systemId, ro t.program, ro instructionsSysvarId]
      (withdrawSubData role amount) 8 tgt

/-- `SubAccountSignV1Args` and the inner instructions, program/src/actions/sub_account_sign_v1.rs:41-65. -/
def subSignData (role : Nat) (ixBytes : Bytes) : Bytes :=
  natLE 2 9 ++ natLE 2 ixBytes.length ++ natLE 4 role ++ zeros 8 ++ ixBytes

/-- `SubAccountSignInstruction::new_with_*`, interface/src/lib.rs:2640-2878. -/
def subSignV1 (env : Env) (swig payer sub : Key) (role : Nat) (inner : List FullIx) : Caller → Built
  | .ed25519 k =>
    let (accounts, ixs) := compactInstructions [swig, sub] [ro swig, w sub, ro systemId, ros k] inner
    byEd accounts (subSignData role (compactBytes ixs)) 3
  | .secp256k1 sign slot _ =>
    let (accounts, ixs) := compactInstructions [swig, sub] [ro swig, w sub, ro systemId] inner
    byK1Old env accounts (subSignData role (compactBytes ixs)) (compactBytes ixs) sign slot
  | .secp256r1 sign pk slot counter =>
    let (accounts, ixs) := compactInstructions [swig, sub] [ro swig, w sub, ro systemId, ro instructionsSysvarId] inner
    byR1Old env accounts (subSignData role (compactBytes ixs)) (compactBytes ixs) sign pk slot counter 4
  | .exec p t =>
    let (accounts, ixs) := compactInstructions [swig, sub] [ro swig, ros payer, w sub, ro systemId, ro instructionsSysvarId] inner
    byExec p accounts (subSignData role (compactBytes ixs)) 4 t

/-- `ToggleSubAccountV1Args`, program/src/actions/toggle_sub_account_v1.rs:42-70. -/
def toggleSubData (role authRole : Nat) (enabled : Bool) : Bytes :=
  natLE 2 10 ++ [if enabled then 1 else 0] ++ zeros 5 ++ natLE 4 role ++ natLE 4 authRole

/-- `ToggleSubAccountInstruction::new_with_*`, interface/src/lib.rs:2882-3123. -/
def toggleSubV1 (env : Env) (swig payer sub : Key) (role authRole : Nat) (enabled : Bool) : Caller → Built
  | .ed25519 k => byEd [w swig, ros payer, w sub, ros k] (toggleSubData role authRole enabled) 3
  | .secp256k1 sign slot _ =>
    byK1Old env [w swig, ros payer, w sub] (toggleSubData role authRole enabled) (toggleSubData role authRole enabled) sign slot
  | .secp256r1 sign pk slot counter =>
    byR1Old env [w swig, ros payer, w sub, ro systemId, ro instructionsSysvarId] (toggleSubData role authRole enabled)
      (toggleSubData role authRole enabled) sign pk slot counter 4
  | .exec p t => byExec p [w swig, ros payer, w sub, ro instructionsSysvarId] (toggleSubData role authRole enabled) 3 t

/-! ## Moving assets and closing -/

/-- `TransferAssetsV1Args`, `CloseSwigV1Args`, `CloseTokenAccountV1Args`: number, a `u16`, role;
program/src/actions/transfer_assets_v1.rs:45-60, close_swig_v1.rs:36-55, close_token_account_v1.rs:39-60. -/
def roleData (number u16 role : Nat) : Bytes := natLE 2 number ++ natLE 2 u16 ++ natLE 4 role

/-- `TransferAssetsV1Instruction::new_with_*`, interface/src/lib.rs:3127-3363. -/
def transferAssets (env : Env) (swig wallet payer : Key) (role : Nat) : Caller → Built
  | .ed25519 k => byEd [w swig, w wallet, ws payer, ro systemId, ros k] (roleData 13 0 role) 4
  | .secp256k1 sign slot _ =>
    byK1Old env [w swig, w wallet, ws payer, ro systemId] (roleData 13 0 role) (roleData 13 0 role) sign slot
  | .secp256r1 sign pk slot counter =>
    byR1Old env [w swig, w wallet, ws payer, ro systemId, ro instructionsSysvarId] (roleData 13 0 role) (roleData 13 0 role)
      sign pk slot counter 4
  | .exec p t => byExec p [w swig, w wallet, ws payer, ro systemId, ro instructionsSysvarId] (roleData 13 0 role) 4 t

/-- `CloseTokenAccountV1Instruction::new_with_*`, interface/src/lib.rs:3517-3715: the token accounts come last and the
arguments name the index of the first one; no program-exec builder. -/
def closeTokens (env : Env) (swig wallet dst tokenProgram : Key) (role : Nat) (tokens : List Key) : Caller → Option Built
  | .ed25519 k => some (byEd ([w swig, w wallet, w dst, ro tokenProgram, ros k] ++ tokens.map w) (roleData 14 5 role) 4)
  | .secp256k1 sign slot counter =>
    some (byK1 env ([w swig, w wallet, w dst, ro tokenProgram] ++ tokens.map w) (roleData 14 4 role) (roleData 14 4 role) sign slot
      counter)
  | .secp256r1 sign pk slot counter =>
    some (byR1 env ([w swig, w wallet, w dst, ro tokenProgram, ro instructionsSysvarId] ++ tokens.map w) (roleData 14 5 role)
      (roleData 14 5 role) sign pk slot counter 4)
  | .exec .. => none

/-- `CloseSwigV1Instruction::new_with_*`, interface/src/lib.rs:3717-3880; no program-exec builder. -/
def closeSwig (env : Env) (swig wallet dst : Key) (role : Nat) : Caller → Option Built
  | .ed25519 k => some (byEd [w swig, w wallet, w dst, ro systemId, ros k] (roleData 15 0 role) 4)
  | .secp256k1 sign slot counter =>
    some (byK1 env [w swig, w wallet, w dst, ro systemId] (roleData 15 0 role) (roleData 15 0 role) sign slot counter)
  | .secp256r1 sign pk slot counter =>
    some (byR1 env [w swig, w wallet, w dst, ro systemId, ro instructionsSysvarId] (roleData 15 0 role) (roleData 15 0 role)
      sign pk slot counter 4)
  | .exec .. => none

/-! ## Sub-accounts, version 2 (no program-exec builders) -/

/-- `CreateSubAccountV2Args`, program/src/actions/create_sub_account_v2.rs:43-70. -/
def createSubV2Data (role : Nat) (stateBump assetBump : UInt8) : Bytes :=
  natLE 2 18 ++ zeros 2 ++ natLE 4 role ++ [stateBump] ++ [assetBump] ++ zeros 6

/-- `CreateSubAccountV2Instruction::new_with_*`, interface/src/lib.rs:3885-3999. -/
def createSubV2 (env : Env) (swig payer state sub : Key) (role : Nat) (stateBump assetBump : UInt8) : Caller → Option Built
  | .ed25519 k => some (byEd [w swig, ws payer, w state, w sub, ro systemId, ros k] (createSubV2Data role stateBump assetBump) 5)
  | .secp256k1 sign slot counter =>
    some (byK1 env [w swig, ws payer, w state, w sub, ro systemId] (createSubV2Data role stateBump assetBump)
      (createSubV2Data role stateBump assetBump) sign slot counter)
  | .secp256r1 sign pk slot counter =>
    some (byR1 env [w swig, ws payer, w state, w sub, ro systemId, ro instructionsSysvarId] (createSubV2Data role stateBump assetBump)
      (createSubV2Data role stateBump assetBump) sign pk slot counter 5)
  | .exec .. => none

/-- `ToggleSubAccountV2Args`, program/src/actions/toggle_sub_account_v2.rs:34-60. -/
def toggleSubV2Data (authRole id : Nat) (enabled : Bool) : Bytes :=
  natLE 2 19 ++ [if enabled then 1 else 0] ++ zeros 1 ++ natLE 4 authRole ++ natLE 4 id ++ zeros 4

/-- `ToggleSubAccountV2Instruction::new_with_*`, interface/src/lib.rs:4003-4111. -/
def toggleSubV2 (env : Env) (swig payer state : Key) (authRole id : Nat) (enabled : Bool) : Caller → Option Built
  | .ed25519 k => some (byEd [w swig, ws payer, w state, ros k] (toggleSubV2Data authRole id enabled) 3)
  | .secp256k1 sign slot counter =>
    some (byK1 env [w swig, ws payer, w state] (toggleSubV2Data authRole id enabled) (toggleSubV2Data authRole id enabled)
      sign slot counter)
  | .secp256r1 sign pk slot counter =>
    some (byR1 env [w swig, ws payer, w state, ro systemId, ro instructionsSysvarId] (toggleSubV2Data authRole id enabled)
      (toggleSubV2Data authRole id enabled) sign pk slot counter 4)
  | .exec .. => none

/-- `SubAccountSignV2Args` and the inner instructions, program/src/actions/sub_account_sign_v2.rs:131-155. -/
def subSignV2Data (role id : Nat) (ixBytes : Bytes) : Bytes :=
  natLE 2 20 ++ natLE 2 ixBytes.length ++ natLE 4 role ++ natLE 4 id ++ zeros 4 ++ ixBytes

/-- `SubAccountSignV2Instruction::new_with_*`, interface/src/lib.rs:4115-4232.  Arguments and instructions are signed. -/
def subSignV2 (env : Env) (swig state sub : Key) (role id : Nat) (inner : List FullIx) : Caller → Option Built
  | .ed25519 k =>
    let (accounts, ixs) := compactInstructions [swig, sub] [w swig, ro state, w sub, ro systemId, ros k] inner
    some (byEd accounts (subSignV2Data role id (compactBytes ixs)) 4)
  | .secp256k1 sign slot counter =>
    let (accounts, ixs) := compactInstructions [swig, sub] [w swig, ro state, w sub, ro systemId] inner
    some (byK1 env accounts (subSignV2Data role id (compactBytes ixs)) (subSignV2Data role id (compactBytes ixs)) sign slot counter)
  | .secp256r1 sign pk slot counter =>
    let (accounts, ixs) := compactInstructions [swig, sub] [w swig, ro state, w sub, ro systemId, ro instructionsSysvarId] inner
    some (byR1 env accounts (subSignV2Data role id (compactBytes ixs)) (subSignV2Data role id (compactBytes ixs)) sign pk slot counter 4)
  | .exec .. => none

/-- `WithdrawFromSubAccountV2Args`, program/src/actions/withdraw_from_sub_account_v2.rs:41-70. -/
def withdrawSubV2Data (role id amount : Nat) : Bytes :=
  natLE 2 21 ++ zeros 2 ++ natLE 4 role ++ natLE 4 id ++ zeros 4 ++ natLE 8 amount

/-- `WithdrawFromSubAccountV2Instruction::new_*`, SOL (no token accounts) and tokens, interface/src/lib.rs:4236-4500. -/
def withdrawSubV2 (env : Env) (swig payer state sub wallet : Key) (tokens : Option Tokens) (role id amount : Nat) :
    Caller → Option Built
  | .ed25519 k =>
    some (byEd ([w swig, ws payer, ro state, w sub, w wallet, ros k, ro systemId] ++ (tokens.map Tokens.metas).getD [])
      (withdrawSubV2Data role id amount) 5)
  | .secp256k1 sign slot counter =>
    some (byK1 env ([w swig, ws payer, ro state, w sub, w wallet, ro systemId, ro systemId] ++ (tokens.map Tokens.metas).getD [])
      (withdrawSubV2Data role id amount) (withdrawSubV2Data role id amount) sign slot counter)
  | .secp256r1 sign pk slot counter =>
    some (byR1 env ([w swig, ws payer, ro state, w sub, w wallet, ro instructionsSysvarId, ro systemId] ++
      (tokens.map Tokens.metas).getD []) (withdrawSubV2Data role id amount) (withdrawSubV2Data role id amount) sign pk slot counter 5)
  | .exec .. => none

end Verif.Client
