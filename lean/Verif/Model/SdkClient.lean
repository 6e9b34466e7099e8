import Verif.Model.SdkWallet

/-!
# Credential holders and the wallet object of the Rust SDK

`rust-sdk/src/client_role.rs`: the seven implementations of `ClientRole`.  Each holds what proves one role and calls the instruction
builders of the interface crate (`Model/Client.lean`).  `rust-sdk/src/instruction_builder.rs` hands its own fields to them;
`rust-sdk/src/wallet.rs`: which keys sign the transaction of a request and what the wallet object does after it.  The RPC client, block hashes
and lookup tables are not modelled: the slot and the data of the configuration account are parameters.  Addresses derived with
`find_program_address` are parameters of the requests.
-/

namespace Verif.Sdk
open Client

/-- The implementations of `ClientRole`, rust-sdk/src/client_role.rs: `Ed25519ClientRole` 258-266, `Secp256k1ClientRole` 679-704,
`Secp256r1ClientRole` 1198-1223, `Ed25519SessionClientRole` 1721-1729, `Secp256k1SessionClientRole` 2168-2197, `Secp256r1SessionClientRole`
2651-2680, `ProgramExecClientRole` 3143-3182 (the function returning the preceding instruction is that instruction). -/
inductive Holder where
  | ed25519 (authority : Key)
  | secp256k1 (authority : Bytes) (sign : Bytes → Bytes) (odometer : Nat)
  | secp256r1 (authority : Bytes) (sign : Bytes → Bytes) (odometer : Nat)
  | ed25519Session (publicKey sessionKey : Key) (max : Nat)
  | secp256k1Session (publicKey : Bytes) (sessionKey : Key) (max : Nat) (sign : Bytes → Bytes) (odometer : Nat)
  | secp256r1Session (publicKey : Bytes) (sessionKey : Key) (max : Nat) (sign : Bytes → Bytes) (odometer : Nat)
  | exec (program : Key) (pfx : Bytes) (preceding : TxIx)

namespace Holder

/-- `authority_type`, rust-sdk/src/client_role.rs:632-634, 1132-1134, 1667-1669, 2120-2122, 2600-2602, 3085-3087, 3512-3514. -/
def ty : Holder → Nat
  | .ed25519 .. => T.ed25519
  | .secp256k1 .. => T.secp256k1
  | .secp256r1 .. => T.secp256r1
  | .ed25519Session .. => T.ed25519Session
  | .secp256k1Session .. => T.secp256k1Session
  | .secp256r1Session .. => T.secp256r1Session
  | .exec .. => T.programExec

/-- `ProgramExecAuthority::create_authority_data`, state/src/authority/programexec/mod.rs:68-88: a prefix of more than 40 bytes is cut. -/
def execData (program : Key) (pfx : Bytes) : Bytes :=
  program ++ [UInt8.ofNat (min pfx.length 40)] ++ zeros 7 ++ pfx.take 40 ++ zeros (40 - min pfx.length 40)

/-- `authority_bytes`, rust-sdk/src/client_role.rs:636-638, 1136-1151, 1671-1673, 2124-2126, 2604-2606, 3089-3091, 3516-3518; `none` is an
error.  The session types return the memory of their creation struct: state/src/authority/ed25519.rs:125-132, secp256k1.rs:28-35,
secp256r1.rs:89-98. -/
def bytes : Holder → Option Bytes
  | .ed25519 k => some k
  | .secp256k1 k _ _ =>
    if k.length = 64 then some k else if k.length = 65 then (if k.getD 0 0 = 4 then some (k.drop 1) else none) else none
  | .secp256r1 k _ _ => some k
  | .ed25519Session k s n => some (k ++ s ++ natLE 8 n)
  | .secp256k1Session k s n _ _ => some (k ++ s ++ natLE 8 n)
  | .secp256r1Session k s n _ _ => some (k ++ zeros 7 ++ s ++ natLE 8 n)
  | .exec p x _ => some (execData p x)

/-- `odometer`, rust-sdk/src/client_role.rs:640-642, 1153-1155, 1675-1677, 2128-2130, 2608-2610, 3093-3095, 3520-3524. -/
def odometer : Holder → Option Nat
  | .ed25519 .. => some 0
  | .secp256k1 _ _ n => some n
  | .secp256r1 _ _ n => some n
  | .ed25519Session .. => some 0
  | .secp256k1Session _ _ _ _ n => some n
  | .secp256r1Session _ _ _ _ n => some n
  | .exec .. => none

/-- `update_odometer`, rust-sdk/src/client_role.rs:649-651, 1162-1165, 1684-1687, 2137-2139, 2617-2620, 3102-3105, 3532-3536. -/
def setOdometer (m : Nat) : Holder → Option Holder
  | .ed25519 k => some (.ed25519 k)
  | .secp256k1 k f _ => some (.secp256k1 k f m)
  | .secp256r1 k f _ => some (.secp256r1 k f m)
  | .ed25519Session k s n => some (.ed25519Session k s n)
  | .secp256k1Session k s n f _ => some (.secp256k1Session k s n f m)
  | .secp256r1Session k s n f _ => some (.secp256r1Session k s n f m)
  | .exec .. => none

/-- `increment_odometer`, rust-sdk/src/client_role.rs:644-647, 1157-1160, 1679-1682, 2132-2135, 2612-2615, 3097-3100, 3526-3530. -/
def increment (h : Holder) : Option Holder := h.odometer.bind fun n => h.setOdometer ((n + 1) % 2 ^ 32)

/-- How a holder proves its role in most requests: the `new_with_*` it calls and `new_odometer`, for instance
rust-sdk/src/client_role.rs:269-292, 707-735, 1226-1255, 1732-1758, 2200-2226, 2683-2709, 3273-3297; `none` when the slot is missing.  Session
holders sign with their session key. -/
def caller (slot : Option Nat) : Holder → Option Caller
  | .ed25519 k => some (.ed25519 k)
  | .secp256k1 _ f n => slot.map fun s => .secp256k1 f s ((n + 1) % 2 ^ 32)
  | .secp256r1 k f n => slot.map fun s => .secp256r1 f k s ((n + 1) % 2 ^ 32)
  | .ed25519Session _ k _ => some (.ed25519 k)
  | .secp256k1Session _ k _ _ _ => some (.ed25519 k)
  | .secp256r1Session _ k _ _ _ => some (.ed25519 k)
  | .exec _ _ p => some (.exec p none)

/-- How a holder proves its role to start a session: with its main key, rust-sdk/src/client_role.rs:334-351, 787-810, 1307-1332, 1806-1826,
2274-2298, 2757-2783, 3341-3361. -/
def sessionCaller (slot : Option Nat) : Holder → Option Caller
  | .ed25519Session k _ _ => some (.ed25519 k)
  | .secp256k1Session _ _ _ f n => slot.map fun s => .secp256k1 f s ((n + 1) % 2 ^ 32)
  | .secp256r1Session k _ _ f n => slot.map fun s => .secp256r1 f k s ((n + 1) % 2 ^ 32)
  | h => h.caller slot

/-- How a holder proves its role in requests for V1 sub-accounts: as usual, except that `Ed25519SessionClientRole` passes its main key,
rust-sdk/src/client_role.rs:1828-1848, 1850-1866, 1868-1896, 1898-1932, 1934-1956. -/
def v1Caller (slot : Option Nat) : Holder → Option Caller
  | .ed25519Session k _ _ => some (.ed25519 k)
  | h => h.caller slot

/-- The new authority as `add_authority_instruction` passes it on: `Secp256k1ClientRole` drops its first byte
(rust-sdk/src/client_role.rs:728; an empty slice panics there). -/
def newAuthority (cred : Bytes) : Holder → Bytes
  | .secp256k1 .. => cred.drop 1
  | _ => cred

end Holder

/-- The requests of the wallet object that the program carries out, with the addresses the SDK derives for them. -/
inductive Req where
  | addAuthority (ty : Nat) (cred : Bytes) (ps : List Permission)
  | removeAuthority (target : Nat)
  | updateAuthority (target : Nat) (u : UpdateData)
  | createSession (key : Key) (duration : Nat)
  | setRentClaimer (claimer : Key)
  | signV2 (inner : List FullIx)
  | createSubV1 (sub : Key) (bump : UInt8)
  | signSubV1 (sub : Key) (inner : List FullIx)
  | withdrawSubV1 (sub : Key) (amount : Nat)
  | withdrawSubTokenV1 (sub : Key) (t : Tokens) (amount : Nat)
  | toggleSubV1 (sub : Key) (role authRole : Nat) (enabled : Bool)
  | createSubV2 (state sub : Key) (stateBump assetBump : UInt8)
  | signSubV2 (state sub : Key) (id : Nat) (inner : List FullIx)
  | withdrawSubV2 (state sub : Key) (tokens : Option Tokens) (id amount : Nat)
  | toggleSubV2 (state : Key) (id : Nat) (enabled : Bool)

/-- `SwigWallet`, rust-sdk/src/wallet.rs:44-62, with `SwigInstructionBuilder`, rust-sdk/src/instruction_builder.rs:24-58: configuration and
wallet address, role, holder, fee payer, keypair of the authority if given.  The cached permissions are not used by requests. -/
structure Obj where
  swig : Key
  wallet : Key
  role : Nat
  holder : Holder
  payer : Key
  keypair : Option Key

/-- `sign_v2_instruction` of `ProgramExecClientRole`, rust-sdk/src/client_role.rs:3538-3587: the instructions are compacted into the data of an
instruction of the wallet program without accounts, and that one is signed. -/
def execInner (o : Obj) (inner : List FullIx) : FullIx where
  program := swigId
  accounts := []
  data := compactBytes (compactInstructions [o.swig] [w o.swig, w o.wallet, ros o.payer] inner).2

/-- `sign_v2_instruction`, rust-sdk/src/client_role.rs:653-672, 1167-1194, 1689-1717, 2141-2167, 2622-2646, 3107-3131, 3538-3587, with
the payer as the only transaction signer (rust-sdk/src/instruction_builder.rs:131-164): one SignV2 instruction for each instruction, all made
with the same caller. -/
def Obj.signs (env : Env) (o : Obj) (inner : List FullIx) (c : Caller) : List Built :=
  match o.holder with
  | .exec .. => [Client.signV2 env o.swig o.wallet o.payer o.role (execInner o inner) [o.payer] c]
  | _ => inner.map fun i => Client.signV2 env o.swig o.wallet o.payer o.role i [o.payer] c

/-- The payer of a signature with a V1 sub-account: the trait passes none, `ProgramExecClientRole` takes the configuration account
(rust-sdk/src/client_role.rs:3363-3387). -/
def Obj.subPayer (o : Obj) : Key :=
  match o.holder with
  | .exec .. => o.swig
  | _ => o.payer

/-- How the holder proves its role in a request: the three cases above. -/
def Req.caller (q : Req) (h : Holder) (slot : Option Nat) : Option Caller :=
  match q with
  | .createSession .. => h.sessionCaller slot
  | .createSubV1 .. => h.v1Caller slot
  | .signSubV1 .. => h.v1Caller slot
  | .withdrawSubV1 .. => h.v1Caller slot
  | .withdrawSubTokenV1 .. => h.v1Caller slot
  | .toggleSubV1 .. => h.v1Caller slot
  | _ => h.caller slot

/-- The instructions for the program, with what has to precede each: rust-sdk/src/instruction_builder.rs:131-680 and the trait
methods of rust-sdk/src/client_role.rs; `none` is an error of the SDK.  For a program-exec holder the V2 sub-account methods are the default
methods of the trait, which return an error (rust-sdk/src/client_role.rs:140-227), and so does its `set_rent_claimer_instruction`
(3499-3510). -/
def Obj.build (env : Env) (o : Obj) (c : Caller) : Req → Option (List Built)
  | .addAuthority ty cred ps =>
    some [Client.addAuthority env o.swig o.payer o.role ty (o.holder.newAuthority cred) (toClientActions ps) c]
  | .removeAuthority target => some [Client.removeAuthority env o.swig o.payer o.role target c]
  | .updateAuthority target u => some [Client.updateAuthority env o.swig o.payer o.role target u.toChange c]
  | .createSession key duration => some [Client.createSession env o.swig o.payer o.role duration key c]
  | .setRentClaimer k => (Client.setRentClaimer env o.swig o.payer o.role k c).map fun b => [b]
  | .signV2 inner => some (o.signs env inner c)
  | .createSubV1 sub bump => some [Client.createSubV1 env o.swig o.payer sub o.role bump c]
  | .signSubV1 sub inner => some [Client.subSignV1 env o.swig o.subPayer sub o.role inner c]
  | .withdrawSubV1 sub amount => some [Client.withdrawSubV1 env o.swig o.payer sub o.wallet o.role amount c]
  | .withdrawSubTokenV1 sub t amount => some [Client.withdrawSubTokenV1 env o.swig o.payer sub o.wallet t o.role amount c]
  | .toggleSubV1 sub role authRole enabled => some [Client.toggleSubV1 env o.swig o.payer sub role authRole enabled c]
  | .createSubV2 state sub sb ab => (Client.createSubV2 env o.swig o.payer state sub o.role sb ab c).map fun b => [b]
  | .signSubV2 state sub id inner => (Client.subSignV2 env o.swig state sub o.role id inner c).map fun b => [b]
  | .withdrawSubV2 state sub t id amount =>
    (Client.withdrawSubV2 env o.swig o.payer state sub o.wallet t o.role id amount c).map fun b => [b]
  | .toggleSubV2 state id enabled => (Client.toggleSubV2 env o.swig o.payer state o.role id enabled c).map fun b => [b]

/-- Whether a request can be prepared at all: `update_authority` asks for the odometer first (rust-sdk/src/wallet.rs:357), which a program-exec
holder does not have. -/
def Req.possible (q : Req) (h : Holder) : Bool :=
  match q with
  | .updateAuthority .. => h.odometer.isSome
  | _ => true

/-- The instructions of a request. -/
def Obj.instructions (env : Env) (o : Obj) (slot : Option Nat) (q : Req) : Option (List Built) :=
  if q.possible o.holder then (q.caller o.holder slot).bind fun c => o.build env c q else none

/-- Whether a request is signed by the fee payer only (rust-sdk/src/wallet.rs:244-247, 284-287, 1467-1470, 1498-1501) or by all keypairs. -/
def Req.payerOnly : Req → Bool
  | .addAuthority .. => true
  | .removeAuthority .. => true
  | .createSession .. => true
  | .setRentClaimer .. => true
  | _ => false

/-- The keys that sign the transaction: rust-sdk/src/wallet.rs:244-247 and `get_keypairs`, 1583-1594. -/
def Obj.signers (o : Obj) (q : Req) : List Key :=
  if q.payerOnly then [o.payer]
  else match o.keypair with
    | some k => if k = o.payer then [o.payer] else [o.payer, k]
    | none => [o.payer]

/-- The keys whose signature a transaction with these instructions needs: the fee payer and every account marked as signer. -/
def needed (payer : Key) (bs : List Built) : List Key :=
  payer :: bs.flatMap fun b => (b.before.flatMap fun i => (i.accounts.filter (·.signer)).map (·.key)) ++ (b.accounts.filter (·.signer)).map (·.key)

/-- `VersionedTransaction::try_new` (external crate `solana-transaction`): the given keypairs are exactly the needed ones. -/
def signed (keys need : List Key) : Bool := keys.all need.contains && need.all keys.contains

/-- What a request sends, if it sends anything: rust-sdk/src/wallet.rs:225-753, 1451-1508. -/
def Obj.send (env : Env) (o : Obj) (slot : Option Nat) (q : Req) : Option (List Built) :=
  (o.instructions env slot q).bind fun bs => if signed (o.signers q) (needed o.payer bs) then some bs else none

/-- `increment_odometer` of the wallet object's holder after a request: the changed object, or an error that leaves it as it was. -/
def Obj.counted (o : Obj) : Obj × Bool :=
  match o.holder.increment with
  | some h => ({ o with holder := h }, true)
  | none => (o, false)

/-- What happens in the wallet object after the transaction of a request has succeeded, and whether the call returns `Ok`:
`refresh_permissions` (rust-sdk/src/wallet.rs:1336-1357, an error if the role is gone), then `increment_odometer`; neither for added
authorities and sessions (250-252, 1472-1473), only the latter for the rent claimer (1503-1507).  `data` is the configuration account
afterwards. -/
def Obj.settle (o : Obj) (data : Bytes) : Req → Obj × Bool
  | .addAuthority .. => (o, true)
  | .createSession .. => (o, true)
  | .setRentClaimer .. => o.counted
  | _ => match getRole data o.role with
    | .ok (some _) => o.counted
    | _ => (o, false)

/-- `SwigWallet::new` for a wallet that exists, rust-sdk/src/wallet.rs:164-209: the role found for the credential of the holder, whose counter is
taken over; `none` is an error. -/
def openWallet (data : Bytes) (h : Holder) : Option (Nat × Holder) :=
  h.bytes.bind fun cred =>
    match lookupRoleId data cred with
    | .ok (some id) => adopt data id h
    | _ => none
where
  /-- `signature_odometer` (state/src/authority/*.rs) and `update_odometer`, rust-sdk/src/wallet.rs:185-194, 1379-1385. -/
  adopt (data : Bytes) (id : Nat) (h : Holder) : Option (Nat × Holder) :=
    match getRole data id with
    | .ok (some v) =>
      if v.authType = T.secp256k1 ∨ v.authType = T.secp256k1Session ∨ v.authType = T.secp256r1 ∨ v.authType = T.secp256r1Session then
        (h.setOdometer (rd v.auth 36 4)).map fun h => (id, h)
      else some (id, h)
    | _ => none

/-- `switch_authority`, rust-sdk/src/wallet.rs:1373-1396; `none` is an error. -/
def Obj.switch (o : Obj) (data : Bytes) (id : Nat) (h : Holder) (keypair : Option Key) : Option Obj :=
  (openWallet.adopt data id h).map fun p => { o with role := p.1, holder := p.2, keypair := keypair }

end Verif.Sdk
