import Verif.Model.Runtime
import Verif.Model.Swig
import Verif.Model.Tail
import Verif.Model.Update
import Verif.Model.Auth

/-!
# Handlers that manage a wallet

`program/src/actions/`: create_v1, add_authority_v1, remove_authority_v1, update_authority_v1, replace_authority_v1,
set_rent_claimer_v1, create_session_v1.  A handler maps the ledger, the accounts of the instruction and the instruction data
to the new ledger or an error.  `XAccounts::context` (generated by shank) checks the number of accounts and names the
first ones; it checks neither signer nor writable flags.  The instructions sysvar is read from the ledger at its fixed
address (the code reads it from the account it has checked to have that address).
-/

namespace Verif

/-- `swig_account_data[0] != SwigConfigAccount` followed by `Swig::split_parts_mut`, for instance
program/src/actions/add_authority_v1.rs:187-190; indexing panics on empty data. -/
def openSwig (data : Bytes) : R Parts :=
  if data = [] then .error .panic
  else if data.getD 0 0 ≠ 1 then .error E.invalidSwigAccountDiscriminator
  else splitParts data

/-- The same with the discriminator read by `get_unchecked(0)` (outside the data: `Err.ub`): create_session_v1.rs:137,
create_sub_account_v1.rs:153, sub_account_sign_v1.rs:143, toggle_sub_account_v1.rs:145. -/
def openSwigU (data : Bytes) : R Parts := if data = [] then .error .ub else openSwig data

/-- The account data that `SwigParts` is a view of. -/
def Parts.bytes (p : Parts) : Bytes := p.header.encode ++ (p.roles ++ p.tail)

/-- Look up the acting role and authenticate it, writing the new authority record (replay counter) back, for instance
program/src/actions/add_authority_v1.rs:194-218. -/
def actAs (env : Env) (m : Mem) (metas : List Meta) (p : Parts) (id : Nat) (payload dataPayload : Bytes) :
    R (Parts × RoleView) := do
  let r ← getMutRole p.roles id
  match r with
  | none => .error E.invalidAuthorityNotFoundByRoleId
  | some r => do
    let auth ← authRole env r.authType r.auth metas (m instructionsSysvarId).data payload dataPayload
    .ok ({ p with roles := put p.roles r.authOff auth }, { r with auth := auth })

/-- `role.get_action::<T>(key)?.is_some()`. -/
def hasAction (ty : Nat) (key acts : Bytes) : R Bool := do
  let r ← getAction ty key acts
  .ok r.isSome

/-- The check "All or ManageAuthority", add_authority_v1.rs:219-224, update_authority_v1.rs:748-752: both lookups
are made, then compared. -/
def hasManage (acts : Bytes) : R Bool := do
  let a ← hasAction P.all [] acts
  let b ← hasAction P.manageAuthority [] acts
  .ok (a || b)

/-- Rent top-up from the payer, add_authority_v1.rs:238-254, update_authority_v1.rs:835-850,
set_rent_claimer_v1.rs:152-164. -/
def topUp (env : Env) (m : Mem) (payer swig : Meta) (n : Nat) : R Mem :=
  let cost := env.rent n - (m swig.key).lamports
  if cost > 0 then sysTransfer m payer swig cost else .ok m

/-- Find the end of the roles, zero everything after it, write the saved tail there: add_authority_v1.rs:274-276,
remove_authority_v1.rs:234-236, update_authority_v1.rs:941-943. -/
def settleTail (d tail : Bytes) : R Bytes := do
  let e ← rolesEndOffset d
  restoreAt tail (d.take e ++ zeros (d.length - e)) e

/-! ## create_v1 -/

/-- `CreateV1::from_instruction_bytes`, program/src/actions/create_v1.rs:109-125, args 43-50: type `u16` at 2, credential
length `u16` at 4, bump at 6, wallet bump at 7, id at 8..40. -/
structure CreateIx where
  authType : Nat
  bump : UInt8
  walletBump : UInt8
  id : Key
  authData : Bytes
  actions : Bytes
  deriving DecidableEq, Repr

def parseCreate (ix : Bytes) : R CreateIx :=
  if ix.length < 40 then .error E.invalidSwigCreateInstructionDataTooShort
  else
    let n := rd ix 4 2
    let rest := ix.drop 40
    if n > rest.length then .error E.invalidSwigCreateInstructionDataTooShort
    else .ok ⟨rd ix 2 2, ix.getD 6 0, ix.getD 7 0, sl ix 8 40, rest.take n, rest.drop n⟩

/-- Checks of `create_v1` before anything is changed, create_v1.rs:149-195; returns the parsed instruction and the length of
the stored credential. -/
def createChecks (env : Env) (m : Mem) (swig wallet : Meta) (ix : Bytes) : R (CreateIx × Nat) := do
  require ((m swig.key).owner = systemId) E.ownerMismatchSwigAccount
  require ((m swig.key).data.length = 0) E.accountNotEmptySwigAccount
  let c ← parseCreate ix
  let _ ← checkSelfPda env (swigSeeds c.id) c.bump swig.key E.invalidSeedSwigAccount
  require ((m wallet.key).owner = systemId) E.ownerMismatchSwigAccount
  require ((m wallet.key).data.length = 0) E.accountNotEmptySwigAccount
  let _ ← checkSelfPda env (walletSeeds swig.key) c.walletBump wallet.key E.invalidSeedSwigAccount
  let man ← findActionGo P.manageAuthority 0 c.actions c.actions.length 0
  let all ← findActionGo P.all 0 c.actions c.actions.length 0
  require (man = true ∨ all = true) E.invalidAuthorityType
  let ty ← authTypeOf c.authType
  let al ← orErr (authLen ty) E.st_invalidAuthorityData
  .ok (c, al)

/-- `SwigBuilder::create` (state/src/swig.rs:178-187) then `add_role`, create_v1.rs:252-255. -/
def createData (d : Bytes) (c : CreateIx) : R Bytes :=
  if d.length < 48 then .error .panic
  else do
    let s ← addRole ⟨Header.new c.id c.bump c.walletBump, d.drop 48⟩ c.authType c.authData c.actions
    .ok s.bytes

/-- Fund the wallet address to the rent minimum of an empty account, create_v1.rs:232-249. -/
def fundWallet (env : Env) (m : Mem) (payer wallet : Meta) : R Mem :=
  let cost := env.rent 0 - (m wallet.key).lamports
  if cost > 0 then sysTransfer m payer wallet cost else .ok m

/-- `create_v1`, program/src/actions/create_v1.rs:148-257. -/
def createV1 (env : Env) (m : Mem) (metas : List Meta) (ix : Bytes) : R Mem :=
  match metas with
  | swig :: payer :: wallet :: _ :: _ => do
    let (c, al) ← createChecks env m swig wallet ix
    let size := align8 (48 + 16 + al + c.actions.length)
    let m ← sysCreate m payer swig (env.rent size - (m swig.key).lamports) size swigId
    let m ← fundWallet env m payer wallet
    let d ← createData (m swig.key).data c
    .ok (m.setData swig.key d)
  | _ => .error .notEnoughAccountKeys

/-! ## add_authority_v1 -/

/-- `AddAuthorityV1::from_instruction_bytes`, program/src/actions/add_authority_v1.rs:115-146, args 59-67: credential length
`u16` at 2, actions length at 4, type at 6, acting role `u32` at 12. Every error becomes `InvalidInstructionData` (175-178). -/
structure AddIx where
  newType : Nat
  acting : Nat
  authData : Bytes
  actions : Bytes
  dataPayload : Bytes
  authPayload : Bytes
  deriving DecidableEq, Repr

def parseAdd (ix : Bytes) : R AddIx :=
  if ix.length < 16 then .error .invalidInstructionData
  else
    let n := rd ix 2 2
    let k := rd ix 4 2
    if 16 + n + k > ix.length then .error .invalidInstructionData
    else .ok ⟨rd ix 6 2, rd ix 12 4, sl ix 16 (16 + n), sl ix (16 + n) (16 + n + k), ix.take (16 + n + k),
      ix.drop (16 + n + k)⟩

/-- Write the new role into the reallocated account and settle the tail, add_authority_v1.rs:255-277. -/
def addData (d tail : Bytes) (ty : Nat) (authData acts : Bytes) : R Bytes :=
  if d.length < 48 + tail.length then .error .invalidAccountData
  else do
    let s ← addRole ⟨Header.decode d, sl d 48 (d.length - tail.length)⟩ ty authData acts
    settleTail (s.bytes ++ d.drop (d.length - tail.length)) tail

/-- `add_authority_v1`, program/src/actions/add_authority_v1.rs:163-278. -/
def addAuthorityV1 (env : Env) (m : Mem) (metas : List Meta) (ix : Bytes) : R Mem :=
  match metas with
  | swig :: payer :: sys :: _ => do
    require ((m swig.key).owner = swigId) E.ownerMismatchSwigAccount
    require (sys.key = systemId) E.invalidSystemProgram
    let a ← parseAdd ix
    let ty ← authTypeOf a.newType
    let p ← openSwig (m swig.key).data
    let tail ← savedTailTake p.tail
    let (p, r) ← actAs env m metas p a.acting a.authPayload a.dataPayload
    let ok ← hasManage r.actions
    require (ok = true) E.au_permissionDeniedToManageAuthority
    let al ← orErr (authLen ty) E.st_invalidAuthorityData
    let size := align8 ((m swig.key).data.length + (16 + al + a.actions.length))
    let m ← realloc (m.setData swig.key p.bytes) swig.key size
    let m ← topUp env m payer swig size
    let d ← addData (m swig.key).data tail ty a.authData a.actions
    .ok (m.setData swig.key d)
  | _ => .error .notEnoughAccountKeys

/-! ## remove_authority_v1 -/

/-- `RemoveAuthorityV1::from_instruction_bytes`, program/src/actions/remove_authority_v1.rs:98-111, args 50-56: acting role
`u32` at 8, role to remove at 12. -/
structure RemoveIx where
  acting : Nat
  target : Nat
  dataPayload : Bytes
  authPayload : Bytes
  deriving DecidableEq, Repr

def parseRemove (ix : Bytes) : R RemoveIx :=
  if ix.length < 16 then .error .invalidInstructionData
  else .ok ⟨rd ix 8 4, rd ix 12 4, ix.take 16, ix.drop 16⟩

/-- Refund of `remove_authority_v1`, remove_authority_v1.rs:224-231: the balances are read again when the payer is the
wallet account itself. -/
def removeRefund (env : Env) (m : Mem) (swig payer : Key) (oldLen newLen : Nat) : Mem :=
  let diff := sub64 (env.rent oldLen) (env.rent newLen)
  let m := m.setLamports swig (sub64 (m swig).lamports diff)
  m.setLamports payer (add64 (m payer).lamports diff)

/-- `remove_authority_v1`, program/src/actions/remove_authority_v1.rs:133-239. -/
def removeAuthorityV1 (env : Env) (m : Mem) (metas : List Meta) (ix : Bytes) : R Mem :=
  match metas with
  | swig :: payer :: sys :: _ => do
    require ((m swig.key).owner = swigId) E.ownerMismatchSwigAccount
    require (sys.key = systemId) E.invalidSystemProgram
    let a ← parseRemove ix
    require (a.target ≠ 0) E.au_permissionDeniedCannotRemoveRootAuthority
    let len := (m swig.key).data.length
    let p ← openSwig (m swig.key).data
    let tail ← savedTailTake p.tail
    let (p, r) ← actAs env m metas p a.acting a.authPayload a.dataPayload
    let ok ← hasManage r.actions
    require (ok = true ∨ a.acting = a.target) E.au_permissionDeniedToManageAuthority
    let t ← getMutRole p.roles a.target
    require (t.isSome = true) E.invalidAuthorityNotFoundByRoleId
    let (s, _, removed) ← removeRole ⟨p.header, p.roles⟩ a.target
    let m := m.setData swig.key (s.bytes ++ p.tail)
    let m := removeRefund env m swig.key payer.key len (len - removed)
    let m ← realloc m swig.key (len - removed)
    let d ← settleTail (m swig.key).data tail
    .ok (m.setData swig.key d)
  | _ => .error .notEnoughAccountKeys

/-! ## update_authority_v1 -/

/-- `AuthorityUpdateOperation` with its decoded operand, update_authority_v1.rs:92-115, 208-281.  The accessors are called
later in the source (a decoding error of the index list is raised there); decoding them first changes no outcome but the
error code. -/
inductive UpdateOp where
  | replaceAll (acts : Bytes)
  | add (acts : Bytes)
  | removeTypes (types : Bytes)
  | removeIndices (indices : List Nat)
  deriving DecidableEq, Repr

/-- `data.chunks_exact(2)` as little-endian `u16`, update_authority_v1.rs:269-273. -/
def u16List : Bytes → List Nat
  | a :: b :: rest => leNat [a, b] :: u16List rest
  | _ => []

/-- `get_operation`, `get_actions_data`, `get_remove_types`, `get_remove_indices`, update_authority_v1.rs:208-281. -/
def updateOp (numActions : UInt8) (op : Bytes) : R UpdateOp :=
  if numActions = 0 ∧ op ≠ [] then
    if op.getD 0 0 = 0 then .ok (.replaceAll (op.drop 1))
    else if op.getD 0 0 = 1 then .ok (.add (op.drop 1))
    else if op.getD 0 0 = 2 then .ok (.removeTypes (op.drop 1))
    else if op.getD 0 0 = 3 then
      if (op.drop 1).length % 2 ≠ 0 then .error .invalidInstructionData
      else .ok (.removeIndices (u16List (op.drop 1)))
    else .error .invalidInstructionData
  else .ok (.replaceAll op)

/-- `UpdateAuthorityV1::from_instruction_bytes`, update_authority_v1.rs:183-206, args 129-137: operand length `u16` at 2,
num_actions at 4, acting role `u32` at 8, role to update at 12. -/
structure UpdateIx where
  acting : Nat
  target : Nat
  op : UpdateOp
  dataPayload : Bytes
  authPayload : Bytes
  deriving DecidableEq, Repr

def parseUpdate (ix : Bytes) : R UpdateIx :=
  if ix.length < 16 then .error .invalidInstructionData
  else
    let n := rd ix 2 2
    if 16 + n > ix.length then .error .invalidInstructionData
    else do
      let op ← updateOp (ix.getD 4 0) (sl ix 16 (16 + n))
      .ok ⟨rd ix 8 4, rd ix 12 4, op, ix.take (16 + n), ix.drop (16 + n)⟩

/-- Growth reserved before the operation, update_authority_v1.rs:800-822 (`cur` is the size of the present actions;
a negative difference reserves nothing). -/
def UpdateOp.growth (cur : Nat) : UpdateOp → Nat
  | .replaceAll acts => acts.length - cur
  | .add acts => acts.length
  | _ => 0

/-- The action bytes the operation gives to `perform_replace_all_operation`, update_authority_v1.rs:417-426, 565-598,
624-656. -/
def UpdateOp.newActions (buf : Bytes) (actsOff cur : Nat) : UpdateOp → R Bytes
  | .replaceAll acts => .ok acts
  | .add acts => addedActions buf actsOff cur acts
  | .removeTypes types => filteredActions buf actsOff cur true (keepType types)
  | .removeIndices indices => filteredActions buf actsOff cur false (keepIndex indices)

/-- The operation on the account after the reallocation, update_authority_v1.rs:855-912: tail written at the end, role
capacity, operation.  Returns the account data and the size of the new actions. -/
def updateData (d tail : Bytes) (rolesLen cur authOff actsOff target : Nat) (op : UpdateOp) : R (Bytes × Nat) := do
  let d ← restoreTail tail d
  if d.length < 48 + tail.length then .error .invalidAccountData
  else do
    let buf := sl d 48 (d.length - tail.length)
    let acts ← op.newActions buf actsOff cur
    let buf ← replaceAll buf rolesLen authOff actsOff cur acts target
    .ok (sl d 0 48 ++ (buf ++ d.drop (d.length - tail.length)), acts.length)

/-- Growth step, update_authority_v1.rs:824-852, 508-534. -/
def growFor (env : Env) (m : Mem) (payer swig : Meta) (n : Nat) : R Mem :=
  if n > 0 then do
    let size := align8 ((m swig.key).data.length + n)
    let m ← realloc m swig.key size
    topUp env m payer swig size
  else .ok m

/-- Shrink step, update_authority_v1.rs:914-937: everything above the rent minimum goes to the payer. -/
def shrinkBy (env : Env) (m : Mem) (payer swig : Key) (n : Nat) : R Mem :=
  if n > 0 then do
    let size := align8 ((m swig).data.length - n)
    let m ← realloc m swig size
    let extra := (m swig).lamports - env.rent size
    if extra > 0 then
      let m := m.setLamports swig ((m swig).lamports - extra)
      .ok (m.setLamports payer (add64 (m payer).lamports extra))
    else .ok m
  else .ok m

/-- `update_authority_v1`, program/src/actions/update_authority_v1.rs:687-946. -/
def updateAuthorityV1 (env : Env) (m : Mem) (metas : List Meta) (ix : Bytes) : R Mem :=
  match metas with
  | swig :: payer :: sys :: _ => do
    require ((m swig.key).owner = swigId) E.ownerMismatchSwigAccount
    require (sys.key = systemId) E.invalidSystemProgram
    let a ← parseUpdate ix
    let p ← openSwig (m swig.key).data
    let tail ← savedTailTake p.tail
    let (p, r) ← actAs env m metas p a.acting a.authPayload a.dataPayload
    let ok ← hasManage r.actions
    require (ok = true) E.au_permissionDeniedToManageAuthority
    let (cur, authOff, actsOff) ← findOffsetsGo p.roles a.target p.header.roles 0
    let m ← growFor env (m.setData swig.key p.bytes) payer swig (a.op.growth cur)
    let (d, new) ← updateData (m swig.key).data tail p.roles.length cur authOff actsOff a.target a.op
    let m ← shrinkBy env (m.setData swig.key d) payer.key swig.key (cur - new)
    let d ← settleTail (m swig.key).data tail
    .ok (m.setData swig.key d)
  | _ => .error .notEnoughAccountKeys

/-- `append_actions_to_role`, update_authority_v1.rs:476-553, called by create_sub_account_v2. -/
def appendActions (env : Env) (m : Mem) (swig payer : Meta) (roleId : Nat) (acts : Bytes) : R Mem := do
  let p ← openSwig (m swig.key).data
  let tail ← savedTailTake p.tail
  let (cur, authOff, actsOff) ← findOffsetsGo p.roles roleId p.header.roles 0
  let m ← growFor env m payer swig acts.length
  let (d, _) ← updateData (m swig.key).data tail p.roles.length cur authOff actsOff roleId (.add acts)
  .ok (m.setData swig.key d)

/-! ## set_rent_claimer_v1 -/

/-- `SetRentClaimerV1::from_instruction_bytes`, program/src/actions/set_rent_claimer_v1.rs:62-73, args 27-32: role `u32` at
4, claimer at 8..40. -/
structure ClaimerIx where
  role : Nat
  claimer : Key
  dataPayload : Bytes
  authPayload : Bytes
  deriving DecidableEq, Repr

def parseClaimer (ix : Bytes) : R ClaimerIx :=
  if ix.length < 40 then .error E.invalidSwigSetRentClaimerInstructionDataTooShort
  else .ok ⟨rd ix 4 4, sl ix 8 40, ix.take 40, ix.drop 40⟩

/-- `set_rent_claimer_v1`, program/src/actions/set_rent_claimer_v1.rs:76-171. -/
def setRentClaimerV1 (env : Env) (m : Mem) (metas : List Meta) (ix : Bytes) : R Mem :=
  match metas with
  | swig :: payer :: sys :: _ => do
    require ((m swig.key).owner = swigId) E.ownerMismatchSwigAccount
    require (sys.key = systemId) E.invalidSystemProgram
    let a ← parseClaimer ix
    require (a.claimer ≠ zeros 32) E.invalidRentClaimerValue
    require (a.claimer ≠ swig.key) E.invalidRentClaimerValue
    let len := (m swig.key).data.length
    let p ← openSwig (m swig.key).data
    let wallet ← orErr (env.pda (walletSeeds swig.key ++ [[p.header.walletBump]])) .invalidSeeds
    require (a.claimer ≠ wallet) E.invalidRentClaimerValue
    let (p, r) ← actAs env m metas p a.role a.authPayload a.dataPayload
    let all ← hasAction P.all [] r.actions
    let close ← hasAction P.closeSwigAuthority [] r.actions
    require (all = true ∨ close = true) E.au_permissionDeniedMissingPermission
    let old ← claimerReadStrict p.tail
    require (old = none) E.rentClaimerAlreadySet
    let m ← realloc (m.setData swig.key p.bytes) swig.key (len + 40)
    let m ← topUp env m payer swig (len + 40)
    let d ← write (m swig.key).data len (claimerEntry a.claimer)
    .ok (m.setData swig.key d)
  | _ => .error .notEnoughAccountKeys

/-! ## create_session_v1 -/

/-- `CreateSessionV1::load`, program/src/actions/create_session_v1.rs:90-108, args 34-40: role `u32` at 4, duration `u64`
at 8, key at 16..48. -/
structure SessionIx where
  role : Nat
  duration : Nat
  key : Key
  dataPayload : Bytes
  authPayload : Bytes
  deriving DecidableEq, Repr

def parseSession (ix : Bytes) : R SessionIx :=
  if ix.length < 48 then .error .invalidInstructionData
  else .ok ⟨rd ix 4 4, rd ix 8 8, sl ix 16 48, ix.take 48, ix.drop 48⟩

/-- The part of `create_session_v1` after the role was found, create_session_v1.rs:146-162: main-credential
authentication, then `start_session`. Returns the new authority record. -/
def sessionAuth (env : Env) (m : Mem) (metas : List Meta) (r : RoleView) (a : SessionIx) : R Bytes := do
  require (sessionBased r.authType = true) E.au_authorityDoesNotSupportSessionBasedAuth
  let auth ← authenticate env r.authType r.auth metas (m instructionsSysvarId).data a.authPayload a.dataPayload
  startSession r.authType auth a.key env.slot a.duration

/-- `create_session_v1`, program/src/actions/create_session_v1.rs:126-165. -/
def createSessionV1 (env : Env) (m : Mem) (metas : List Meta) (ix : Bytes) : R Mem :=
  match metas with
  | swig :: _ :: _ :: _ => do
    require ((m swig.key).owner = swigId) E.ownerMismatchSwigAccount
    let a ← parseSession ix
    let p ← openSwigU (m swig.key).data
    let r ← getMutRole p.roles a.role
    let r ← orErr r E.invalidAuthorityNotFoundByRoleId
    let auth ← sessionAuth env m metas r a
    .ok (m.setData swig.key { p with roles := put p.roles r.authOff auth }.bytes)
  | _ => .error .notEnoughAccountKeys

/-! ## replace_authority_v1 -/

/-- `ReplaceAuthorityV1::from_instruction_bytes`, program/src/actions/replace_authority_v1.rs:93-124, args 50-60: padding
2..4, acting role `u32` at 4, target role at 8, credential length `u16` at 12, padding 14..16. -/
structure ReplaceIx where
  acting : Nat
  target : Nat
  newAuth : Bytes
  dataPayload : Bytes
  authPayload : Bytes
  deriving DecidableEq, Repr

def parseReplace (ix : Bytes) : R ReplaceIx :=
  if ix.length < 16 then .error E.invalidSwigReplaceAuthorityInstructionDataTooShort
  else if sl ix 2 4 ≠ zeros 2 ∨ sl ix 14 16 ≠ zeros 2 then .error E.replaceAuthorityInvalidPayload
  else
    let n := rd ix 12 2
    if n ≠ 32 ∧ n ≠ 33 ∧ n ≠ 64 then .error E.replaceAuthorityInvalidSignerLength
    else if ix.length - 16 < n then .error E.replaceAuthorityInvalidPayload
    else .ok ⟨rd ix 4 4, rd ix 8 4, sl ix 16 (16 + n), ix.take (16 + n), ix.drop (16 + n)⟩

/-- `REPLACE_AUTHORITY_PROOF_V1_DOMAIN`, replace_authority_v1.rs:45. -/
def proofDomain : Bytes := ascii "swig-replace-authority-v1"

/-- The bytes hashed by `replacement_proof_hash`, replace_authority_v1.rs:530-572 (`sol_sha256` hashes the concatenation). -/
def proofPreimage (swig wallet : Key) (acting target ty : Nat) (current new : Bytes) : Bytes :=
  proofDomain ++ swig ++ wallet ++ natLE 4 acting ++ natLE 4 target ++ natLE 2 ty ++ current ++ new

/-- `load_program_exec_replacement_proof`, replace_authority_v1.rs:452-527: the wallet address and the hash of the proof. -/
def loadProof (env : Env) (m : Mem) (swig wallet : Meta) (metas : List Meta) (payload : Bytes) : R (Key × Bytes) := do
  let (expected, _) ← findPda env (walletSeeds swig.key)
  require (wallet.key = expected) E.invalidSeedSwigAccount
  require (payload.length ≠ 0 ∧ payload.length ≤ 2) E.au_invalidAuthorityPayload
  let sys ← getOr metas (payload.getD 0 0).toNat E.au_invalidAuthorityPayload
  require (sys.key = instructionsSysvarId) E.au_permissionDeniedProgramExecInvalidInstruction
  let b := (m instructionsSysvarId).data
  let cur ← sysCurrent b
  let idx := if payload.length = 2 then (payload.getD 1 0).toNat else cur - 1
  require (idx < cur) E.replaceAuthorityProofInvalidInstruction
  let o ← sysIxOff b idx
  let (dataOff, dataLen) ← sysDataAt b o
  let data ← slU b dataOff (dataOff + dataLen)
  require (data.length = 40 ∧ sl data 0 8 = ascii "rplauth1") E.replaceAuthorityProofInvalidData
  let n ← rdU b o 2
  require (0 < n ∧ 1 < n) E.replaceAuthorityProofInvalidAccounts
  let k0 ← sysMetaKey b o 0
  let k1 ← sysMetaKey b o 1
  require (k0 = swig.key) E.replaceAuthorityProofInvalidAccounts
  require (k1 = wallet.key) E.replaceAuthorityProofInvalidAccounts
  .ok (wallet.key, sl data 8 40)

/-- Length of the credential key at the start of the record: 32 for Ed25519, 33 for the secp types. -/
def signerLen (ty : Nat) : Nat := if ty = T.ed25519 ∨ ty = T.ed25519Session then 32 else 33

/-- Length check and `normalize_secp256k1_authority`, replace_authority_v1.rs:225-249, 409-422: the key to store. -/
def normalizeSigner (ty : Nat) (new : Bytes) : R Bytes :=
  if ty = T.ed25519 ∨ ty = T.ed25519Session then
    if new.length = 32 then .ok new else .error E.replaceAuthorityInvalidSignerLength
  else if ty = T.secp256k1 ∨ ty = T.secp256k1Session then
    if new.length = 33 then .ok new
    else if new.length = 64 then .ok (compressKey new)
    else .error E.replaceAuthorityInvalidSignerLength
  else if ty = T.secp256r1 ∨ ty = T.secp256r1Session then
    if new.length = 33 then .ok new else .error E.replaceAuthorityInvalidSignerLength
  else .error E.unsupportedReplaceAuthorityType

/-- The fields assigned for each type, replace_authority_v1.rs:252-392: key; odometer (bytes 36..40) of the secp types;
session key and expiry of the session types (the maximum session length between them is kept). -/
def replacedAuth (ty : Nat) (auth new : Bytes) : Bytes :=
  let a := put auth 0 new
  let a := if ty = T.ed25519 ∨ ty = T.ed25519Session then a else put a 36 (zeros 4)
  if sessionBased ty then put (put a (sessionOff ty) (zeros 32)) (sessionOff ty + 40) (zeros 8) else a

/-- `verify_program_exec_replacement_proof` and `reject_same_signer`, replace_authority_v1.rs:402-407, 424-449. -/
def replaceChecks (env : Env) (swig : Key) (acting target ty : Nat) (current new : Bytes) (proof : Option (Key × Bytes)) :
    R Unit := do
  let ok := match proof with
    | none => true
    | some (wallet, hash) => env.sha256 (proofPreimage swig wallet acting target ty current new) == hash
  require (ok = true) E.replaceAuthorityProofMismatch
  require (current ≠ new) E.replaceAuthoritySameSigner

/-- Loop of `replace_target_signer`, replace_authority_v1.rs:209-400; slices panic. -/
def replaceTargetGo (env : Env) (swig : Key) (acting target : Nat) (newAuth : Bytes) (proof : Option (Key × Bytes))
    (b : Bytes) : Nat → Nat → R Bytes
  | 0, _ => .error E.invalidAuthorityNotFoundByRoleId
  | n + 1, c =>
    if c + 16 > b.length then .error .panic
    else if pId b c = target then do
      let ty ← authTypeOf (pAuthType b c)
      let new ← normalizeSigner ty newAuth
      let al ← orErr (authLen ty) .panic
      let auth ← slice b (c + 16) (c + 16 + al)
      replaceChecks env swig acting target ty (sl auth 0 (signerLen ty)) new proof
      .ok (put b (c + 16) (replacedAuth ty auth new))
    else replaceTargetGo env swig acting target newAuth proof b n (pBoundary b c)

/-- `has_permission` of `replace_authority_v1`, replace_authority_v1.rs:167-171: the lookups stop at the first hit. -/
def mayReplace (acts : Bytes) (target : Nat) : R Bool := do
  let a ← hasAction P.all [] acts
  if a = true then .ok true
  else do
    let b ← hasAction P.manageAuthority [] acts
    if b = true then .ok true else hasAction P.replaceAuthority (natLE 4 target) acts

/-- The proof required when the acting role is of type ProgramExec, replace_authority_v1.rs:178-190. -/
def requiredProof (env : Env) (m : Mem) (swig : Meta) (metas : List Meta) (ty : Nat) (payload : Bytes) :
    R (Option (Key × Bytes)) :=
  if ty = T.programExec then do
    let wallet ← getOr metas 1 E.au_invalidAuthorityPayload
    let pr ← loadProof env m swig wallet metas payload
    .ok (some pr)
  else .ok none

/-- `replace_authority_v1`, program/src/actions/replace_authority_v1.rs:128-201. -/
def replaceAuthorityV1 (env : Env) (m : Mem) (metas : List Meta) (ix : Bytes) : R Mem :=
  match metas with
  | swig :: _ => do
    require ((m swig.key).owner = swigId) E.ownerMismatchSwigAccount
    let a ← parseReplace ix
    let p ← openSwig (m swig.key).data
    let (p, r) ← actAs env m metas p a.acting a.authPayload a.dataPayload
    let ok ← mayReplace r.actions a.target
    require (ok = true) E.au_permissionDeniedMissingPermission
    let proof ← requiredProof env m swig metas r.authType a.authPayload
    let roles ← replaceTargetGo env swig.key a.acting a.target a.newAuth proof p.roles p.header.roles 0
    .ok (m.setData swig.key { p with roles := roles }.bytes)
  | _ => .error .notEnoughAccountKeys

end Verif
