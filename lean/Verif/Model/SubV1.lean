import Verif.Model.Close

/-!
# Sub-accounts, version 1

`program/src/actions/`: create_sub_account_v1, sub_account_sign_v1, toggle_sub_account_v1, withdraw_from_sub_account_v1.  A V1
sub-account is described by a `SubAccount` action (state/src/action/sub_account.rs:21-33) of the role that owns it.
-/

namespace Verif

/-- `SubAccount`, state/src/action/sub_account.rs:21-33: address at 0, bump at 32, enabled at 33, role id `u32` at 36, wallet id
at 40. -/
structure SubAct where
  sub : Key
  bump : UInt8
  enabled : UInt8
  roleId : Nat
  swigId : Key
  deriving DecidableEq, Repr

def SubAct.decode (d : Bytes) : SubAct := ⟨sl d 0 32, d.getD 32 0, d.getD 33 0, rd d 36 4, sl d 40 72⟩

/-- Write a payload through the pointer returned by `RoleMut::get_action_mut` (offset `o` of the action bytes of `r`). -/
def putAct (p : Parts) (r : RoleView) (o : Nat) (b : Bytes) : Parts := { p with roles := put p.roles (r.actsOff + o) b }

/-- `enabled: bool` read from a byte: 0 or 1; other values are undefined behaviour. -/
def readBool (b : UInt8) : R Bool := if b = 0 then .ok false else if b = 1 then .ok true else .error .ub

/-- Rent top-up of a System account without data, create_sub_account_v1.rs:217-239 (the code of `fundWallet`). -/
def fundEmpty (env : Env) (m : Mem) (payer acct : Meta) : R Mem := fundWallet env m payer acct

/-! ## create_sub_account_v1 -/

/-- The fields written into the action, create_sub_account_v1.rs:242-251 (the padding at 34..36 is kept). -/
def createdSubAct (old : Bytes) (sub : Key) (bump : UInt8) (roleId : Nat) (swigId : Key) : Bytes :=
  sub ++ [bump, 1] ++ sl old 34 36 ++ natLE 4 roleId ++ swigId

/-- `create_sub_account_v1`, program/src/actions/create_sub_account_v1.rs:138-254; args 48-54: role `u32` at 4, bump at 8, 16 bytes,
all of them signed.  The lookup of `All` (188-191) has no effect but its errors, which the second lookup repeats. -/
def createSubV1 (env : Env) (m : Mem) (metas : List Meta) (ix : Bytes) : R Mem :=
  match metas with
  | swig :: payer :: sub :: _ :: _ => do
    require ((m swig.key).owner = swigId) E.ownerMismatchSwigAccount
    require ((m sub.key).owner = systemId) E.ownerMismatchSubAccount
    require (16 ≤ ix.length) E.invalidSwigCreateInstructionDataTooShort
    let p ← openSwigU (m swig.key).data
    let (p, r) ← actAs env m metas p (rd ix 4 4) (ix.drop 16) (ix.take 16)
    let f ← getActionMut P.subAccount [] r.actions
    let o ← orErr f E.authorityCannotCreateSubAccount
    let bump ← checkSelfPda env (subSeeds p.header.id (natLE 4 (rd ix 4 4))) (ix.getD 8 0) sub.key E.invalidSeedSwigAccount
    let m ← fundEmpty env (m.setData swig.key p.bytes) payer sub
    let d := createdSubAct (sl r.actions o (o + 72)) sub.key bump (rd ix 4 4) p.header.id
    .ok (m.setData swig.key (putAct p r o d).bytes)
  | _ => .error .notEnoughAccountKeys

/-! ## sub_account_sign_v1 -/

/-- `SubAccountSignV1::from_instruction_bytes`, sub_account_sign_v1.rs:94-111; args 41-46: payload length `u16` at 2, role `u32` at
4, 16 bytes.  Only the inner instructions are signed. -/
structure SubSignIx where
  role : Nat
  payload : Bytes
  authPayload : Bytes
  deriving DecidableEq, Repr

def parseSubSign (ix : Bytes) : R SubSignIx :=
  if ix.length < 16 then .error E.invalidSwigSignInstructionDataTooShort
  else
    let n := rd ix 2 2
    if n > ix.length - 16 then .error E.invalidSwigSignInstructionDataTooShort
    else .ok ⟨rd ix 4 4, sl ix 16 (16 + n), ix.drop (16 + n)⟩

/-- The checks on the action, sub_account_sign_v1.rs:180-198, withdraw_from_sub_account_v1.rs:180-190. -/
def checkSubAct (a : SubAct) (swigId : Key) (role : Nat) : R Unit := do
  require (a.swigId = swigId) E.invalidSwigSubAccountSwigIdMismatch
  require (a.roleId = role) E.invalidSwigSubAccountRoleIdMismatch
  let en ← readBool a.enabled
  require (en = true) E.invalidSwigSubAccountDisabled

/-- The final balance check, sub_account_sign_v1.rs:232-238, sub_account_sign_v2.rs:280-286. -/
def checkRent (env : Env) (m : Mem) (k : Key) : R Mem :=
  if (m k).lamports < env.rent (m k).data.length then .error E.au_permissionDeniedInsufficientBalance else .ok m

/-- `sub_account_sign_v1`, program/src/actions/sub_account_sign_v1.rs:132-240. -/
def subSignV1 (env : Env) (cpi : Cpi) (m : Mem) (metas : List Meta) (ix : Bytes) : R Mem :=
  match metas with
  | swig :: sub :: _ :: _ => do
    require (env.stackHeight = 1) E.cpi
    require ((m swig.key).owner = swigId) E.ownerMismatchSubAccount
    require ((m sub.key).owner = systemId) E.ownerMismatchSubAccount
    let a ← parseSubSign ix
    let p ← openSwigU (m swig.key).data
    let (p, r) ← actAs env m metas p a.role a.authPayload a.payload
    let f ← getAction P.subAccount sub.key r.actions
    let d ← orErr f E.invalidSwigSubAccountSwigIdMismatch
    let s := SubAct.decode d
    checkSubAct s p.header.id a.role
    let ixs ← decodeIxs metas sub.key [] a.payload
    let m ← execAll env cpi metas sub.key (subSeeds s.swigId (natLE 4 s.roleId) ++ [[s.bump]]) (m.setData swig.key p.bytes) ixs
    checkRent env m sub.key
  | _ => .error .notEnoughAccountKeys

/-! ## toggle_sub_account_v1 -/

/-- The role whose action is toggled, toggle_sub_account_v1.rs:162-209: the acting role authenticates and, unless it is that role,
needs All or ManageAuthority. -/
def toggleRole (env : Env) (m : Mem) (metas : List Meta) (p : Parts) (role authRole : Nat) (payload data : Bytes) :
    R (Parts × RoleView) := do
  let (p, r) ← actAs env m metas p authRole payload data
  if authRole ≠ role then do
    let ok ← hasManage r.actions
    require (ok = true) E.au_permissionDeniedMissingPermission
    let t ← getMutRole p.roles role
    let t ← orErr t E.invalidAuthorityNotFoundByRoleId
    .ok (p, t)
  else .ok (p, r)

/-- `toggle_sub_account_v1`, program/src/actions/toggle_sub_account_v1.rs:131-218; args 42-48: enabled at 2, role `u32` at 8, acting
role at 12, 16 bytes. -/
def toggleSubV1 (env : Env) (m : Mem) (metas : List Meta) (ix : Bytes) : R Mem :=
  match metas with
  | swig :: _ :: sub :: _ => do
    require ((m swig.key).owner = swigId) E.ownerMismatchSwigAccount
    require ((m sub.key).owner = systemId) E.ownerMismatchSubAccount
    require (16 ≤ ix.length) E.invalidInstructionDataTooShort
    let _ ← readBool (ix.getD 2 0)
    let p ← openSwigU (m swig.key).data
    let (p, t) ← toggleRole env m metas p (rd ix 8 4) (rd ix 12 4) (ix.drop 16) (ix.take 16)
    let f ← getActionMut P.subAccount sub.key t.actions
    let o ← orErr f E.au_permissionDeniedMissingPermission
    require (sl t.actions o (o + 32) = sub.key) E.invalidSwigSubAccountSwigIdMismatch
    .ok (m.setData swig.key (putAct p t (o + 33) [ix.getD 2 0]).bytes)
  | _ => .error .notEnoughAccountKeys

/-! ## withdraw_from_sub_account_v1 -/

/-- Permission checks, withdraw_from_sub_account_v1.rs:169-213: the sub-account action if the role has one for this address. -/
def withdrawPermission (env : Env) (h : Header) (role : Nat) (sub : Key) (acts : Bytes) : R (Option SubAct) := do
  let all ← hasAction P.all [] acts
  let manage ← hasAction P.manageAuthority [] acts
  let f ← getAction P.subAccount sub acts
  match f with
  | some d => do
    checkSubAct (SubAct.decode d) h.id role
    .ok (some (SubAct.decode d))
  | none =>
    if manage = true then do
      let (k, _) ← findPda env (subSeeds h.id (natLE 4 role))
      require (k = sub) E.invalidSwigSubAccountSwigIdMismatch
      .ok none
    else do
      require (all = true) E.au_permissionDeniedMissingPermission
      .ok none

/-- Search for the creating role among ids 0..=10, withdraw_from_sub_account_v1.rs:229-252. -/
def findSubRole (env : Env) (swigId sub : Key) : Nat → Nat → R (Nat × UInt8)
  | 0, _ => .error E.invalidSwigSubAccountSwigIdMismatch
  | n + 1, i => do
    let (k, bump) ← findPda env (subSeeds swigId (natLE 4 i))
    if k = sub then .ok (i, bump) else findSubRole env swigId sub n (i + 1)

/-- Role id and bump for signing, withdraw_from_sub_account_v1.rs:223-253. -/
def withdrawSigner (env : Env) (h : Header) (sub : Key) (s : Option SubAct) : R (Nat × UInt8) :=
  match s with
  | some s => .ok (s.roleId, s.bump)
  | none => findSubRole env h.id sub 11 0

/-- Token part, withdraw_from_sub_account_v1.rs:256-299; indexing panics, the owner field is read with `get_unchecked`. -/
def withdrawTokenV1 (env : Env) (cpi : Cpi) (m : Mem) (metas : List Meta) (sub wallet : Key) (amount : Nat)
    (seeds : List Bytes) : R Mem := do
  let src ← getOr metas 6 .panic
  let dst ← getOr metas 7 .panic
  let owner ← slU (m dst.key).data 32 64
  require (wallet = owner) E.invalidSwigTokenAccountOwner
  let _ ← getOr metas 8 .panic
  let program := (m src.key).owner
  require (program = tokenId ∨ program = token2022Id) E.ownerMismatchTokenAccount
  require ((m dst.key).owner = program) E.invalidOperation
  tokenTransfer env cpi m metas program src.key dst.key sub amount seeds

/-- SOL part, withdraw_from_sub_account_v1.rs:302-319, withdraw_from_sub_account_v2.rs:264-272. -/
def withdrawSol (env : Env) (m : Mem) (sub wallet : Meta) (amount : Nat) (seeds : List Bytes) : R Mem :=
  if amount > (m sub.key).lamports then .error E.au_permissionDeniedInsufficientBalance
  else signedTransfer env m seeds sub wallet amount

/-- `withdraw_from_sub_account_v1`, program/src/actions/withdraw_from_sub_account_v1.rs:107-322; args 46-51: role `u32` at 4, amount
`u64` at 8, 16 bytes. -/
def withdrawSubV1 (env : Env) (cpi : Cpi) (m : Mem) (metas : List Meta) (ix : Bytes) : R Mem :=
  match metas with
  | swig :: _ :: sub :: _ :: wallet :: _ :: _ => do
    require ((m swig.key).owner = swigId) E.ownerMismatchSwigAccount
    require ((m sub.key).owner = systemId) E.ownerMismatchSubAccount
    require ((m wallet.key).owner = systemId) E.ownerMismatchSwigAccount
    require (16 ≤ ix.length) E.invalidSwigSignInstructionDataTooShort
    let p ← openSwig (m swig.key).data
    let (expected, _) ← findPda env (walletSeeds swig.key)
    require (expected = wallet.key) E.invalidSwigSubAccountSwigIdMismatch
    let (p, r) ← actAs env m metas p (rd ix 4 4) (ix.drop 16) (ix.take 16)
    let s ← withdrawPermission env p.header (rd ix 4 4) sub.key r.actions
    let (role, bump) ← withdrawSigner env p.header sub.key s
    let seeds := subSeeds p.header.id (natLE 4 role) ++ [[bump]]
    let m := m.setData swig.key p.bytes
    if 7 ≤ metas.length then withdrawTokenV1 env cpi m metas sub.key wallet.key (rd ix 8 8) seeds
    else withdrawSol env m sub wallet (rd ix 8 8) seeds
  | _ => .error .notEnoughAccountKeys

end Verif
