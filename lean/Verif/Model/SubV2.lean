import Verif.Model.SubV1

/-!
# Sub-accounts, version 2

`program/src/actions/`: create_sub_account_v2, sub_account_sign_v2, withdraw_from_sub_account_v2, toggle_sub_account_v2;
`state/src/sub_account_v2.rs`.
-/

namespace Verif

/-- `require_swig_v2`, program/src/lib.rs:224-233, after the discriminator check (the code makes it before the split).  The discriminator
is read with `get_unchecked(0)` (create_sub_account_v2.rs:142, sub_account_sign_v2.rs:210, toggle_sub_account_v2.rs:111): empty data is
`Err.ub`, also for `withdraw_from_sub_account_v2`, where the index panics (line 114). -/
def openSwigV2 (data : Bytes) : R Parts := do
  require (data ≠ []) .ub
  require (data.getD 0 0 = 1) E.invalidSwigAccountDiscriminator
  require (48 ≤ data.length) E.invalidSwigAccountDiscriminator
  require (isV2 (Header.decode data) = true) E.signV2CannotBeUsedWithSwigV1
  openSwig data

/-- `SubAccountV2`, state/src/sub_account_v2.rs:10-25 (72 bytes). -/
structure SubState where
  disc : UInt8
  bump : UInt8
  assetBump : UInt8
  enabled : UInt8
  subId : Nat
  swigId : Key
  sub : Key
  deriving DecidableEq, Repr

def SubState.encode (s : SubState) : Bytes := [s.disc, s.bump, s.assetBump, s.enabled] ++ natLE 4 s.subId ++ s.swigId ++ s.sub

def SubState.decode (b : Bytes) : SubState :=
  ⟨b.getD 0 0, b.getD 1 0, b.getD 2 0, b.getD 3 0, rd b 4 4, sl b 8 40, sl b 40 72⟩

/-- `SubAccountV2::load_unchecked` (length check) and `check_discriminator`, state/src/sub_account_v2.rs:63-68. -/
def loadSubState (b : Bytes) : R SubState :=
  if b.length ≠ 72 then .error .invalidAccountData
  else if b.getD 0 0 ≠ 2 then .error .invalidAccountData
  else .ok (SubState.decode b)

/-- `is_enabled`, state/src/sub_account_v2.rs:72-78. -/
def SubState.isEnabled (s : SubState) : R Bool :=
  if s.enabled = 0 then .ok false else if s.enabled = 1 then .ok true else .error .invalidAccountData

/-- `has_scoped_v2`, program/src/actions/sub_account_sign_v2.rs:37-65, on the remaining bytes; every turn consumes at least 8
bytes, so `fuel = length` suffices. -/
def hasScopedGo (ty id : Nat) (acceptAll : Bool) : Nat → Bytes → R Bool
  | 0, b => if 8 ≤ b.length then .error .outOfFuel else .ok false
  | fuel + 1, b =>
    if 8 ≤ b.length then
      let len := aLen b 0
      if 8 + len > b.length then .error E.stateError
      else do
        let t ← permission (aType b 0)
        if (t = ty ∨ (acceptAll = true ∧ t = P.subAccountV2All)) ∧ 4 ≤ len ∧ sl b 8 12 = natLE 4 id then .ok true
        else hasScopedGo ty id acceptAll fuel (b.drop (8 + len))
    else .ok false

def hasScoped (ty id : Nat) (acceptAll : Bool) (acts : Bytes) : R Bool := hasScopedGo ty id acceptAll acts.length acts

/-- `authorize_scoped_v2`, program/src/actions/sub_account_sign_v2.rs:75-85. -/
def authorizeScoped (ty id : Nat) (acts : Bytes) : R Unit := do
  let ok ← hasScoped ty id true acts
  require (ok = true) E.permissionDeniedMissingSubAccountV2Permission

/-- `validate_v2_state`, program/src/actions/sub_account_sign_v2.rs:93-126: the bump of the asset account. -/
def validateState (env : Env) (m : Mem) (state asset swigKey : Key) (id : Nat) : R UInt8 := do
  require ((m state).owner = swigId) E.ownerMismatchSubAccountV2State
  let s ← loadSubState (m state).data
  require (s.swigId = swigKey) E.invalidSwigSubAccountV2SwigIdMismatch
  require (s.subId = id) E.invalidSwigSubAccountV2IdMismatch
  let en ← s.isEnabled
  require (en = true) E.invalidSwigSubAccountV2Disabled
  let _ ← checkSelfPda env (subV2StateSeeds swigKey (natLE 4 id)) s.bump state E.invalidSeedSubAccountV2
  require (s.sub = asset) E.invalidSeedSubAccountV2
  .ok s.assetBump

/-! ## create_sub_account_v2 -/

/-- `build_all_action_bytes`, create_sub_account_v2.rs:103-111. -/
def allActionBytes (id : Nat) : Bytes := natLE 2 P.subAccountV2All ++ natLE 2 8 ++ zeros 4 ++ natLE 4 id ++ zeros 4

/-- Authorise and draw the id, create_sub_account_v2.rs:140-192: the account data, the id, the wallet id, whether the creator
already holds the grant. -/
def drawSubId (env : Env) (m : Mem) (metas : List Meta) (swig : Key) (role : Nat) (payload data : Bytes) :
    R (Parts × Nat × Bool) := do
  let p ← openSwigV2 (m swig).data
  let (p, r) ← actAs env m metas p role payload data
  let ok ← hasAction P.subAccountV2Create [] r.actions
  require (ok = true) E.authorityCannotCreateSubAccountV2
  require (p.header.subCounter + 1 < 2 ^ 32) E.stateError
  let granted ← hasScoped P.subAccountV2All p.header.subCounter false r.actions
  .ok ({ p with header := { p.header with subCounter := p.header.subCounter + 1 } }, p.header.subCounter, granted)

/-- Rent top-up of the state account, create_sub_account_v2.rs:216-226. -/
def fundState (env : Env) (m : Mem) (payer state : Meta) : R Mem :=
  if env.rent 72 - (m state.key).lamports > 0 then sysTransfer m payer state (env.rent 72 - (m state.key).lamports) else .ok m

/-- Final grant, create_sub_account_v2.rs:270-278. -/
def grantAll (env : Env) (m : Mem) (swig payer : Meta) (role id : Nat) (granted : Bool) : R Mem :=
  if granted then .ok m else appendActions env m swig payer role (allActionBytes id)

/-- `create_sub_account_v2`, program/src/actions/create_sub_account_v2.rs:115-281; args 43-53: role `u32` at 4, state bump at 8, asset
bump at 9, 16 bytes. -/
def createSubV2 (env : Env) (m : Mem) (metas : List Meta) (ix : Bytes) : R Mem :=
  match metas with
  | swig :: payer :: state :: sub :: sys :: _ => do
    require ((m swig.key).owner = swigId) E.ownerMismatchSwigAccount
    require ((m state.key).owner = systemId) E.ownerMismatchSubAccountV2State
    require ((m sub.key).owner = systemId) E.ownerMismatchSubAccount
    require (sys.key = systemId) E.invalidSystemProgram
    require ((m state.key).data.length = 0) .invalidAccountData
    require (16 ≤ ix.length) E.invalidSwigCreateSubAccountV2InstructionDataTooShort
    let (p, id, granted) ← drawSubId env m metas swig.key (rd ix 4 4) (ix.drop 16) (ix.take 16)
    let m := m.setData swig.key p.bytes
    let stateSeeds := subV2StateSeeds p.header.id (natLE 4 id)
    let bump ← checkSelfPda env stateSeeds (ix.getD 8 0) state.key E.invalidSeedSubAccountV2
    let assetBump ← checkSelfPda env (subV2Seeds p.header.id (natLE 4 id)) (ix.getD 9 0) sub.key E.invalidSeedSubAccountV2
    let m ← fundState env m payer state
    let m ← sysAllocAssign env m (stateSeeds ++ [[bump]]) state 72 swigId
    let m := m.setData state.key (SubState.encode ⟨2, bump, assetBump, 1, id, p.header.id, sub.key⟩)
    let m ← fundEmpty env m payer sub
    grantAll env m swig payer (rd ix 4 4) id granted
  | _ => .error .notEnoughAccountKeys

/-! ## sub_account_sign_v2 -/

/-- `SubAccountSignV2::from_instruction_bytes`, sub_account_sign_v2.rs:170-191; args 131-137: payload length `u16` at 2, role `u32`
at 4, sub-account id at 8, 16 bytes.  Arguments and inner instructions are signed. -/
structure SubSignV2Ix where
  role : Nat
  subId : Nat
  payload : Bytes
  dataPayload : Bytes
  authPayload : Bytes
  deriving DecidableEq, Repr

def parseSubSignV2 (ix : Bytes) : R SubSignV2Ix :=
  if ix.length < 16 then .error E.invalidSwigSignInstructionDataTooShort
  else
    let n := rd ix 2 2
    if n > ix.length - 16 then .error E.invalidSwigSignInstructionDataTooShort
    else .ok ⟨rd ix 4 4, rd ix 8 4, sl ix 16 (16 + n), ix.take (16 + n), ix.drop (16 + n)⟩

/-- Open, authenticate and authorise a V2 operation, sub_account_sign_v2.rs:208-245, toggle_sub_account_v2.rs:110-146. -/
def actScoped (env : Env) (m : Mem) (metas : List Meta) (swig : Key) (role ty id : Nat) (payload data : Bytes) :
    R (Parts × RoleView) := do
  let p ← openSwigV2 (m swig).data
  let (p, r) ← actAs env m metas p role payload data
  authorizeScoped ty id r.actions
  .ok (p, r)

/-- `sub_account_sign_v2`, program/src/actions/sub_account_sign_v2.rs:196-288. -/
def subSignV2 (env : Env) (cpi : Cpi) (m : Mem) (metas : List Meta) (ix : Bytes) : R Mem :=
  match metas with
  | swig :: state :: sub :: _ :: _ => do
    require (env.stackHeight = 1) E.cpi
    require ((m swig.key).owner = swigId) E.ownerMismatchSwigAccount
    require ((m sub.key).owner = systemId) E.ownerMismatchSubAccount
    let a ← parseSubSignV2 ix
    let (p, _) ← actScoped env m metas swig.key a.role P.subAccountV2Sign a.subId a.authPayload a.dataPayload
    let m := m.setData swig.key p.bytes
    let bump ← validateState env m state.key sub.key p.header.id a.subId
    let ixs ← decodeIxs metas sub.key [] a.payload
    let m ← execAll env cpi metas sub.key (subV2Seeds p.header.id (natLE 4 a.subId) ++ [[bump]]) m ixs
    checkRent env m sub.key
  | _ => .error .notEnoughAccountKeys

/-! ## withdraw_from_sub_account_v2 -/

/-- Checks of the token layout, withdraw_from_sub_account_v2.rs:186-253. -/
def checkWithdrawTokens (m : Mem) (sub wallet src dst program : Key) : R Unit := do
  require ((m src).owner = tokenId ∨ (m src).owner = token2022Id) E.ownerMismatchTokenAccount
  require ((m dst).owner = (m src).owner) E.invalidOperation
  require (program = (m src).owner) E.ownerMismatchTokenAccount
  require (165 ≤ (m src).data.length ∧ 165 ≤ (m dst).data.length) .invalidAccountData
  require ((m src).data.getD 108 0 = 1 ∧ (m dst).data.getD 108 0 = 1) .invalidAccountData
  require (sl (m src).data 0 32 = sl (m dst).data 0 32) E.invalidOperation
  require (sub = sl (m src).data 32 64) E.invalidSwigTokenAccountOwner
  require (wallet = sl (m dst).data 32 64) E.invalidSwigTokenAccountOwner

/-- The transfer, withdraw_from_sub_account_v2.rs:181-275: exactly 10 accounts for tokens, exactly 7 for SOL. -/
def withdrawV2 (env : Env) (cpi : Cpi) (m : Mem) (metas : List Meta) (sub wallet : Meta) (amount : Nat) (seeds : List Bytes) :
    R Mem :=
  if metas.length = 10 then do
    let src ← getOr metas 7 .panic
    let dst ← getOr metas 8 .panic
    let program ← getOr metas 9 .panic
    checkWithdrawTokens m sub.key wallet.key src.key dst.key program.key
    tokenTransfer env cpi m metas program.key src.key dst.key sub.key amount seeds
  else if metas.length = 7 then withdrawSol env m sub wallet amount seeds
  else .error E.invalidAccountsLength

/-- `withdraw_from_sub_account_v2`, program/src/actions/withdraw_from_sub_account_v2.rs:97-277; args 41-48: role `u32` at 4,
sub-account id at 8, amount `u64` at 16, 24 bytes.  (The wallet address is checked before the role is looked up.) -/
def withdrawSubV2 (env : Env) (cpi : Cpi) (m : Mem) (metas : List Meta) (ix : Bytes) : R Mem :=
  match metas with
  | swig :: _ :: state :: sub :: wallet :: _ :: _ :: _ => do
    require ((m swig.key).owner = swigId) E.ownerMismatchSwigAccount
    require ((m sub.key).owner = systemId) E.ownerMismatchSubAccount
    require ((m wallet.key).owner = systemId) E.ownerMismatchSwigAccount
    require (24 ≤ ix.length) E.invalidSwigSignInstructionDataTooShort
    let (p, _) ← actScoped env m metas swig.key (rd ix 4 4) P.subAccountV2Withdraw (rd ix 8 4) (ix.drop 24) (ix.take 24)
    let _ ← checkSelfPda env (walletSeeds swig.key) p.header.walletBump wallet.key E.invalidSwigSubAccountV2SwigIdMismatch
    let m := m.setData swig.key p.bytes
    let bump ← validateState env m state.key sub.key p.header.id (rd ix 8 4)
    withdrawV2 env cpi m metas sub wallet (rd ix 16 8) (subV2Seeds p.header.id (natLE 4 (rd ix 8 4)) ++ [[bump]])
  | _ => .error .notEnoughAccountKeys

/-! ## toggle_sub_account_v2 -/

/-- The checks on the state account, toggle_sub_account_v2.rs:149-167. -/
def toggleState (env : Env) (m : Mem) (state swigKey : Key) (id : Nat) : R Unit := do
  let s ← loadSubState (m state).data
  let _ ← s.isEnabled
  require (s.swigId = swigKey) E.invalidSwigSubAccountV2SwigIdMismatch
  require (s.subId = id) E.invalidSwigSubAccountV2IdMismatch
  let _ ← checkSelfPda env (subV2StateSeeds swigKey (natLE 4 id)) s.bump state E.invalidSeedSubAccountV2
  .ok ()

/-- `toggle_sub_account_v2`, program/src/actions/toggle_sub_account_v2.rs:96-171; args 34-44: enabled at 2, role `u32` at 4,
sub-account id at 8, 16 bytes. -/
def toggleSubV2 (env : Env) (m : Mem) (metas : List Meta) (ix : Bytes) : R Mem :=
  match metas with
  | swig :: _ :: state :: _ => do
    require ((m swig.key).owner = swigId) E.ownerMismatchSwigAccount
    require ((m state.key).owner = swigId) E.ownerMismatchSubAccountV2State
    require (16 ≤ ix.length) E.invalidInstructionDataTooShort
    require (ix.getD 2 0 = 0 ∨ ix.getD 2 0 = 1) .invalidInstructionData
    let (p, _) ← actScoped env m metas swig.key (rd ix 4 4) P.subAccountV2Toggle (rd ix 8 4) (ix.drop 16) (ix.take 16)
    let m := m.setData swig.key p.bytes
    toggleState env m state.key p.header.id (rd ix 8 4)
    .ok (m.setData state.key (put (m state.key).data 3 [ix.getD 2 0]))
  | _ => .error .notEnoughAccountKeys

end Verif
