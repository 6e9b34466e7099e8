import Verif.Model.Manage
import Verif.Model.Cpi

/-!
# Closing, migrating, moving assets

`program/src/actions/`: close_swig_v1, close_token_account_v1, transfer_assets_v1, migrate_to_wallet_address_v1.
-/

namespace Verif

/-- "All, ManageAuthority or CloseSwigAuthority", close_swig_v1.rs:147-152, close_token_account_v1.rs:151-156. -/
def hasClose (acts : Bytes) : R Bool := do
  let a ← hasAction P.all [] acts
  let b ← hasAction P.manageAuthority [] acts
  let c ← hasAction P.closeSwigAuthority [] acts
  .ok (a || b || c)

/-! ## close_swig_v1 -/

/-- `CloseSwigV1::from_instruction_bytes` and `TransferAssetsV1::from_instruction_bytes` (close_swig_v1.rs:68-80, args 36-40;
transfer_assets_v1.rs:89-103, args 45-49): role `u32` at 4; the signed data are the 8 argument bytes. -/
structure RoleIx where
  role : Nat
  dataPayload : Bytes
  authPayload : Bytes
  deriving DecidableEq, Repr

def parseRoleIx (ix : Bytes) (e : Err) : R RoleIx :=
  if ix.length < 8 then .error e else .ok ⟨rd ix 4 4, ix.take 8, ix.drop 8⟩

/-- Empty the wallet address into the destination, close_swig_v1.rs:181-190. -/
def drainWallet (env : Env) (m : Mem) (swig : Key) (bump : UInt8) (wallet dst : Meta) : R Mem :=
  if (m wallet.key).lamports > 0 then
    signedTransfer env m (walletSeeds swig ++ [[bump]]) wallet dst (m wallet.key).lamports
  else .ok m

/-- The lamport writes, close_swig_v1.rs:193-201: plain `+=` (wraps); the balance of the configuration account was read before
the wallet address was emptied. -/
def closeLamports (env : Env) (m : Mem) (swig dst : Key) (held : Nat) : Mem :=
  let m := m.setLamports swig (env.rent 1)
  m.setLamports dst (add64 (m dst).lamports (held - env.rent 1))

/-- `close_swig_v1`, program/src/actions/close_swig_v1.rs:84-213. -/
def closeSwigV1 (env : Env) (m : Mem) (metas : List Meta) (ix : Bytes) : R Mem :=
  match metas with
  | swig :: wallet :: dst :: sys :: _ => do
    require ((m swig.key).owner = swigId) E.ownerMismatchSwigAccount
    require (sys.key = systemId) E.invalidSystemProgram
    let a ← parseRoleIx ix E.invalidInstructionDataTooShort
    let p ← openSwig (m swig.key).data
    let claimer ← claimerReadStrict p.tail
    let (expected, _) ← findPda env (walletSeeds swig.key)
    require (wallet.key = expected) E.invalidSeedSwigAccount
    let (p, r) ← actAs env m metas p a.role a.authPayload a.dataPayload
    let ok ← hasClose r.actions
    require (ok = true) E.au_permissionDeniedMissingPermission
    require (claimer = none ∨ claimer = some dst.key) E.invalidRentClaimerDestination
    let held := (m swig.key).lamports
    require (held ≤ env.rent (m swig.key).data.length) E.walletNotEmpty
    require ((m wallet.key).lamports ≤ env.rent 0) E.walletNotEmpty
    let m ← drainWallet env (m.setData swig.key p.bytes) swig.key p.header.walletBump wallet dst
    let m ← realloc (closeLamports env m swig.key dst.key held) swig.key 1
    .ok (m.setData swig.key [255])
  | _ => .error .notEnoughAccountKeys

/-! ## close_token_account_v1 -/

/-- `is_swig_v2`, program/src/lib.rs:205-211, on the header fields. -/
def isV2 (h : Header) : Bool := h.walletBump != 0 && h.pad == zeros 3

/-- The checks on one token account, close_token_account_v1.rs:208-235: whether the wallet address (rather than the
configuration account) signs. -/
def closeTokenCheck (m : Mem) (program : Key) (v2 : Bool) (swig wallet token : Key) : R Bool :=
  let expected := if v2 then wallet else swig
  let fallback := if v2 then swig else wallet
  if (m token).owner ≠ program then .error E.ownerMismatchTokenAccount
  else if (m token).data.length < 72 then .error .invalidAccountData
  else
    let auth := sl (m token).data 32 64
    if auth = expected then .ok v2
    else if auth = fallback then .ok (!v2)
    else .error E.invalidSwigTokenAccountOwner

/-- Loop over the token accounts, close_token_account_v1.rs:206-255. -/
def closeTokensGo (env : Env) (cpi : Cpi) (outer : List Meta) (program : Key) (v2 : Bool) (swig wallet dst : Key)
    (walletSigner swigSigner : List Bytes) : Mem → List Meta → R Mem
  | m, [] => .ok m
  | m, t :: rest => do
    let byWallet ← closeTokenCheck m program v2 swig wallet t.key
    let m ← tokenClose env cpi m outer program t.key dst (if byWallet then wallet else swig)
      (if byWallet then walletSigner else swigSigner)
    closeTokensGo env cpi outer program v2 swig wallet dst walletSigner swigSigner m rest

/-- `close_token_account_v1`, program/src/actions/close_token_account_v1.rs:91-258; args 39-43: offset `u16` at 2, role `u32` at
4.  The header is read before the calls, `&swig_account_data[..48]` panics on short data. -/
def closeTokenV1 (env : Env) (cpi : Cpi) (m : Mem) (metas : List Meta) (ix : Bytes) : R Mem :=
  match metas with
  | swig :: wallet :: dst :: token :: _ => do
    require ((m swig.key).owner = swigId) E.ownerMismatchSwigAccount
    let a ← parseRoleIx ix E.invalidInstructionDataTooShort
    require (48 ≤ (m swig.key).data.length) .panic
    require ((m swig.key).data.getD 0 0 = 1) E.invalidSwigAccountDiscriminator
    let (expected, bump) ← findPda env (walletSeeds swig.key)
    require (wallet.key = expected) E.invalidSeedSwigAccount
    let p ← openSwig (m swig.key).data
    let (p, r) ← actAs env m metas p a.role a.authPayload a.dataPayload
    let ok ← hasClose r.actions
    require (ok = true) E.au_permissionDeniedMissingPermission
    let claimer ← claimerReadStrict p.tail
    require (claimer = none ∨ claimer = some dst.key) E.invalidRentClaimerDestination
    require (token.key = tokenId ∨ token.key = token2022Id) .incorrectProgramId
    require (rd ix 2 2 < metas.length) E.invalidInstructionDataTooShort
    closeTokensGo env cpi metas token.key (isV2 p.header) swig.key wallet.key dst.key (walletSeeds swig.key ++ [[bump]])
      (swigSeeds p.header.id ++ [[p.header.bump]]) (m.setData swig.key p.bytes) (metas.drop (rd ix 2 2))
  | _ => .error .notEnoughAccountKeys

/-! ## transfer_assets_v1 -/

/-- SOL part of `transfer_assets_v1`, transfer_assets_v1.rs:200-214. -/
def transferSol (env : Env) (m : Mem) (swig wallet : Key) : Mem :=
  let held := (m swig).lamports
  let min := env.rent (m swig).data.length
  if held > min then
    let m := m.setLamports swig min
    m.setLamports wallet (add64 (m wallet).lamports (held - min))
  else m

/-- Whether a triple (source, destination, program) is transferred, and how much, transfer_assets_v1.rs:231-284. -/
def transferAmount (m : Mem) (swig wallet : Key) (src dst program : Meta) : Nat :=
  if program.key ≠ tokenId ∧ program.key ≠ token2022Id then 0
  else if (m src.key).data.length < 72 ∨ sl (m src.key).data 32 64 ≠ swig then 0
  else if (m dst.key).data.length < 72 ∨ sl (m dst.key).data 32 64 ≠ wallet then 0
  else rd (m src.key).data 64 8

/-- One triple, transfer_assets_v1.rs:227-297. -/
def transferOne (env : Env) (cpi : Cpi) (outer : List Meta) (swig wallet : Key) (seeds : List Bytes) (m : Mem)
    (src dst program : Meta) : R Mem :=
  if transferAmount m swig wallet src dst program > 0 then
    tokenTransfer env cpi m outer program.key src.key dst.key swig (transferAmount m swig wallet src dst program) seeds
  else .ok m

/-- Loop over the triples, transfer_assets_v1.rs:221-298. -/
def transferTokensGo (env : Env) (cpi : Cpi) (outer : List Meta) (swig wallet : Key) (seeds : List Bytes) :
    Mem → List Meta → R Mem
  | m, src :: dst :: program :: rest => do
    let m ← transferOne env cpi outer swig wallet seeds m src dst program
    transferTokensGo env cpi outer swig wallet seeds m rest
  | m, _ => .ok m

/-- `transfer_assets_v1`, program/src/actions/transfer_assets_v1.rs:122-302. -/
def transferAssetsV1 (env : Env) (cpi : Cpi) (m : Mem) (metas : List Meta) (ix : Bytes) : R Mem :=
  match metas with
  | swig :: wallet :: _ :: _ :: rest => do
    require ((m swig.key).owner = swigId) E.ownerMismatchSwigAccount
    let a ← parseRoleIx ix E.invalidSwigSignInstructionDataTooShort
    let p ← openSwig (m swig.key).data
    require (p.header.walletBump ≠ 0) E.invalidSwigCreateInstructionDataTooShort
    let _ ← checkSelfPda env (walletSeeds swig.key) p.header.walletBump wallet.key E.invalidSeedSwigAccount
    let (p, r) ← actAs env m metas p a.role a.authPayload a.dataPayload
    let ok ← hasManage r.actions
    require (ok = true) E.au_permissionDeniedMissingPermission
    transferTokensGo env cpi metas swig.key wallet.key (swigSeeds p.header.id ++ [[p.header.bump]])
      (transferSol env (m.setData swig.key p.bytes) swig.key wallet.key) rest
  | _ => .error .notEnoughAccountKeys

/-! ## migrate_to_wallet_address_v1 -/

/-- The header written by the migration, migrate_to_wallet_address_v1.rs:232-246: a new header with id, bump, role count and
role counter of the old one. -/
def migratedHeader (h : Header) (walletBump : UInt8) : Header :=
  { Header.new h.id h.bump walletBump with roles := h.roles, roleCounter := h.roleCounter }

/-- `migrate_to_wallet_address_v1`, program/src/actions/migrate_to_wallet_address_v1.rs:141-273; args 38-43: wallet bump at 2, role
`u32` at 4.  (A missing role gives another error code.)  The owner of the account is not checked by the code; the runtime refuses a change of data of an account
of another program.  `OldSwig` has the layout of the header with one `u64` at 40. -/
def migrateV1 (env : Env) (m : Mem) (metas : List Meta) (ix : Bytes) : R Mem :=
  match metas with
  | swig :: _ :: payer :: wallet :: _ :: _ => do
    let a ← parseRoleIx ix E.invalidSwigCreateInstructionDataTooShort
    require (48 ≤ (m swig.key).data.length) E.stateError
    require ((m swig.key).data.getD 0 0 = 1) E.invalidSwigAccountDiscriminator
    require (¬ (rd (m swig.key).data 40 8 = 0 ∧ (m swig.key).data.getD 40 0 ≠ 0)) E.stateError
    let p ← openSwig (m swig.key).data
    let (p, r) ← actAs env m metas p a.role a.authPayload a.dataPayload
    let ok ← hasManage r.actions
    require (ok = true) E.au_permissionDeniedToManageAuthority
    require ((m wallet.key).owner = systemId) E.ownerMismatchSwigAccount
    require ((m wallet.key).data.length = 0) E.accountNotEmptySwigAccount
    let bump ← checkSelfPda env (walletSeeds swig.key) (ix.getD 2 0) wallet.key E.invalidSeedSwigAccount
    let d := { p with header := migratedHeader p.header bump }.bytes
    require ((m swig.key).owner = swigId ∨ d = (m swig.key).data) .runtime
    fundWallet env (m.setData swig.key d) payer wallet
  | _ => .error .notEnoughAccountKeys

end Verif
