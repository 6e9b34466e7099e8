import Verif.Model.SdkTypes

/-!
# Queries of the Rust SDK

`rust-sdk/src/wallet.rs`: what `SwigWallet` answers about a wallet from the data of its configuration account, and the lookup of a role
by credential in `state/src/swig.rs` on which it rests.  The SDK runs off the chain: byte comparison is
`(left.len() == len || right.len() != len) && right == left` there (assertions/src/lib.rs:33-35), which for every call below is equality.
-/

namespace Verif.Sdk

/-! ## Reading one role -/

/-- `with_role_data`, rust-sdk/src/wallet.rs:2025-2047: `none` stands for `AuthorityNotFound`; other errors are turned into
`InvalidSwigData` there, the model keeps the program error. -/
def withRole {α : Type} (data : Bytes) (id : Nat) (f : RoleView → R α) : R (Option α) := do
  let v ← getRole data id
  match v with
  | some v => do
    let x ← f v
    .ok (some x)
  | none => .ok none

/-- `get_role_permissions`, rust-sdk/src/wallet.rs:1944-1946. -/
def rolePermissions (data : Bytes) (id : Nat) : R (Option (List Permission)) := withRole data id fun v => fromRole v.actions

/-- `role_has_permission`, rust-sdk/src/wallet.rs:1959-1966. -/
def roleHasPermission (data : Bytes) (id : Nat) (p : Permission) : R (Option Bool) := do
  let l ← rolePermissions data id
  .ok (l.map fun l => l.contains p)

/-- `get_authority_type`, rust-sdk/src/wallet.rs:1890-1892. -/
def authorityType (data : Bytes) (id : Nat) : R (Option Nat) := withRole data id fun v => .ok v.authType

/-- `is_session_based`, rust-sdk/src/wallet.rs:1930-1932. -/
def isSessionBased (data : Bytes) (id : Nat) : R (Option Bool) := withRole data id fun v => .ok (sessionBased v.authType)

/-- `AuthorityInfo::identity` of each type: ed25519.rs:82-84, 238-240, secp256k1.rs:143-145, 266-268, secp256r1.rs:191-193, 291-293,
programexec/mod.rs:162-164, programexec/session.rs:182-184 (the slice panics when the stored prefix length exceeds 40). -/
def identity (ty : Nat) (auth : Bytes) : R Bytes :=
  if ty = T.ed25519 ∨ ty = T.ed25519Session then .ok (sl auth 0 32)
  else if ty = T.programExec ∨ ty = T.programExecSession then slice (sl auth 40 80) 0 (auth.getD 32 0).toNat
  else .ok (sl auth 0 33)

/-- `get_authority_identity`, rust-sdk/src/wallet.rs:1914-1918. -/
def authorityIdentity (data : Bytes) (id : Nat) : R (Option Bytes) := withRole data id fun v => identity v.authType v.auth

/-- `get_role_count`, rust-sdk/src/wallet.rs:1868-1879: the counter, not the number of roles. -/
def roleCount (data : Bytes) : R Nat :=
  if data.length < 48 then .error .invalidAccountData
  else do
    let _ ← rolesEndOffset data
    .ok (Header.decode data).roleCounter

/-- `get_balance`, rust-sdk/src/wallet.rs:1568-1575: the lamports of the configuration account. -/
def balance (m : Mem) (swig : Key) : Nat := (m swig).lamports

/-! ## Questions about a list of permissions -/

/-- `has_permission`, rust-sdk/src/wallet.rs:1760-1763. -/
def hasPermission (ps : List Permission) (p : Permission) : Bool := ps.contains p

/-- `has_all_permissions`, rust-sdk/src/wallet.rs:1771-1774. -/
def hasAll (ps : List Permission) : Bool := ps.any fun p => match p with | .all => true | _ => false

/-- `can_manage_authority`, rust-sdk/src/wallet.rs:1782-1787. -/
def canManage (ps : List Permission) : Bool := ps.any fun p => match p with | .manageAuthority => true | _ => false

/-- `get_sol_limit`, rust-sdk/src/wallet.rs:1794-1802. -/
def solLimitOf : List Permission → Option Nat
  | [] => none
  | .sol amount _ :: _ => some amount
  | _ :: ps => solLimitOf ps

/-- `get_recurring_sol_limit`, rust-sdk/src/wallet.rs:1810-1818. -/
def recurringSolLimitOf : List Permission → Option Recurring
  | [] => none
  | .sol _ rec :: _ => rec
  | _ :: ps => recurringSolLimitOf ps

/-- Loop of `can_spend_sol`, rust-sdk/src/wallet.rs:1838-1858. -/
def spendLoop (amount : Nat) : List Permission → Bool
  | [] => false
  | .sol limit rec :: ps =>
    if amount ≤ limit then true
    else match rec with
      | some c => if amount ≤ c.current then true else spendLoop amount ps
      | none => spendLoop amount ps
  | _ :: ps => spendLoop amount ps

/-- `can_spend_sol`, rust-sdk/src/wallet.rs:1830-1861. -/
def canSpendSol (ps : List Permission) (amount : Nat) : Bool := if hasAll ps then true else spendLoop amount ps

/-! ## Finding the role of a credential -/

/-- `AuthorityInfo::match_data` of each type off the chain: ed25519.rs:74-76, 250-252, secp256k1.rs:151-164, 251-264,
secp256r1.rs:199-204, 284-289, programexec/mod.rs:138-156, programexec/session.rs:194-213; the slices of the prefix panic when the stored
prefix length exceeds 40. -/
def matchData (ty : Nat) (auth data : Bytes) : R Bool :=
  if ty = T.ed25519 ∨ ty = T.ed25519Session then .ok (decide (sl auth 0 32 = data))
  else if ty = T.secp256k1 ∨ ty = T.secp256k1Session then
    if data.length = 33 then .ok (decide (sl auth 0 33 = data))
    else if data.length = 64 then .ok (decide (sl auth 0 33 = compressKey data))
    else .ok false
  else if ty = T.secp256r1 ∨ ty = T.secp256r1Session then
    if data.length = 33 then .ok (decide (sl auth 0 33 = data)) else .ok false
  else if ty = T.programExec then
    if data.length ≠ 80 then .ok false
    else if sl auth 0 32 ≠ sl data 0 32 then .ok false
    else do
      let p ← slice (sl auth 40 80) 0 (auth.getD 32 0).toNat
      let q ← slice data 40 (40 + (auth.getD 32 0).toNat)
      .ok (decide (p = q))
  else
    if data.length < 33 then .ok false
    else if data.getD 32 0 ≠ auth.getD 32 0 then .ok false
    else if data.length ≠ 33 + (data.getD 32 0).toNat then .ok false
    else if sl auth 0 32 ≠ sl data 0 32 then .ok false
    else do
      let p ← slice (sl auth 40 80) 0 (data.getD 32 0).toNat
      let q ← slice data 33 (33 + (data.getD 32 0).toNat)
      .ok (decide (p = q))

/-- `authority_data.len() >= 32 && authority.match_data(authority_data)`, state/src/swig.rs:769. -/
def matchLong (ty : Nat) (auth data : Bytes) : R Bool := if data.length ≥ 32 then matchData ty auth data else .ok false

/-- Loop of `SwigWithRoles::lookup_role_id`, state/src/swig.rs:712-779: bounded by the role count, unchecked reads, length check when the
authority is loaded. -/
def lookupGo (b data : Bytes) : Nat → Nat → R (Option Nat)
  | 0, _ => .ok none
  | n + 1, c =>
    if c + 16 > b.length then .error .ub
    else do
      let ty ← authTypeOf (pAuthType b c)
      if c + 16 + pAuthLen b c > b.length then .error .ub
      else if authLen ty ≠ some (pAuthLen b c) then .error .invalidAccountData
      else do
        let hit ← matchLong ty (sl b (c + 16) (c + 16 + pAuthLen b c)) data
        if hit then .ok (some (pId b c)) else lookupGo b data n (pBoundary b c)

/-- `SwigWithRoles::from_bytes` followed by `lookup_role_id`, state/src/swig.rs:699-779; `get_role_id`, rust-sdk/src/wallet.rs:1293-1308,
and `authenticate_authority`, rust-sdk/src/wallet.rs:1421-1439 (`none` is `AuthorityNotFound`, an error of the lookup panics there). -/
def lookupRoleId (data cred : Bytes) : R (Option Nat) :=
  if data.length < 48 then .error .invalidAccountData
  else do
    let e ← rolesEndOffset data
    lookupGo (sl data 48 e) cred (Header.decode data).roles 0

/-- The lookup of `ManageAuthority` in `get_current_authority_permissions`, rust-sdk/src/wallet.rs:904-910: it is printed, not pushed. -/
def printed (ty : Nat) (acts : Bytes) : R (List Permission) := do
  let _ ← getAction ty [] acts
  .ok []

/-- The lookups of `get_current_authority_permissions`, rust-sdk/src/wallet.rs:880-911: only `All` and the two unbound SOL limits are
pushed. -/
def currentReaders : List (Bytes → R (List Permission)) :=
  [ single P.all [] (fun _ => .all),
    single P.solLimit [] (fun d => .sol (rd d 0 8) none),
    single P.solRecurringLimit [] (fun d => .sol (rd d 0 8) (some ⟨rd d 8 8, rd d 16 8, rd d 24 8⟩)),
    printed P.manageAuthority ]

/-- One turn of `get_current_authority_permissions`, rust-sdk/src/wallet.rs:873-916. -/
def currentOf (cred : Bytes) : Option RoleView → R (List Permission)
  | none => .ok []
  | some v => do
    let hit ← matchData v.authType v.auth cred
    if hit then gather v.actions currentReaders else .ok []

/-- Loop of `get_current_authority_permissions`, rust-sdk/src/wallet.rs:872-918, over the role ids `i, i + 1, ...`. -/
def currentGo (data cred : Bytes) : Nat → Nat → R (List Permission)
  | 0, _ => .ok []
  | n + 1, i => do
    let v ← getRole data i
    let here ← currentOf cred v
    let rest ← currentGo data cred n (i + 1)
    .ok (here ++ rest)

/-- `get_current_authority_permissions`, rust-sdk/src/wallet.rs:857-920. -/
def currentAuthorityPermissions (data cred : Bytes) : R (List Permission) := do
  let n ← roleCount data
  currentGo data cred n 0

end Verif.Sdk
