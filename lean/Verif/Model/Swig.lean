import Verif.Model.Action
import Verif.Model.AuthLayout

/-!
# The wallet account

`state/src/swig.rs`: header, role table, `SwigBuilder`.  The account data is `header (48 bytes) ++ role buffer`.
-/

namespace Verif

/-- `Swig`, state/src/swig.rs:484-503 (48 bytes). -/
structure Header where
  disc : UInt8
  bump : UInt8
  id : Key
  roles : Nat
  roleCounter : Nat
  walletBump : UInt8
  pad : Bytes
  subCounter : Nat
  deriving DecidableEq, Repr

/-- Byte image of the header (`IntoBytes for Swig`, state/src/swig.rs:681-687; little-endian `repr(C)`). -/
def Header.encode (h : Header) : Bytes :=
  [h.disc, h.bump] ++ h.id ++ natLE 2 h.roles ++ natLE 4 h.roleCounter ++ [h.walletBump] ++ h.pad ++
    natLE 4 h.subCounter

/-- Reading the header from the first 48 bytes (`Swig::load_unchecked`). -/
def Header.decode (b : Bytes) : Header where
  disc := b.getD 0 0
  bump := b.getD 1 0
  id := sl b 2 34
  roles := rd b 34 2
  roleCounter := rd b 36 4
  walletBump := b.getD 40 0
  pad := sl b 41 44
  subCounter := rd b 44 4

/-- `Swig::new`, state/src/swig.rs:521-532. -/
def Header.new (id : Key) (bump walletBump : UInt8) : Header where
  disc := 1
  bump := bump
  id := id
  roles := 0
  roleCounter := 0
  walletBump := walletBump
  pad := zeros 3
  subCounter := 0

/-! ## `Position` at a buffer offset, state/src/role.rs:20-34 -/

def pAuthType (b : Bytes) (c : Nat) : Nat := rd b c 2
def pAuthLen (b : Bytes) (c : Nat) : Nat := rd b (c + 2) 2
def pNumActions (b : Bytes) (c : Nat) : Nat := rd b (c + 4) 2
def pId (b : Bytes) (c : Nat) : Nat := rd b (c + 8) 4
def pBoundary (b : Bytes) (c : Nat) : Nat := rd b (c + 12) 4

/-- Loop of `Swig::roles_end_offset`, state/src/swig.rs:547-560, on the bytes after the header. -/
def rolesEndGo (b : Bytes) : Nat → Nat → R Nat
  | 0, c => .ok c
  | n + 1, c =>
    if c + 16 > b.length then .error .invalidAccountData
    else if pBoundary b c < c + 16 ∨ pBoundary b c > b.length then .error .invalidAccountData
    else rolesEndGo b n (pBoundary b c)

/-- `Swig::roles_end_offset`, state/src/swig.rs:538-563. -/
def rolesEndOffset (data : Bytes) : R Nat :=
  if data.length < 48 then .error .invalidAccountData
  else do
    let c ← rolesEndGo (data.drop 48) (Header.decode data).roles 0
    .ok (48 + c)

/-- `SwigParts`, state/src/swig.rs:506-517. -/
structure Parts where
  header : Header
  roles : Bytes
  tail : Bytes
  deriving DecidableEq, Repr

/-- `Swig::split_parts` and `split_parts_mut`, state/src/swig.rs:582-600. -/
def splitParts (data : Bytes) : R Parts := do
  let e ← rolesEndOffset data
  .ok ⟨Header.decode data, sl data 48 e, data.drop e⟩

/-- A role as seen through `RoleMut` (state/src/role.rs:132-141): the position fields, the stored authority and action
bytes, and their offsets in the role buffer, through which the code writes. -/
structure RoleView where
  offset : Nat
  authType : Nat
  authLen : Nat
  numActions : Nat
  id : Nat
  boundary : Nat
  auth : Bytes
  actions : Bytes
  deriving DecidableEq, Repr

def RoleView.authOff (r : RoleView) : Nat := r.offset + 16
def RoleView.actsOff (r : RoleView) : Nat := r.offset + 16 + r.authLen

/-- Search loop of `Swig::get_mut_role`, state/src/swig.rs:607-624.  Each turn moves the cursor forward, so
`fuel = length` suffices. -/
def findRoleGo (b : Bytes) (id : Nat) : Nat → Nat → R (Option Nat)
  | 0, c => if c < b.length then .error .outOfFuel else .ok none
  | fuel + 1, c =>
    if c < b.length then
      if c + 16 > b.length then .error .invalidAccountData
      else if pId b c = id then .ok (some c)
      else if pBoundary b c < c + 16 ∨ pBoundary b c > b.length then .error .invalidAccountData
      else findRoleGo b id fuel (pBoundary b c)
    else .ok none

/-- The role record at offset `c`, state/src/swig.rs:625-668: unchecked splits (outside the slice: `Err.ub`), load of the
authority struct by type with a length check. -/
def roleAt (b : Bytes) (c : Nat) : R RoleView :=
  let al := pAuthLen b c
  let bd := pBoundary b c
  if c + 16 + al > b.length then .error .ub
  else do
    let ty ← authTypeOf (pAuthType b c)
    if authLen ty ≠ some al then .error .invalidAccountData
    else if bd < c + 16 + al ∨ bd > b.length then .error .ub
    else .ok {
      offset := c, authType := ty, authLen := al, numActions := pNumActions b c, id := pId b c,
      boundary := bd, auth := sl b (c + 16) (c + 16 + al), actions := sl b (c + 16 + al) bd }

/-- `Swig::get_mut_role`, state/src/swig.rs:603-672. -/
def getMutRole (b : Bytes) (id : Nat) : R (Option RoleView) := do
  let f ← findRoleGo b id b.length 0
  match f with
  | none => .ok none
  | some c => do
    let r ← roleAt b c
    .ok (some r)

/-- Loop of `SwigWithRoles::get_role`, state/src/swig.rs:782-848: bounded by the role count, unchecked reads. -/
def getRoleGo (b : Bytes) (id : Nat) : Nat → Nat → R (Option RoleView)
  | 0, _ => .ok none
  | n + 1, c =>
    if c + 16 > b.length then .error .ub
    else if pId b c = id then do
      let r ← roleAt b c
      .ok (some r)
    else getRoleGo b id n (pBoundary b c)

/-- `SwigWithRoles::from_bytes` followed by `get_role`, state/src/swig.rs:699-709, 782-848. -/
def getRole (data : Bytes) (id : Nat) : R (Option RoleView) :=
  if data.length < 48 then .error .invalidAccountData
  else do
    let e ← rolesEndOffset data
    getRoleGo (sl data 48 e) id (Header.decode data).roles 0

/-! ## `SwigBuilder` -/

/-- `SwigBuilder { role_buffer, swig }`, state/src/swig.rs:169-174. -/
structure Builder where
  swig : Header
  buf : Bytes
  deriving DecidableEq, Repr

/-- `SwigBuilder::new_from_bytes`, state/src/swig.rs:190-198; `split_at_mut` panics on short data. -/
def Builder.fromBytes (data : Bytes) : R Builder :=
  if data.length < 48 then .error .panic else .ok ⟨Header.decode data, data.drop 48⟩

/-- The account data a builder writes through to. -/
def Builder.bytes (s : Builder) : Bytes := s.swig.encode ++ s.buf

/-- Loop of `add_role` to the end of the last role, state/src/swig.rs:361-366; slicing panics. -/
def lastBoundaryGo (b : Bytes) : Nat → Nat → R Nat
  | 0, c => .ok c
  | n + 1, c => if c + 16 > b.length then .error .panic else lastBoundaryGo b n (pBoundary b c)

/-- Action copy loop of `add_role`, state/src/swig.rs:446-473, also used by `perform_replace_all_operation`
(program/src/actions/update_authority_v1.rs:369-402): `n` actions of `acts` from offset `ac` are written at `cur`, each with
its boundary rewritten to the offset of the next action relative to `start`. -/
def writeActionsGo (acts : Bytes) (start : Nat) : Nat → Nat → Nat → Bytes → R Bytes
  | 0, _, _, buf => .ok buf
  | n + 1, ac, cur, buf => do
    let header ← slice acts ac (ac + 8)
    let len := aLen header 0
    let data ← slice acts (ac + 8) (ac + 8 + len)
    let ty ← permission (aType header 0)
    let ok ← validateLayout ty data
    if ok = false then .error .invalidAccountData
    else do
      let buf ← write buf cur header
      let next := (cur - start) + 8 + len
      let buf ← write buf (cur + 4) (natLE 4 next)
      let buf ← write buf (cur + 8) data
      writeActionsGo acts start n (ac + 8 + len) (cur + 8 + len) buf

/-- Fields of the new position written by `add_role`, state/src/swig.rs:430-438: the padding bytes 6..8 keep their
previous content. -/
def writePosition (buf : Bytes) (c authType authLen numActions id boundary : Nat) : R Bytes := do
  let buf ← write buf c (natLE 2 authType ++ natLE 2 authLen ++ natLE 2 numActions)
  write buf (c + 8) (natLE 4 id ++ natLE 4 boundary)

/-- `SwigBuilder::add_role`, state/src/swig.rs:347-478.  `roles += 1` and `role_counter += 1` wrap in a release build. -/
def addRole (s : Builder) (ty : Nat) (authData acts : Bytes) : R Builder := do
  let n ← calcActions acts
  rejectDupV2 acts
  let c ← lastBoundaryGo s.buf s.swig.roles 0
  match authLen ty with
  | none => .error E.st_invalidAuthorityData
  | some al => do
    let old ← slice s.buf (c + 16) (c + 16 + al)
    let auth ← setAuthority ty authData old
    let buf ← write s.buf (c + 16) auth
    let buf ← writePosition buf c ty al n s.swig.roleCounter (c + 16 + (al + acts.length))
    let buf ← writeActionsGo acts (c + 16 + al) n 0 (c + 16 + al) buf
    .ok ⟨{ s.swig with roles := (s.swig.roles + 1) % 2 ^ 16,
                       roleCounter := (s.swig.roleCounter + 1) % 2 ^ 32 }, buf⟩

/-- First pass of `remove_role`, state/src/swig.rs:209-240: the last role with the id wins. -/
def removeScanGo (b : Bytes) (id : Nat) : Nat → Nat → Option (Nat × Nat) → R (Option (Nat × Nat))
  | 0, _, found => .ok found
  | n + 1, c, found =>
    if c ≥ b.length then .ok found
    else if c + 16 > b.length then .error .invalidAccountData
    else if pBoundary b c > b.length then .error .invalidAccountData
    else removeScanGo b id n (pBoundary b c) (if pId b c = id then some (c, pBoundary b c) else found)

/-- Boundary fix-up loop of `remove_role`, state/src/swig.rs:257-276. -/
def removeFixGo (removal newEnd : Nat) : Nat → Nat → Bytes → R Bytes
  | 0, c, buf => if c < newEnd then .error .outOfFuel else .ok buf
  | fuel + 1, c, buf =>
    if c < newEnd then
      if c + 16 > buf.length then .ok buf
      else if pBoundary buf c > removal then
        let bd := pBoundary buf c - removal
        removeFixGo removal newEnd fuel bd (put buf (c + 12) (natLE 4 bd))
      else .ok buf
    else .ok buf

/-- `SwigBuilder::remove_role`, state/src/swig.rs:203-289.  Returns the new state and `(new_data_end, removal_size)`.
`boundary - offset` wraps when the stored boundary is before the role; then `copy_within` or the zero fill panics. -/
def removeRole (s : Builder) (id : Nat) : R (Builder × Nat × Nat) := do
  let f ← removeScanGo s.buf id s.swig.roles 0 none
  match f with
  | none => .error E.st_roleNotFound
  | some (off, bd) =>
    if bd < off then .error .panic
    else do
      let len := s.buf.length
      let removal := bd - off
      let remaining := len - bd
      let buf := put s.buf off (s.buf.drop bd)
      let buf ← removeFixGo removal (off + remaining) len off buf
      let buf := buf.take (len - removal) ++ zeros removal
      .ok (⟨{ s.swig with roles := (s.swig.roles + 2 ^ 16 - 1) % 2 ^ 16 }, buf⟩, len - removal, removal)

end Verif
