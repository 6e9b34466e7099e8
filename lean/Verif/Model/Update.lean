import Verif.Model.Swig

/-!
# Changing the actions of a role

The buffer operations of `program/src/actions/update_authority_v1.rs`.  `swig_roles` is the role capacity of the account
(possibly longer than the roles stored in it), a size difference `i64` is the pair (new size, current size).
-/

namespace Verif

/-- `(x as i64 + size_diff) as u32`, update_authority_v1.rs:337-343. -/
def shift32 (x new cur : Nat) : Nat := (x + new + 2 ^ 32 - cur % 2 ^ 32) % 2 ^ 32

/-- One turn of the loop at update_authority_v1.rs:335-345: the position at `c` with its boundary (and, for the target, its
action count) updated; returns the buffer and the next cursor. -/
def replaceFixOne (acts : Bytes) (roleEnd target new cur : Nat) (c : Nat) (buf : Bytes) : R (Bytes × Nat) :=
  let bd := if pBoundary buf c > roleEnd then shift32 (pBoundary buf c) new cur else pBoundary buf c
  if pId buf c = target then do
    let n ← calcActions acts
    let bd := shift32 bd new cur
    .ok (put (put buf (c + 12) (natLE 4 bd)) (c + 4) (natLE 2 n), bd)
  else .ok (put buf (c + 12) (natLE 4 bd), bd)

/-- Boundary loop of `perform_replace_all_operation`, update_authority_v1.rs:325-348. -/
def replaceFixGo (acts : Bytes) (newLen roleEnd target new cur : Nat) : Nat → Nat → Bytes → R Bytes
  | 0, c, buf => if c < newLen then .error .outOfFuel else .ok buf
  | fuel + 1, c, buf =>
    if c < newLen then
      if c + 16 > newLen then .ok buf
      else if c + 16 > buf.length then .error .panic
      else do
        let (buf, c') ← replaceFixOne acts roleEnd target new cur c buf
        replaceFixGo acts newLen roleEnd target new cur fuel c' buf
    else .ok buf

/-- Copy loop of `perform_replace_all_operation`, update_authority_v1.rs:365-402, on the remaining bytes `acts` of the new
actions. -/
def copyActionsGo (start : Nat) : Nat → Bytes → Nat → Bytes → R Bytes
  | 0, acts, _, buf => if acts = [] then .ok buf else .error .outOfFuel
  | fuel + 1, acts, cur, buf =>
    if acts = [] then .ok buf
    else if acts.length < 8 then .error .invalidInstructionData
    else
      let len := aLen acts 0
      if 8 + len > acts.length then .error E.st_invalidAuthorityMustHaveAtLeastOneAction
      else do
        let ty ← permission (aType acts 0)
        let ok ← validateLayout ty (sl acts 8 (8 + len))
        if ok = false then .error .invalidInstructionData
        else do
          let buf ← write buf cur (sl acts 0 8)
          let buf ← write buf (cur + 4) (natLE 4 ((cur - start) + (8 + len)))
          let buf ← write buf (cur + 8) (sl acts 8 (8 + len))
          copyActionsGo start fuel (acts.drop (8 + len)) (cur + (8 + len)) buf

/-- Shift of the roles after the target, update_authority_v1.rs:303-322. -/
def replaceShift (buf : Bytes) (rolesLen roleEnd new cur : Nat) : R Bytes :=
  let remaining := rolesLen - roleEnd
  if remaining = 0 then .ok buf
  else if new > cur ∧ roleEnd + (new - cur) + remaining > buf.length then .error E.stateError
  else .ok (put buf (roleEnd + new - cur) (sl buf roleEnd rolesLen))

/-- Shift and position updates of `perform_replace_all_operation`, update_authority_v1.rs:298-358. -/
def replacePrepare (buf : Bytes) (rolesLen authOff actsOff cur : Nat) (acts : Bytes) (target : Nat) : R Bytes :=
  let new := acts.length
  if new ≠ cur then do
    let buf ← replaceShift buf rolesLen (actsOff + cur) new cur
    replaceFixGo acts (rolesLen + new - cur) (actsOff + cur) target new cur (rolesLen + new - cur) 0 buf
  else do
    let n ← calcActions acts
    write buf (authOff + 4) (natLE 2 n)

/-- `perform_replace_all_operation`, update_authority_v1.rs:284-405.  Returns the buffer; the size difference is
`acts.length - cur`. -/
def replaceAll (buf : Bytes) (rolesLen authOff actsOff cur : Nat) (acts : Bytes) (target : Nat) : R Bytes := do
  rejectDupV2 acts
  let buf ← replacePrepare buf rolesLen authOff actsOff cur acts target
  if actsOff + acts.length > rolesLen + acts.length - cur then .error E.stateError
  else copyActionsGo actsOff acts.length acts actsOff buf

/-- The new action bytes of `perform_add_actions_operation`, update_authority_v1.rs:417-426. -/
def addedActions (buf : Bytes) (actsOff cur : Nat) (acts : Bytes) : R Bytes := do
  let existing ← slice buf actsOff (actsOff + cur)
  .ok (existing ++ acts)

/-- Filter loop of `perform_remove_by_type_operation` (update_authority_v1.rs:569-593) and
`perform_remove_by_index_operation` (628-651): keeps the records for which `keep index type` holds.  The index is a `u16`
that wraps in a release build; at most 255 actions are ever stored. The by-index variant does not read the type, so an
unknown type is not an error there (`checkTy = false`). -/
def filterActionsGo (checkTy : Bool) (keep : Nat → Nat → Bool) : Nat → Nat → Bytes → R Bytes
  | 0, _, acts => if acts = [] then .ok [] else .error .outOfFuel
  | fuel + 1, idx, acts =>
    if acts = [] then .ok []
    else if acts.length < 8 then .error .invalidInstructionData
    else
      let len := aLen acts 0
      if 8 + len > acts.length then .error E.st_invalidAuthorityMustHaveAtLeastOneAction
      else if checkTy = true ∧ aType acts 0 > 26 then .error E.st_permissionLoadError
      else do
        let rest ← filterActionsGo checkTy keep fuel ((idx + 1) % 2 ^ 16) (acts.drop (8 + len))
        .ok ((if keep idx (aType acts 0) then sl acts 0 (8 + len) else []) ++ rest)

/-- `!remove_types.contains(&(permission as u8))`, update_authority_v1.rs:585-587. -/
def keepType (types : Bytes) (_ : Nat) (ty : Nat) : Bool := !types.contains (UInt8.ofNat ty)

/-- `!remove_indices.contains(&action_index)`, update_authority_v1.rs:643. -/
def keepIndex (idx : List Nat) (i : Nat) (_ : Nat) : Bool := !idx.contains i

/-- The new action bytes of the two remove operations, update_authority_v1.rs:565-598, 624-656. -/
def filteredActions (buf : Bytes) (actsOff cur : Nat) (checkTy : Bool) (keep : Nat → Nat → Bool) : R Bytes := do
  let existing ← slice buf actsOff (actsOff + cur)
  let out ← filterActionsGo checkTy keep existing.length 0 existing
  if out = [] then .error E.st_invalidAuthorityMustHaveAtLeastOneAction else .ok out

/-- `find_role_action_offsets`, update_authority_v1.rs:441-466; the loop in `update_authority_v1` (758-795) is the same.
Returns (current_actions_size, authority_offset, actions_offset).  `boundary - actions_offset` would wrap on a role whose
boundary lies inside its authority; no stored role has one, and the model stops with `Err.ub`. -/
def findOffsetsGo (b : Bytes) (id : Nat) : Nat → Nat → R (Nat × Nat × Nat)
  | 0, _ => .error E.invalidAuthorityNotFoundByRoleId
  | n + 1, c =>
    if c + 16 > b.length then .error .invalidAccountData
    else if pBoundary b c < c + 16 ∨ pBoundary b c > b.length then .error .invalidAccountData
    else if pId b c = id then
      if pBoundary b c < c + 16 + pAuthLen b c then .error .ub
      else .ok (pBoundary b c - (c + 16 + pAuthLen b c), c, c + 16 + pAuthLen b c)
    else findOffsetsGo b id n (pBoundary b c)

end Verif
