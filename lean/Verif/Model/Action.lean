import Verif.Model.Errors

/-!
# Actions (permissions)

`state/src/action/mod.rs` and the `Actionable` implementations in `state/src/action/*.rs`.  A permission type is its
`u16` number (`Permission`, state/src/action/mod.rs:129-192).
-/

namespace Verif

namespace P
/-! Permission numbers, state/src/action/mod.rs:129-192. -/
abbrev none : Nat := 0
abbrev solLimit : Nat := 1
abbrev solRecurringLimit : Nat := 2
abbrev program : Nat := 3
abbrev programScope : Nat := 4
abbrev tokenLimit : Nat := 5
abbrev tokenRecurringLimit : Nat := 6
abbrev all : Nat := 7
abbrev manageAuthority : Nat := 8
abbrev subAccount : Nat := 9
abbrev stakeLimit : Nat := 10
abbrev stakeRecurringLimit : Nat := 11
abbrev stakeAll : Nat := 12
abbrev programAll : Nat := 13
abbrev programCurated : Nat := 14
abbrev allButManageAuthority : Nat := 15
abbrev solDestinationLimit : Nat := 16
abbrev solRecurringDestinationLimit : Nat := 17
abbrev tokenDestinationLimit : Nat := 18
abbrev tokenRecurringDestinationLimit : Nat := 19
abbrev closeSwigAuthority : Nat := 20
abbrev replaceAuthority : Nat := 21
abbrev subAccountV2Create : Nat := 22
abbrev subAccountV2All : Nat := 23
abbrev subAccountV2Sign : Nat := 24
abbrev subAccountV2Withdraw : Nat := 25
abbrev subAccountV2Toggle : Nat := 26
end P

/-- Payload length (`Transmutable::LEN`) of each permission type; `none` for type 0 and unknown types, which have no
payload struct.  sol_limit.rs, sol_recurring_limit.rs:61, program.rs, program_scope.rs:410 (constants.rs: 144), token_limit.rs,
token_recurring_limit.rs:64, all.rs, manage_authority.rs, sub_account.rs:39, stake_limit.rs, stake_recurring_limit.rs:64,
stake_all.rs, program_all.rs, program_curated.rs:74, all_but_manage_authority.rs, sol_destination_limit.rs:60,
sol_recurring_destination_limit.rs:84, token_destination_limit.rs, token_recurring_destination_limit.rs:95,
close_swig_authority.rs, replace_authority.rs:33, sub_account_v2.rs:26,72. -/
def actionLen : Nat → Option Nat
  | 1 => some 8 | 2 => some 32 | 3 => some 32 | 4 => some 144 | 5 => some 40 | 6 => some 64
  | 7 => some 0 | 8 => some 0 | 9 => some 72 | 10 => some 8 | 11 => some 32 | 12 => some 0
  | 13 => some 0 | 14 => some 32 | 15 => some 0 | 16 => some 40 | 17 => some 64 | 18 => some 72
  | 19 => some 96 | 20 => some 0 | 21 => some 8 | 22 => some 0 | 23 => some 8 | 24 => some 8
  | 25 => some 8 | 26 => some 8
  | _ => none

/-- `Actionable::REPEATABLE` of each type (same files). -/
def repeatable : Nat → Bool
  | 3 | 4 | 5 | 6 | 9 | 16 | 17 | 18 | 19 | 21 | 23 | 24 | 25 | 26 => true
  | _ => false

/-- `Permission::try_from(u16)`, state/src/action/mod.rs:194-205. -/
def permission (ty : Nat) : R Nat :=
  if ty ≤ 26 then .ok ty else .error E.st_permissionLoadError

/-- `sol_recurring_limit.rs:79-90` and `stake_recurring_limit.rs:81-92`: the slices panic on short data. -/
def validRecurring32 (d : Bytes) : R Bool := do
  let cur ← slice d 24 32
  let rec' ← slice d 0 8
  let last ← slice d 16 24
  .ok (cur == rec' && last == zeros 8 && d.length == 32)

/-- `token_recurring_limit.rs:89-96`. -/
def validTokenRecurring (d : Bytes) : R Bool := do
  let cur ← slice d 48 56
  let lim ← slice d 40 48
  let last ← slice d 56 64
  .ok (cur == lim && last == zeros 8 && d.length == 64)

/-- `ActionLoader::validate_layout`, state/src/action/mod.rs:267-301, with `valid_layout` of each type:
the default (mod.rs:234-236) compares the length; sol_recurring_destination_limit.rs:112-157 and
token_recurring_destination_limit.rs:124-175 also require a non-zero window and current <= recurring;
sub_account.rs:122-129 requires a zero sub-account key; token_destination_limit.rs:103-131 is a length check. -/
def validateLayout (ty : Nat) (d : Bytes) : R Bool :=
  if ty = P.solRecurringLimit ∨ ty = P.stakeRecurringLimit then validRecurring32 d
  else if ty = P.tokenRecurringLimit then validTokenRecurring d
  else if ty = P.solRecurringDestinationLimit then
    .ok (d.length == 64 && rd d 40 8 != 0 && decide (rd d 56 8 ≤ rd d 32 8))
  else if ty = P.tokenRecurringDestinationLimit then
    .ok (d.length == 96 && rd d 72 8 != 0 && decide (rd d 88 8 ≤ rd d 64 8))
  else if ty = P.subAccount then .ok (d.length == 72 && sl d 0 32 == zeros 32)
  else match actionLen ty with
    | some n => .ok (d.length == n)
    | none => .ok false

/-! ## Action header: `Action`, state/src/action/mod.rs:65-74 (type `u16` at 0, length `u16` at 2, boundary
`u32` at 4) -/

def aType (b : Bytes) (i : Nat) : Nat := rd b i 2
def aLen (b : Bytes) (i : Nat) : Nat := rd b (i + 2) 2
def aBoundary (b : Bytes) (i : Nat) : Nat := rd b (i + 4) 4

/-- Loop of `SwigBuilder::calculate_num_actions`, state/src/swig.rs:302-336 (the same text is in
program/src/actions/update_authority_v1.rs:42-76).  The cursor only moves forward, so the loop is written on the remaining
bytes; every turn consumes at least 8 bytes, so `fuel = length` suffices. -/
def calcActionsGo : Nat → Bytes → Nat → R Nat
  | 0, b, count => if b = [] then .ok count else .error .outOfFuel
  | fuel + 1, b, count =>
    if b = [] then .ok count
    else if b.length < 8 then .error .invalidInstructionData
    else
      let len := aLen b 0
      if 8 + len > b.length then .error E.st_invalidAuthorityMustHaveAtLeastOneAction
      else do
        let ty ← permission (aType b 0)
        let ok ← validateLayout ty (sl b 8 (8 + len))
        if ok = false then .error .invalidInstructionData
        else if count + 1 > 255 then .error .invalidInstructionData
        else calcActionsGo fuel (b.drop (8 + len)) (count + 1)

/-- `calculate_num_actions`, state/src/swig.rs:302-336. -/
def calcActions (b : Bytes) : R Nat := do
  let n ← calcActionsGo b.length b 0
  if n = 0 then .error E.st_invalidAuthorityMustHaveAtLeastOneAction else .ok n

/-- `v2_dedup_key`, state/src/action/mod.rs:244-260. -/
def v2DedupKey (ty : Nat) (d : Bytes) : Option (Nat × Nat) :=
  if ty = P.subAccountV2Create then some (ty, 0)
  else if ty = P.subAccountV2All ∨ ty = P.subAccountV2Sign ∨ ty = P.subAccountV2Withdraw ∨
      ty = P.subAccountV2Toggle then
    if 4 ≤ d.length then some (ty, rd d 0 4) else none
  else none

/-- Key collection loop of `reject_duplicate_v2_scoped`, state/src/action/mod.rs:319-338. -/
def dedupKeysGo : Nat → Bytes → R (List Nat)
  | 0, b => if 8 ≤ b.length then .error .outOfFuel else .ok []
  | fuel + 1, b =>
    if 8 ≤ b.length then
      let len := aLen b 0
      if 8 + len > b.length then .error .invalidInstructionData
      else do
        let ty ← permission (aType b 0)
        let ks ← dedupKeysGo fuel (b.drop (8 + len))
        match v2DedupKey ty (sl b 8 (8 + len)) with
        | some (t, id) => .ok ((t * 2 ^ 32 + id) :: ks)
        | none => .ok ks
    else .ok []

/-- `reject_duplicate_v2_scoped`, state/src/action/mod.rs:314-347.  Sorting and comparing neighbours decides whether
a key occurs twice; modelled as `Nodup`. -/
def rejectDupV2 (b : Bytes) : R Unit := do
  let ks ← dedupKeysGo b.length b
  if ks.Nodup then .ok () else .error E.st_duplicateV2SubAccountAction

/-- `ActionLoader::find_action::<T>`, state/src/action/mod.rs:350-365, for a type `ty` whose struct has length `len`;
only whether something is found matters to its callers.  It follows the boundaries stored in the given bytes, which at
its call site (program/src/actions/create_v1.rs) are chosen by the client. -/
def findActionGo (ty len : Nat) (b : Bytes) : Nat → Nat → R Bool
  | 0, c => if c < b.length then .error .outOfFuel else .ok false
  | fuel + 1, c =>
    if c < b.length then
      if c + 8 > b.length then .error .panic
      else if aType b c = ty then
        if c + aLen b c > b.length then .error .panic
        else if aLen b c ≠ len then .error .invalidAccountData
        else .ok true
      else findActionGo ty len b fuel (aBoundary b c)
    else .ok false

/-- `match_data` of the repeatable types: program.rs:47-49, program_scope.rs:431-433, token_limit.rs:71-73,
token_recurring_limit.rs:85-87, sub_account.rs:99-110, sol_destination_limit.rs:79-86,
sol_recurring_destination_limit.rs:103-110, token_destination_limit.rs:93-101, token_recurring_destination_limit.rs:115-122,
replace_authority.rs:48-50, sub_account_v2.rs:91-93.  `d` is the stored payload, `key` the lookup data. -/
def matchData (ty : Nat) (d key : Bytes) : R Bool :=
  if ty = P.program ∨ ty = P.tokenLimit ∨ ty = P.tokenRecurringLimit then do
    let k ← slice key 0 32
    .ok (k == sl d 0 32)
  else if ty = P.programScope then
    .ok (decide (32 ≤ key.length) && sl key 0 32 == sl d 80 112)
  else if ty = P.subAccount then
    if key = [] then .ok (sl d 0 32 == zeros 32)
    else if key.length = 32 then .ok (sl d 0 32 == key)
    else .ok false
  else if ty = P.solDestinationLimit ∨ ty = P.solRecurringDestinationLimit then
    .ok (decide (32 ≤ key.length) && sl key 0 32 == sl d 0 32)
  else if ty = P.tokenDestinationLimit ∨ ty = P.tokenRecurringDestinationLimit then
    .ok (decide (64 ≤ key.length) && sl key 0 64 == sl d 0 64)
  else if ty = P.replaceAuthority ∨ ty = P.subAccountV2All ∨ ty = P.subAccountV2Sign ∨
      ty = P.subAccountV2Withdraw ∨ ty = P.subAccountV2Toggle then
    .ok (key.length == 4 && sl d 0 4 == key)
  else .ok false

/-- Loop shared by `Role::get_action` (state/src/role.rs:62-77), `RoleMut::get_action` (155-169) and
`RoleMut::get_action_mut` (184-201): walks the stored headers by their boundaries and returns the payload offset of
the first action of type `ty` (and, for repeatable types, matching `key`).  `get_unchecked` outside the slice is
`Err.ub`. -/
def getActionGo (ty : Nat) (key acts : Bytes) : Nat → Nat → R (Option Nat)
  | 0, c => if c < acts.length then .error .outOfFuel else .ok none
  | fuel + 1, c =>
    if c < acts.length then
      if c + 8 > acts.length then .error .ub
      else do
        let t ← permission (aType acts c)
        if t = ty then
          let len := (actionLen ty).getD 0
          if c + 8 + len > acts.length then .error .ub
          else if repeatable ty = false then .ok (some (c + 8))
          else do
            let m ← matchData ty (sl acts (c + 8) (c + 8 + len)) key
            if m then .ok (some (c + 8))
            else getActionGo ty key acts fuel (aBoundary acts c)
        else getActionGo ty key acts fuel (aBoundary acts c)
    else .ok none

/-- `Role::get_action` / `RoleMut::get_action`, state/src/role.rs:54-79, 147-171: payload of the action found. -/
def getAction (ty : Nat) (key acts : Bytes) : R (Option Bytes) :=
  if acts.length < 8 then .error .invalidAccountData
  else do
    let r ← getActionGo ty key acts acts.length 0
    match r with
    | some o => .ok (some (sl acts o (o + (actionLen ty).getD 0)))
    | none => .ok none

/-- `RoleMut::get_action_mut`, state/src/role.rs:176-210: payload offset, so that the caller can write through it. No
minimum length check. -/
def getActionMut (ty : Nat) (key acts : Bytes) : R (Option Nat) :=
  getActionGo ty key acts acts.length 0

/-- `Role::get_all_actions_of_type`, state/src/role.rs:99-121: payloads of all actions of the type, in order. -/
def getAllOfTypeGo (ty : Nat) (acts : Bytes) : Nat → Nat → R (List Bytes)
  | 0, c => if c < acts.length then .error .outOfFuel else .ok []
  | fuel + 1, c =>
    if c < acts.length then
      if c + 8 > acts.length then .error .ub
      else do
        let t ← permission (aType acts c)
        let len := (actionLen ty).getD 0
        if t = ty ∧ c + 8 + len > acts.length then .error .ub
        else do
          let rest ← getAllOfTypeGo ty acts fuel (aBoundary acts c)
          if t = ty then .ok (sl acts (c + 8) (c + 8 + len) :: rest) else .ok rest
    else .ok []

def getAllOfType (ty : Nat) (acts : Bytes) : R (List Bytes) :=
  if acts.length < 8 then .error .invalidAccountData
  else getAllOfTypeGo ty acts acts.length 0

end Verif
