import Verif.Model.Errors

/-!
# Spending limits

`run` functions of the limit actions in `state/src/action/*_limit.rs` and `program_scope.rs`.
Amounts and slots are `u64` (`u128` in `ProgramScope`), modelled as `Nat`; the only
places where the source arithmetic can leave the integer range are written with an explicit
wrap (`wsub64`) or saturation (`satAdd128`).  `&mut self` becomes the returned value.
-/

namespace Verif

/-- Plain `a - b` on `u64` in a release build (no overflow checks): wraps around. -/
def wsub64 (a b : Nat) : Nat := (a + (2 ^ 64 - b % 2 ^ 64)) % 2 ^ 64

/-- `u128::saturating_add`. -/
def satAdd128 (a b : Nat) : Nat := min (a + b) (2 ^ 128 - 1)

/-- `u64::saturating_add`. -/
def satAdd64 (a b : Nat) : Nat := min (a + b) (2 ^ 64 - 1)

/-- state/src/action/sol_limit.rs:18-21. -/
structure SolLimit where
  amount : Nat
  deriving DecidableEq, Repr

/-- state/src/action/sol_limit.rs:32-38. -/
def SolLimit.run (l : SolLimit) (lamportDiff : Nat) : R SolLimit :=
  if lamportDiff > l.amount then .error E.au_permissionDeniedInsufficientBalance
  else .ok { amount := l.amount - lamportDiff }

/-- state/src/action/stake_limit.rs:20-23. -/
structure StakeLimit where
  amount : Nat
  deriving DecidableEq, Repr

/-- state/src/action/stake_limit.rs:38-44. -/
def StakeLimit.run (l : StakeLimit) (diff : Nat) : R StakeLimit :=
  if diff > l.amount then .error E.au_permissionDeniedInsufficientBalance
  else .ok { amount := l.amount - diff }

/-- state/src/action/token_limit.rs:20-25. -/
structure TokenLimit where
  mint : Key
  current : Nat
  deriving DecidableEq, Repr

/-- state/src/action/token_limit.rs:36-42. -/
def TokenLimit.run (l : TokenLimit) (amount : Nat) : R TokenLimit :=
  if amount > l.current then .error E.au_permissionDeniedInsufficientBalance
  else .ok { l with current := l.current - amount }

/-- state/src/action/sol_destination_limit.rs:20-26. -/
structure SolDestinationLimit where
  destination : Key
  amount : Nat
  deriving DecidableEq, Repr

/-- state/src/action/sol_destination_limit.rs:38-44. -/
def SolDestinationLimit.run (l : SolDestinationLimit) (diff : Nat) : R SolDestinationLimit :=
  if diff > l.amount then .error E.au_permissionDeniedSolDestinationLimitExceeded
  else .ok { l with amount := l.amount - diff }

/-- state/src/action/token_destination_limit.rs:22-29. -/
structure TokenDestinationLimit where
  mint : Key
  destination : Key
  amount : Nat
  deriving DecidableEq, Repr

/-- state/src/action/token_destination_limit.rs:41-49. -/
def TokenDestinationLimit.run (l : TokenDestinationLimit) (diff : Nat) : R TokenDestinationLimit :=
  if diff > l.amount then .error E.au_permissionDeniedTokenDestinationLimitExceeded
  else .ok { l with amount := l.amount - diff }

/-- state/src/action/sol_recurring_limit.rs:20-29. -/
structure SolRecurringLimit where
  recurringAmount : Nat
  window : Nat
  lastReset : Nat
  currentAmount : Nat
  deriving DecidableEq, Repr

/-- The reset branch at the start of `run`, state/src/action/sol_recurring_limit.rs:45-51. -/
def SolRecurringLimit.refill (l : SolRecurringLimit) (diff slot : Nat) : R SolRecurringLimit :=
  if slot - l.lastReset > l.window ∧ diff ≤ l.recurringAmount then
    if l.window = 0 then .error .panic
    else .ok { l with currentAmount := l.recurringAmount, lastReset := (slot / l.window) * l.window }
  else .ok l

/-- state/src/action/sol_recurring_limit.rs:44-57.  `saturating_sub` on `u64` is truncated
subtraction on `Nat`.  `current_slot / self.window` panics when the window is zero. -/
def SolRecurringLimit.run (l : SolRecurringLimit) (diff slot : Nat) : R SolRecurringLimit := do
  let l ← l.refill diff slot
  if diff > l.currentAmount then .error .insufficientFunds
  else .ok { l with currentAmount := l.currentAmount - diff }

/-- state/src/action/stake_recurring_limit.rs:21-30. -/
structure StakeRecurringLimit where
  recurringAmount : Nat
  window : Nat
  lastReset : Nat
  currentAmount : Nat
  deriving DecidableEq, Repr

/-- The reset branch at the start of `run`, state/src/action/stake_recurring_limit.rs:47-53. -/
def StakeRecurringLimit.refill (l : StakeRecurringLimit) (diff slot : Nat) : R StakeRecurringLimit :=
  if slot - l.lastReset > l.window ∧ diff ≤ l.recurringAmount then
    if l.window = 0 then .error .panic
    else .ok { l with currentAmount := l.recurringAmount, lastReset := (slot / l.window) * l.window }
  else .ok l

/-- state/src/action/stake_recurring_limit.rs:46-59. -/
def StakeRecurringLimit.run (l : StakeRecurringLimit) (diff slot : Nat) : R StakeRecurringLimit := do
  let l ← l.refill diff slot
  if diff > l.currentAmount then .error .insufficientFunds
  else .ok { l with currentAmount := l.currentAmount - diff }

/-- state/src/action/token_recurring_limit.rs:22-33. -/
structure TokenRecurringLimit where
  mint : Key
  window : Nat
  limit : Nat
  current : Nat
  lastReset : Nat
  deriving DecidableEq, Repr

/-- The reset branch at the start of `run`, state/src/action/token_recurring_limit.rs:49-53. -/
def TokenRecurringLimit.refill (l : TokenRecurringLimit) (amount slot : Nat) : R TokenRecurringLimit :=
  if slot - l.lastReset > l.window ∧ amount ≤ l.limit then
    if l.window = 0 then .error .panic
    else .ok { l with current := l.limit, lastReset := (slot / l.window) * l.window }
  else .ok l

/-- state/src/action/token_recurring_limit.rs:48-59. -/
def TokenRecurringLimit.run (l : TokenRecurringLimit) (amount slot : Nat) : R TokenRecurringLimit := do
  let l ← l.refill amount slot
  if amount > l.current then .error .insufficientFunds
  else .ok { l with current := l.current - amount }

/-- state/src/action/sol_recurring_destination_limit.rs:22-33. -/
structure SolRecurringDestinationLimit where
  destination : Key
  recurringAmount : Nat
  window : Nat
  lastReset : Nat
  currentAmount : Nat
  deriving DecidableEq, Repr

/-- state/src/action/sol_recurring_destination_limit.rs:49-67.  The elapsed time is a plain `u64`
subtraction. -/
def SolRecurringDestinationLimit.run (l : SolRecurringDestinationLimit) (diff slot : Nat) :
    R SolRecurringDestinationLimit :=
  let l :=
    if wsub64 slot l.lastReset > l.window ∧ diff ≤ l.recurringAmount then
      { l with currentAmount := l.recurringAmount, lastReset := slot }
    else l
  if diff > l.currentAmount then .error E.au_permissionDeniedSolDestinationRecurringLimitExceeded
  else .ok { l with currentAmount := l.currentAmount - diff }

/-- state/src/action/token_recurring_destination_limit.rs:25-38. -/
structure TokenRecurringDestinationLimit where
  mint : Key
  destination : Key
  recurringAmount : Nat
  window : Nat
  lastReset : Nat
  currentAmount : Nat
  deriving DecidableEq, Repr

/-- state/src/action/token_recurring_destination_limit.rs:54-73. -/
def TokenRecurringDestinationLimit.run (l : TokenRecurringDestinationLimit) (diff slot : Nat) :
    R TokenRecurringDestinationLimit :=
  let l :=
    if wsub64 slot l.lastReset > l.window ∧ diff ≤ l.recurringAmount then
      { l with currentAmount := l.recurringAmount, lastReset := slot }
    else l
  if diff > l.currentAmount then .error E.au_permissionDeniedRecurringTokenDestinationLimitExceeded
  else .ok { l with currentAmount := l.currentAmount - diff }

/-- state/src/action/program_scope.rs:88-109. -/
structure ProgramScope where
  currentAmount : Nat
  limit : Nat
  window : Nat
  lastReset : Nat
  programId : Key
  targetAccount : Key
  scopeType : Nat
  numericType : Nat
  balanceFieldStart : Nat
  balanceFieldEnd : Nat
  deriving DecidableEq, Repr

/-- The reset branch of the recurring case, state/src/action/program_scope.rs:311-318. -/
def ProgramScope.refill (s : ProgramScope) (slot : Nat) : R ProgramScope :=
  if slot - s.lastReset > s.window then
    if s.window = 0 then .error .panic
    else .ok { s with currentAmount := 0, lastReset := (slot / s.window) * s.window }
  else .ok s

/-- state/src/action/program_scope.rs:297-332.  `scope_type as u8` truncates.  The slot is always
`Some` at the only call site (program/src/actions/sign_v2.rs). -/
def ProgramScope.run (s : ProgramScope) (amount slot : Nat) : R ProgramScope :=
  let x := s.scopeType % 256
  if x = 0 then .ok s
  else if x = 1 then
    if satAdd128 s.currentAmount amount > s.limit then
      .error E.au_permissionDeniedInsufficientBalance
    else .ok { s with currentAmount := satAdd128 s.currentAmount amount }
  else if x = 2 then do
    let s ← s.refill slot
    if satAdd128 s.currentAmount amount > s.limit then
      .error E.au_permissionDeniedInsufficientBalance
    else .ok { s with currentAmount := satAdd128 s.currentAmount amount }
  else .error E.au_invalidDataPayload

/-- Width in bytes of a `NumericType` (state/src/action/program_scope.rs:34-62); `numeric_type as u8`
truncates (line 243). -/
def numericWidth (numericType : Nat) : Option Nat :=
  let x := numericType % 256
  if x = 0 then some 1 else if x = 1 then some 4 else if x = 2 then some 8
  else if x = 3 then some 16 else none

/-- `read_numeric_field!` (state/src/util.rs:28-105): width check with a wrapping `usize` subtraction, then
unchecked byte reads at `start, start + 1, ...`.  A read outside the data is `Err.ub`. -/
def readNumericField (data : Bytes) (start stop width : Nat) : R Nat :=
  if wsub64 stop start ≠ width then .error .invalidAccountData
  else if start + width ≤ data.length then .ok (rd data start width)
  else .error .ub

/-- state/src/action/program_scope.rs:226-285. -/
def ProgramScope.readAccountBalance (s : ProgramScope) (data : Bytes) : R Nat :=
  if s.balanceFieldStart = 0 ∧ s.balanceFieldEnd = 0 then .ok 0
  else if data.length < s.balanceFieldEnd then .error .invalidAccountData
  else match numericWidth s.numericType with
    | none => .error .invalidArgument
    | some w => readNumericField data s.balanceFieldStart s.balanceFieldEnd w

/-- state/src/action/program_scope.rs:199-206. -/
def ProgramScope.setBalanceFieldIndices (s : ProgramScope) (start stop : Nat) : R ProgramScope :=
  if stop ≤ start ∨ stop > 1024 then .error .invalidArgument
  else .ok { s with balanceFieldStart := start, balanceFieldEnd := stop }

end Verif
