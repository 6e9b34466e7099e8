import Verif.Spec.Client
import Verif.Model.SdkTypes

/-!
# What the permissions of the Rust SDK say

Read without the SDK's own conversions: when an action stored in a role is the one a permission names.
-/

namespace Verif.Sdk

open Client (Action)

/-- The values fit their Rust types. -/
def Recurring.InRange (c : Recurring) : Prop := c.window < 2 ^ 64 ∧ c.lastReset < 2 ^ 64 ∧ c.current < 2 ^ 64

instance (c : Recurring) : Decidable c.InRange := by unfold Recurring.InRange; infer_instance

/-- An optional `u64`. -/
def OptInRange (o : Option Nat) : Prop := ∀ n ∈ o, n < 2 ^ 64

instance (o : Option Nat) : Decidable (OptInRange o) := by unfold OptInRange; infer_instance

/-- The values fit their Rust types. -/
def Permission.InRange : Permission → Prop
  | .replaceAuthority role => role < 2 ^ 32
  | .token mint amount rec => mint.length = 32 ∧ amount < 2 ^ 64 ∧ ∀ c ∈ rec, c.InRange
  | .tokenDestination mint dest amount rec => mint.length = 32 ∧ dest.length = 32 ∧ amount < 2 ^ 64 ∧ ∀ c ∈ rec, c.InRange
  | .sol amount rec => amount < 2 ^ 64 ∧ ∀ c ∈ rec, c.InRange
  | .solDestination dest amount rec => dest.length = 32 ∧ amount < 2 ^ 64 ∧ ∀ c ∈ rec, c.InRange
  | .program p => p.length = 32
  | .programScope p t numeric limit window s e =>
    p.length = 32 ∧ t.length = 32 ∧ numeric < 2 ^ 64 ∧ OptInRange limit ∧ OptInRange window ∧ OptInRange s ∧ OptInRange e
  | .subAccount a => a.length = 32
  | .stake amount rec => amount < 2 ^ 64 ∧ ∀ c ∈ rec, c.InRange
  | .subAccountV2All i => i < 2 ^ 32
  | .subAccountV2Sign i => i < 2 ^ 32
  | .subAccountV2Withdraw i => i < 2 ^ 32
  | .subAccountV2Toggle i => i < 2 ^ 32
  | _ => True

instance (p : Permission) : Decidable p.InRange := by cases p <;> unfold Permission.InRange <;> infer_instance

/-- The stored action is the one the permission names: same kind, same program, mint, destination, account or id, same amounts.  For a
recurring limit `amount` is the amount per window, `current` what is left of it.  A program scope without limit says nothing about limit
and window, one with a limit that is not recurring nothing about the window. -/
def Permission.Names : Permission → Act → Prop
  | .all, a => a = Action.all.toAct
  | .manageAuthority, a => a = Action.manageAuthority.toAct
  | .replaceAuthority role, a => ∃ pad, pad.length = 4 ∧ a = (Action.replaceAuthority role pad).toAct
  | .token mint amount none, a => a = (Action.tokenLimit mint amount).toAct
  | .token mint amount (some c), a => a = (Action.tokenRecurringLimit mint c.window amount c.current c.lastReset).toAct
  | .tokenDestination mint dest amount none, a => a = (Action.tokenDestinationLimit mint dest amount).toAct
  | .tokenDestination mint dest amount (some c), a =>
    a = (Action.tokenRecurringDestinationLimit mint dest amount c.window c.lastReset c.current).toAct
  | .sol amount none, a => a = (Action.solLimit amount).toAct
  | .sol amount (some c), a => a = (Action.solRecurringLimit amount c.window c.lastReset c.current).toAct
  | .solDestination dest amount none, a => a = (Action.solDestinationLimit dest amount).toAct
  | .solDestination dest amount (some c), a =>
    a = (Action.solRecurringDestinationLimit dest amount c.window c.lastReset c.current).toAct
  | .program p, a => a = (Action.program p).toAct
  | .programAll, a => a = Action.programAll.toAct
  | .programCurated, a => ∃ reserved, reserved.length = 32 ∧ a = (Action.programCurated reserved).toAct
  | .programScope p t numeric limit window s e, a => ∃ used full per last kind start stop,
      (Action.programScope used full per last p t kind numeric start stop).InRange ∧
      a = (Action.programScope used full per last p t kind numeric start stop).toAct ∧
      limit = (if kind = 0 then none else some full) ∧ window = (if kind = 2 then some per else none) ∧
      s = some start ∧ e = some stop
  | .subAccount address, a => a.ty = P.subAccount ∧ a.data.length = 72 ∧ a.data.take 32 = address
  | .stake amount none, a => a = (Action.stakeLimit amount).toAct
  | .stake amount (some c), a => a = (Action.stakeRecurringLimit amount c.window c.lastReset c.current).toAct
  | .stakeAll, a => a = Action.stakeAll.toAct
  | .allButManageAuthority, a => a = Action.allButManageAuthority.toAct
  | .subAccountV2Create, a => a = Action.subAccountV2Create.toAct
  | .subAccountV2All i, a => ∃ pad, pad.length = 4 ∧ a = (Action.subAccountV2All i pad).toAct
  | .subAccountV2Sign i, a => ∃ pad, pad.length = 4 ∧ a = (Action.subAccountV2Sign i pad).toAct
  | .subAccountV2Withdraw i, a => ∃ pad, pad.length = 4 ∧ a = (Action.subAccountV2Withdraw i pad).toAct
  | .subAccountV2Toggle i, a => ∃ pad, pad.length = 4 ∧ a = (Action.subAccountV2Toggle i pad).toAct

/-- The permission as it is after being granted: a recurring limit starts with the full amount and last reset 0, a program scope has
fields, and no window unless it has a limit. -/
def Permission.granted : Permission → Permission
  | .token mint amount rec => .token mint amount (rec.map fun c => ⟨c.window, 0, amount⟩)
  | .tokenDestination mint dest amount rec => .tokenDestination mint dest amount (rec.map fun c => ⟨c.window, 0, amount⟩)
  | .sol amount rec => .sol amount (rec.map fun c => ⟨c.window, 0, amount⟩)
  | .solDestination dest amount rec => .solDestination dest amount (rec.map fun c => ⟨c.window, 0, amount⟩)
  | .stake amount rec => .stake amount (rec.map fun c => ⟨c.window, 0, amount⟩)
  | .programScope p t numeric limit window s e =>
    .programScope p t numeric limit (if limit = none then none else window) (some (s.getD 0)) (some (e.getD 0))
  | p => p

end Verif.Sdk
