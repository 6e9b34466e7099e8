import Verif.Spec.AcceptSign

/-! When a role's permissions are at least as good as before (property C113): words used by its theorems. -/

namespace Verif
open Client

/-- The same limit with a larger amount: what is left and, for recurring limits, the amount per window are not smaller; window, last reset, mint and
destination are the same.  What is left of the smaller one is at most its amount per window. -/
inductive Raises : Action → Action → Prop where
  | sol {a b : Nat} : a ≤ b → Raises (.solLimit a) (.solLimit b)
  | token {m : Key} {a b : Nat} : a ≤ b → Raises (.tokenLimit m a) (.tokenLimit m b)
  | solDest {d : Key} {a b : Nat} : a ≤ b → Raises (.solDestinationLimit d a) (.solDestinationLimit d b)
  | tokenDest {m d : Key} {a b : Nat} : a ≤ b → Raises (.tokenDestinationLimit m d a) (.tokenDestinationLimit m d b)
  | solRecurring {f g w r c e : Nat} : c ≤ f → f ≤ g → c ≤ e → Raises (.solRecurringLimit f w r c) (.solRecurringLimit g w r e)
  | tokenRecurring {m : Key} {f g w r c e : Nat} : c ≤ f → f ≤ g → c ≤ e → Raises (.tokenRecurringLimit m w f c r) (.tokenRecurringLimit m w g e r)
  | solRecurringDest {d : Key} {f g w r c e : Nat} : c ≤ f → f ≤ g → c ≤ e →
      Raises (.solRecurringDestinationLimit d f w r c) (.solRecurringDestinationLimit d g w r e)
  | tokenRecurringDest {m d : Key} {f g w r c e : Nat} : c ≤ f → f ≤ g → c ≤ e →
      Raises (.tokenRecurringDestinationLimit m d f w r c) (.tokenRecurringDestinationLimit m d g w r e)
  | stake {a b : Nat} : a ≤ b → Raises (.stakeLimit a) (.stakeLimit b)
  | stakeRecurring {f g w r c e : Nat} : c ≤ f → f ≤ g → c ≤ e → Raises (.stakeRecurringLimit f w r c) (.stakeRecurringLimit g w r e)

/-- The stored permission is the same, or a limit with a larger amount. -/
def AtLeast (x y : Act) : Prop := y = x ∨ ∃ a b : Action, a.InRange ∧ b.InRange ∧ Raises a b ∧ x = a.toAct ∧ y = b.toAct

/-- The permission does not limit SOL or tokens, is not a one-time limit for stake and not a program scope. -/
def NoLimit (x : Act) : Prop :=
  x.ty ≠ P.solLimit ∧ x.ty ≠ P.solRecurringLimit ∧ x.ty ≠ P.solDestinationLimit ∧ x.ty ≠ P.solRecurringDestinationLimit ∧
  x.ty ≠ P.tokenLimit ∧ x.ty ≠ P.tokenRecurringLimit ∧ x.ty ≠ P.tokenDestinationLimit ∧ x.ty ≠ P.tokenRecurringDestinationLimit ∧
  x.ty ≠ P.programScope ∧ x.ty ≠ P.stakeLimit

/-- The second list has what the first has, with limits at least as large, and then further permissions, none of which is a limit. -/
def Better (acts acts' : List Act) : Prop := ∃ l more, acts' = l ++ more ∧ All2 AtLeast acts l ∧ ∀ x ∈ more, NoLimit x

/-- Called programs do not look at the data of the account. -/
def Cpi.Blind (cpi : Cpi) (k : Key) : Prop :=
  ∀ m d ix, (∀ m', cpi m ix = .ok m' → cpi (m.setData k d) ix = .ok (m'.setData k d)) ∧
    ∀ e, cpi m ix = .error e → ∃ e', cpi (m.setData k d) ix = .error e'

end Verif
