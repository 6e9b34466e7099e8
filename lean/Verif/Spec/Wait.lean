import Verif.Spec.AcceptFull

/-! Does waiting take anything away? (property C122): words used by its theorems. -/

namespace Verif
open Client

/-- A recurring limit in order at the slot: it has a window, what is left is not more than the amount it is refilled to, and a limit for a destination
does not say that it was last refilled in the future. -/
def Client.Action.InTime (slot : Nat) : Action → Prop
  | .solRecurringLimit f w _ c => 0 < w ∧ c ≤ f
  | .stakeRecurringLimit f w _ c => 0 < w ∧ c ≤ f
  | .tokenRecurringLimit _ w f c _ => 0 < w ∧ c ≤ f
  | .solRecurringDestinationLimit _ f _ r c => c ≤ f ∧ r ≤ slot
  | .tokenRecurringDestinationLimit _ _ f _ r c => c ≤ f ∧ r ≤ slot
  | .programScope _ _ w _ _ _ st _ _ _ => st % 256 = 2 → 0 < w
  | _ => True

/-- All recurring limits of the role are in order. -/
def InTime (slot : Nat) (acts : List Act) : Prop := ∀ a : Action, a.InRange → a.toAct ∈ acts → a.InTime slot

/-- The credential of the role does not age: the key of an Ed25519 role, the program of a program-exec role, or a session that lasts until the slot. -/
def Ageless (r : Role) (slot : Nat) : Prop :=
  r.authType = T.ed25519 ∨ r.authType = T.programExec ∨ (sessionBased r.authType = true ∧ slot ≤ sessionExpiry r.authType r.auth)

/-- The second limit is the first after some use: of what it is refilled to, any part is left, and more than its window has passed at the slot since it was
last refilled.  (The window is not 0, see C21.) -/
inductive Spent (slot : Nat) : Action → Action → Prop where
  | sol {f w r c r' c' : Nat} : 0 < w → c ≤ f → c' ≤ f → slot - r' > w → Spent slot (.solRecurringLimit f w r c) (.solRecurringLimit f w r' c')
  | stake {f w r c r' c' : Nat} : 0 < w → c ≤ f → c' ≤ f → slot - r' > w → Spent slot (.stakeRecurringLimit f w r c) (.stakeRecurringLimit f w r' c')
  | token {m : Key} {f w r c r' c' : Nat} : 0 < w → c ≤ f → c' ≤ f → slot - r' > w →
      Spent slot (.tokenRecurringLimit m w f c r) (.tokenRecurringLimit m w f c' r')
  | solDest {d : Key} {f w r c r' c' : Nat} : c ≤ f → c' ≤ f → slot - r' > w →
      Spent slot (.solRecurringDestinationLimit d f w r c) (.solRecurringDestinationLimit d f w r' c')
  | tokenDest {m d : Key} {f w r c r' c' : Nat} : c ≤ f → c' ≤ f → slot - r' > w →
      Spent slot (.tokenRecurringDestinationLimit m d f w r c) (.tokenRecurringDestinationLimit m d f w r' c')

/-- The stored permission is the same, or a recurring limit after some use that is due to be refilled. -/
def Recovered (slot : Nat) (x y : Act) : Prop := y = x ∨ ∃ a b : Action, a.InRange ∧ b.InRange ∧ Spent slot a b ∧ x = a.toAct ∧ y = b.toAct

/-- A recurring limit that was last refilled by slot `s` and whose window, counted from there, is over before slot `t`. -/
def Client.Action.ReadyBy (s t : Nat) : Action → Prop
  | .solRecurringLimit _ w r _ => r ≤ s ∧ s + w < t
  | .stakeRecurringLimit _ w r _ => r ≤ s ∧ s + w < t
  | .tokenRecurringLimit _ w _ _ r => r ≤ s ∧ s + w < t
  | .solRecurringDestinationLimit _ _ w r _ => r ≤ s ∧ s + w < t
  | .tokenRecurringDestinationLimit _ _ _ w r _ => r ≤ s ∧ s + w < t
  | _ => True

/-- This is so of all recurring limits of the role. -/
def ReadyBy (s t : Nat) (acts : List Act) : Prop := ∀ a : Action, a.InRange → a.toAct ∈ acts → a.ReadyBy s t

/-- The same recurring limit, with any part of what it is refilled to left and refilled at any time. -/
inductive OtherLeft : Action → Action → Prop where
  | sol {f w r c r' c' : Nat} : c ≤ f → OtherLeft (.solRecurringLimit f w r c) (.solRecurringLimit f w r' c')
  | stake {f w r c r' c' : Nat} : c ≤ f → OtherLeft (.stakeRecurringLimit f w r c) (.stakeRecurringLimit f w r' c')
  | token {m : Key} {f w r c r' c' : Nat} : c ≤ f → OtherLeft (.tokenRecurringLimit m w f c r) (.tokenRecurringLimit m w f c' r')
  | solDest {d : Key} {f w r c r' c' : Nat} : c ≤ f → OtherLeft (.solRecurringDestinationLimit d f w r c) (.solRecurringDestinationLimit d f w r' c')
  | tokenDest {m d : Key} {f w r c r' c' : Nat} : c ≤ f →
      OtherLeft (.tokenRecurringDestinationLimit m d f w r c) (.tokenRecurringDestinationLimit m d f w r' c')

/-- The first stored permission is the second, or the same recurring limit with another amount left. -/
def Restored (x y : Act) : Prop := y = x ∨ ∃ a b : Action, a.InRange ∧ b.InRange ∧ OtherLeft a b ∧ x = a.toAct ∧ y = b.toAct

end Verif
