import Verif.Spec.Evolve
import Verif.Model.Process

/-!
# Orders of management requests

Which management requests are independent of each other, and what it is to carry out a list of requests one after the other on one
wallet. The accounts given, the payers, the signatures and everything else on the ledger may differ from one execution to another.
-/

namespace Verif

/-- The requests that manage a wallet: add, remove and update a role, start a session, migrate, replace a signer, register the rent
claimer. -/
def Manages (ix : Bytes) : Prop := rd ix 0 2 ∈ [1, 2, 3, 5, 12, 16, 17]

/-- The existing role a request changes: the one removed or updated, the one whose session starts, the one whose signer is replaced.
The other management requests change no existing role. -/
def changedRole (ix : Bytes) : Option Nat :=
  if rd ix 0 2 = 2 ∨ rd ix 0 2 = 3 then some (rd ix 12 4)
  else if rd ix 0 2 = 16 then some (rd ix 8 4)
  else if rd ix 0 2 = 5 then some (rd ix 4 4)
  else none

/-- Two requests are independent: neither changes the role the other changes or acts as, and they do not both add a role, both
migrate or both register a claimer. The same role may make both. -/
structure Independent (x y : Bytes) : Prop where
  left : ∀ t, changedRole x = some t → changedRole y ≠ some t ∧ actingRole y ≠ t
  right : ∀ t, changedRole y = some t → changedRole x ≠ some t ∧ actingRole x ≠ t
  single : ¬ (rd x 0 2 = rd y 0 2 ∧ rd x 0 2 ∈ [1, 12, 17])

/-- A request: the slot it is carried out in, and its data. -/
abbrev Request := Nat × Bytes

/-- The requests are carried out in this order on the wallet account `k`; anything may happen before, between and after them that
leaves the data of that account alone. -/
inductive Handled (k : Key) : Mem → List Request → Mem → Prop
  | nil {m m' : Mem} : (m' k).data = (m k).data → Handled k m [] m'
  | cons {m m0 m1 m' : Mem} {env : Env} {cpi : Cpi} {swig : Meta} {rest : List Meta} {ix : Bytes} {l : List Request} :
      (m0 k).data = (m k).data → swig.key = k → process env cpi m0 (swig :: rest) ix = .ok m1 → Handled k m1 l m' →
      Handled k m ((env.slot, ix) :: l) m'

/-- The roles a request names were there in a wallet that had issued `n` ids. -/
def Existed (n : Nat) (ix : Bytes) : Prop := actingRole ix < n ∧ ∀ t, changedRole ix = some t → t < n

end Verif
