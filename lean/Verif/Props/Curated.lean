import Verif.Model.Curated
import Verif.Model.Keys
import Verif.Spec.Base58

/-!
# C61: the curated program list

Full claim: the curated programs are exactly the four named in the documentation of the list.
-/

namespace Verif

/-- The four addresses the comments of the list name. -/
def documentedCurated : List Key :=
  [address "11111111111111111111111111111111", address "TokenkegQfeZyiNwAJbNbGKPFXCWuBvf9Ss623VQ5DA",
   address "TokenzQdBNbLqP5VEhdkAS6EPFLC1PHnBqCXEpPxuEb", address "Stake11111111111111111111111111111111111111"]

set_option maxRecDepth 20000 in
/-- The constants used elsewhere in the model are these addresses. -/
theorem C61_ids : documentedCurated = [systemId, tokenId, token2022Id, stakeId] := by decide

set_option maxRecDepth 20000 in
/-- Part that holds: the system and token programs are curated, and at most two other addresses are. -/
theorem C61_curated_partial (id : Key) (h : isCurated id = true) (h1 : id ≠ address "11111111111111111111111111111111")
    (h2 : id ≠ address "TokenkegQfeZyiNwAJbNbGKPFXCWuBvf9Ss623VQ5DA") :
    id = curatedPrograms.getD 2 [] ∨ id = curatedPrograms.getD 3 [] := by
  have e1 : address "11111111111111111111111111111111" = curatedPrograms.getD 0 [] := by decide
  have e2 : address "TokenkegQfeZyiNwAJbNbGKPFXCWuBvf9Ss623VQ5DA" = curatedPrograms.getD 1 [] := by decide
  rw [e1] at h1
  rw [e2] at h2
  simp only [isCurated, curatedPrograms, List.any_cons, List.any_nil, Bool.or_false, Bool.or_eq_true, decide_eq_true_eq] at h
  rcases h with h | h | h | h
  · exact absurd h.symm h1
  · exact absurd h.symm h2
  · exact .inl h.symm
  · exact .inr h.symm

set_option maxRecDepth 20000 in
theorem C61_system_token : isCurated systemId = true ∧ isCurated tokenId = true := by decide

set_option maxRecDepth 20000 in
/-- Disagreement: the Token-2022 and Stake programs are not curated, and the two remaining entries are none of the documented addresses. -/
theorem C61_wrong_entries :
    isCurated (address "TokenzQdBNbLqP5VEhdkAS6EPFLC1PHnBqCXEpPxuEb") = false ∧
    isCurated (address "Stake11111111111111111111111111111111111111") = false ∧
    ∃ id, isCurated id = true ∧ id ∉ documentedCurated :=
  ⟨by decide, by decide, curatedPrograms.getD 2 [], by decide, by decide⟩

end Verif
