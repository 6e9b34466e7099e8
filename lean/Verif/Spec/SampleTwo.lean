import Verif.Spec.SampleSign

/-!
# A ledger with several wallets

An environment in which addresses depend on all the seeds: the wallet with id `K 70` (configuration account `K 1`, wallet address `K 2`), the
address `K 101` that the same id gives with another bump, and the addresses of another wallet with id `K 71`.
-/

namespace Verif.SampleTwo
open Sample

/-- The addresses. -/
def table : List (List Bytes × Key) :=
  [([ascii "swig", K 70, [255]], K 1), ([ascii "swig", K 70, [250]], K 101), ([ascii "swig", K 71, [255]], K 111),
   ([ascii "swig-wallet-address", K 1, [254]], K 2), ([ascii "swig-wallet-address", K 101, [254]], K 102),
   ([ascii "swig-wallet-address", K 111, [254]], K 112),
   ([ascii "sub-account", K 70, natLE 4 0, [255]], K 3), ([ascii "sub-account-v2-state", K 70, natLE 4 0, [255]], K 4),
   ([ascii "sub-account-v2", K 70, natLE 4 0, [255]], K 5), ([ascii "sub-account", K 71, natLE 4 0, [255]], K 113)]

/-- The environment. -/
def env2 : Env := { env with pda := fun seeds => (table.find? (fun p => p.1 == seeds)).map (·.2) }

/-- What the environment derives is in the table. -/
theorem pda_table {seeds : List Bytes} {k : Key} (h : env2.pda seeds = some k) : (seeds, k) ∈ table := by
  obtain ⟨p, h1, h2⟩ := Option.map_eq_some_iff.mp (show (table.find? (fun p => p.1 == seeds)).map (·.2) = some k from h)
  have e := List.find?_some h1
  have := List.mem_of_find?_eq_some h1
  simp only [beq_iff_eq] at e
  subst e
  subst h2
  exact this

end Verif.SampleTwo
