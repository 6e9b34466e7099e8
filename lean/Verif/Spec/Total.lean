import Verif.Spec.Touch

/-!
# Sums of balances

The rule of the runtime that an instruction neither creates nor destroys lamports, stated over a list of accounts without repetitions that
contains all accounts of the instruction.
-/

namespace Verif

/-- The lamports held together by the accounts of the list. -/
def total (ks : List Key) (m : Mem) : Nat := (ks.map fun k => (m k).lamports).sum

/-- The runtime rule for the calls the program makes: a called program leaves the sum of the balances of its accounts alone (and changes
none but its writable accounts, so that any list with these may be taken). -/
def Cpi.Conserves (cpi : Cpi) : Prop :=
  ∀ m ix m' ks, ks.Nodup → (∀ a ∈ ix.accounts, a.writable = true → a.key ∈ ks) → cpi m ix = .ok m' → total ks m' = total ks m

/-- The rent minimum does not shrink when an account grows. -/
def Env.RentMono (env : Env) : Prop := ∀ a b, a ≤ b → env.rent a ≤ env.rent b

/-- The account holds its rent minimum. -/
def Exempt (env : Env) (m : Mem) (k : Key) : Prop := env.rent (m k).data.length ≤ (m k).lamports

end Verif
