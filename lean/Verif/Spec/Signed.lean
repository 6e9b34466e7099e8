import Verif.Spec.Lawful
import Verif.Spec.History

/-!
# Whose signatures a request uses

An account may be made to pay, or be presented as a signer, in two ways: it signed the request, or it is an address of the wallet the request
acts for, for which the program signs.
-/

namespace Verif

/-- The account signed the request. -/
def Signed (metas : List Meta) (k : Key) : Prop := ∃ a ∈ metas, a.key = k ∧ a.signer = true

/-- The address is one of those of the wallet with this id and this configuration account. -/
def OwnAddress (env : Env) (id : Bytes) (config k : Key) : Prop := ∃ seeds, OwnSeeds id config seeds ∧ env.pda seeds = some k

/-- The address is derived from these seeds and from no others.  (The runtime hashes the concatenation of the seeds.) -/
def OnlyFrom (env : Env) (seeds : List Bytes) (k : Key) : Prop :=
  env.pda seeds = some k ∧ ∀ t, env.pda t = some k → t.flatten = seeds.flatten

/-- The called programs take nothing from the account unless it is presented to them as a signer. -/
def Cpi.NeedsSignature (cpi : Cpi) (k : Key) : Prop :=
  ∀ m ix m', cpi m ix = .ok m' → Spared m m' k ∨ ∃ a ∈ ix.accounts, a.key = k ∧ a.signer = true

end Verif
