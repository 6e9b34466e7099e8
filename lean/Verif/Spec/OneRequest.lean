import Verif.Spec.Authn
import Verif.Spec.Sign

/-!
# One signature, one request

Vocabulary of property C119: what of a request its signature does not cover.
-/

namespace Verif

/-- The account is not a program: the runtime refuses to call it.  (Configuration accounts hold data and are not executable.) -/
def NoProgram (cpi : Cpi) (k : Key) : Prop := ∀ m c m', c.program = k → cpi m c ≠ .ok m'

/-- The request is one of the two that sign inner instructions and nothing else: for the wallet address (11) or for a V1 sub-account (9). -/
def SignsCalls (ix : Bytes) : Prop := rd ix 0 2 = 9 ∨ rd ix 0 2 = 11

/-- A number the program knows and that is not the creation of a wallet. -/
def KnownNumber (ix : Bytes) : Prop := 1 ≤ rd ix 0 2 ∧ rd ix 0 2 ≤ 21

/-- Two different derivations give the same address. -/
def AddressCollision (env : Env) : Prop := ∃ s s' k, s ≠ s' ∧ env.pda s = some k ∧ env.pda s' = some k

end Verif
