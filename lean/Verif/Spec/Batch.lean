import Verif.Spec.Sign

/-!
# Signing requests with several instructions

Vocabulary of property C120.
-/

namespace Verif

/-- The signing request of the role `id` for the instructions `cs`, with the credential `cred`. -/
def signReq (id : Nat) (cs : List CompactIx) (cred : Bytes) : Bytes :=
  natLE 2 11 ++ natLE 2 (compactBytes cs).length ++ natLE 4 id ++ compactBytes cs ++ cred

/-- The instructions can be written down, and name accounts of the transaction. -/
structure Sendable (metas : List Meta) (cs : List CompactIx) : Prop where
  count : cs.length ≤ 255
  parts : ∀ c ∈ cs, c.accounts.length ≤ 254 ∧ c.data.length < 2 ^ 16
  accounts : ∀ c ∈ cs, c.program.toNat < metas.length ∧ ∀ x ∈ c.accounts, x.toNat < metas.length
  size : (compactBytes cs).length < 2 ^ 16

/-- The role may do everything, or everything but manage roles. -/
def Free (r : Role) : Prop := r.holds P.all ∨ r.holds P.allButManageAuthority

/-- The credential is a signature of the transaction, by the key of the role or of its session: it is the same for every request. -/
def SignsTransaction (r : Role) : Prop := r.authType = 1 ∨ sessionBased r.authType = true

end Verif
