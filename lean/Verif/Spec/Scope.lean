import Verif.Spec.Sign

/-!
# Vocabulary for program scopes

Payload of a program scope, 144 bytes: used amount 0-16, limit 16-32, window 32-40, last reset 40-48, program 48-80, account 80-112, kind
112-120 (0 basic, 1 limit, 2 recurring limit), width of the balance field 120-128, begin and end of the balance field 128-136 and 136-144.
-/

namespace Verif

/-- The scope names a balance field (the code supports widths 1, 4, 8 and 16). -/
def HasField (d : Bytes) : Prop := rd d 128 8 < rd d 136 8

/-- The value of the balance field named by the scope `d` in an account. -/
def fieldOf (d : Bytes) (a : Acct) : Nat := leNat (sl a.data (rd d 128 8) (rd d 136 8))

/-- An account of some other program than the ones the wallet program treats specially. -/
def Ordinary (a : Acct) : Prop := a.owner ≠ swigId ∧ a.owner ≠ stakeId ∧ a.owner ≠ tokenId ∧ a.owner ≠ token2022Id

instance (a : Acct) : Decidable (Ordinary a) := inferInstanceAs (Decidable (_ ∧ _))

/-- The role has a scope for the account `k`. -/
def Role.HasScope (r : Role) (k : Key) : Prop := ∃ act ∈ r.actions, act.ty = P.programScope ∧ sl act.data 80 112 = k

end Verif
