import Verif.Spec.Evolve
import Verif.Model.Auth

/-!
# Further accounts in a request (C125)
-/

namespace Verif

/-- The credential of the role is the signature of a key on the transaction, or another instruction of the transaction, and not a signature over the list of
accounts: Ed25519 roles, program-exec roles, and all roles with sessions. -/
def ByTransaction (r : Role) : Prop := r.authType = T.ed25519 ∨ r.authType = T.programExec ∨ sessionBased r.authType = true

/-- Requests other than those in which later accounts have a meaning, withdrawals from sub-accounts (7, 21), moving and closing token accounts (13, 14) and
signings for the wallet (11), and other than starts of sessions (5), which authenticate in their own way. -/
def TakesNoList (n : Nat) : Prop := n ≠ 5 ∧ n ≠ 7 ∧ n ≠ 11 ∧ n ≠ 13 ∧ n ≠ 14 ∧ n ≠ 21

end Verif
