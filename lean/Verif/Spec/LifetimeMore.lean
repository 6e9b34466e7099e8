import Verif.Spec.Lifetime
import Verif.Spec.Stake
import Verif.Spec.Scope

/-! # Vocabulary for the lifetime of stake limits, destination limits and program scopes -/

namespace Verif

/-- What a signing did to the wallet's stake accounts together. -/
def Signing.stakeMoved (e : Signing) : Nat := stakeMoves e.before e.after e.wallet.key e.rest

/-- The instructions that a signing asks the program to execute. -/
def Signing.asked (e : Signing) : List Inner :=
  match decodeIxs (e.swig :: e.wallet :: e.rest) e.wallet.key [] (innerBytes e.ix) with
  | .ok ixs => ixs
  | .error _ => []

/-- The System transfers out of the wallet address among them: destinations and amounts. -/
def Signing.transfers (e : Signing) : List (Key × Nat) := e.asked.filterMap (transferFrom e.wallet.key)

/-- What a list of transfers pays to one destination. -/
def paidTo (dest : Key) (ts : List (Key × Nat)) : Nat := ((ts.filter fun t => decide (t.1 = dest)).map Prod.snd).sum

/-- What a signing in which the wallet address loses lamports pays from it to one destination. -/
def Signing.solPaid (e : Signing) (dest : Key) : Nat := if e.lamportsLost = 0 then 0 else paidTo dest e.transfers

/-- What a signing pays to one destination out of the wallet's token accounts of a mint (those passed writable that lose tokens and are not
closed by it). -/
def Signing.tokensPaid (e : Signing) (mint : Bytes) (dest : Key) : Nat :=
  ((e.rest.filter fun a => decide (WalletToken e.before e.wallet.key a ∧ mintOf (e.before a.key) = mint ∧ ¬ (e.after a.key).Closed ∧
      tokensOf (e.after a.key) < tokensOf (e.before a.key))).map fun a =>
    paidTo dest (e.asked.filterMap (tokenTransferFrom a.key))).sum

/-- What the balance that the scope `d` names in the account `target` lost in a signing to which the account was passed writable. -/
def Signing.scopeLost (e : Signing) (target : Key) (d : Bytes) : Nat :=
  if ∃ a ∈ e.rest, a.key = target ∧ a.writable = true then fieldOf d (e.before target) - fieldOf d (e.after target) else 0

/-- The signing does not find the target owned by a program that the wallet program treats specially, and no role with a smaller number has
a scope for it (the program uses the first scope it finds, see C66). -/
def Signing.ScopeUsed (e : Signing) (k : Key) (id : Nat) (target : Key) : Prop :=
  Ordinary (e.before target) ∧
  ∀ w, Open e.before k w → ∀ r ∈ w.roles, r.id < id → r.limit? P.programScope target = none

end Verif
