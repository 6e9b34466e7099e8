import Verif.Model.Basic

/-!
# Histories

A history of attempts against a stateful object.  A refused attempt leaves the state as it was: this is
the Solana rule that a failed instruction has no effect.
-/

namespace Verif

/-- Plays a list of attempts.  Returns the final state and the attempts that were approved, in order. -/
def play {σ ι : Type} (run : σ → ι → R σ) : σ → List ι → σ × List ι
  | s, [] => (s, [])
  | s, i :: is =>
    match run s i with
    | .ok s' => let (f, ok) := play run s' is; (f, i :: ok)
    | .error _ => play run s is

/-- A charge attempt against a limit that depends on the clock. -/
structure Charge where
  amount : Nat
  slot : Nat
  deriving DecidableEq, Repr

/-- Sum of the amounts of a list of charges. -/
def Charge.total (cs : List Charge) : Nat := (cs.map (·.amount)).sum

end Verif
