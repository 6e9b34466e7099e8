import Verif.Spec.Ops
import Verif.Model.Manage

/-! # Specification of the action updates -/

namespace Verif

/-- The list without the elements at the given positions. -/
def dropPositions (old : List Act) (is : List Nat) : List Act :=
  (old.zipIdx.filter fun p => p.2 ∉ is).map Prod.fst

/-- What the four update operations are meant to make of the permission list `old`.  Replacement and addition submit
serialised actions; removal by type lists type numbers (one byte each), removal by index lists positions. -/
def UpdateOp.Result (op : UpdateOp) (old new : List Act) : Prop :=
  match op with
  | .replaceAll acts => Submits acts new
  | .add acts => ∃ extra, Submits acts extra ∧ new = old ++ extra
  | .removeTypes types => new = old.filter fun a => UInt8.ofNat a.ty ∉ types
  | .removeIndices is => new = dropPositions old is

end Verif
