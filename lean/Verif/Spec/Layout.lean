import Verif.Model.Basic

/-!
# C layout

How the compiler lays out a record declared `#[repr(C)]`: fields in order, each moved up to a multiple of its alignment; the size rounded
up to the largest alignment.  And what it means that a byte string is a record: its fields one after the other.
-/

namespace Verif

/-- Size and alignment of a field. -/
structure Field where
  size : Nat
  align : Nat
  deriving DecidableEq, Repr

namespace Field
def u8 : Field := ⟨1, 1⟩
def u16 : Field := ⟨2, 2⟩
def u32 : Field := ⟨4, 4⟩
def u64 : Field := ⟨8, 8⟩
def u128 : Field := ⟨16, 8⟩
def array (f : Field) (n : Nat) : Field := ⟨n * f.size, f.align⟩
def bytes (n : Nat) : Field := array u8 n
end Field

/-- Where a field lies: first byte and length. -/
abbrev Span := Nat × Nat

/-- A record: the alignment asked for, and the fields in order. -/
structure Record where
  align : Nat
  fields : List Field
  deriving DecidableEq, Repr

/-- The next multiple of `a` from `n` on. -/
def roundUp (n a : Nat) : Nat := (n + a - 1) / a * a

/-- Offsets of fields laid out from `n` on. -/
def offsetsFrom (n : Nat) : List Field → List Nat
  | [] => []
  | f :: fs => roundUp n f.align :: offsetsFrom (roundUp n f.align + f.size) fs

/-- Where the last field ends. -/
def endFrom (n : Nat) : List Field → Nat
  | [] => n
  | f :: fs => endFrom (roundUp n f.align + f.size) fs

namespace Record

def offset (r : Record) (i : Nat) : Nat := (offsetsFrom 0 r.fields).getD i 0

def span (r : Record) (i : Nat) : Span := (r.offset i, (r.fields.getD i ⟨0, 1⟩).size)

/-- The alignment of the whole. -/
def alignment (r : Record) : Nat := (r.fields.map Field.align).foldl max r.align

/-- `size_of`. -/
def size (r : Record) : Nat := roundUp (endFrom 0 r.fields) r.alignment

/-- The check of `#[derive(NoPadding)]` (no-padding/src/lib.rs:98-122): the size is the sum of the sizes of the fields. -/
def NoPadding (r : Record) : Prop := r.size = (r.fields.map Field.size).sum

/-- Alignments are at least 1. -/
def Valid (r : Record) : Prop := 1 ≤ r.align ∧ ∀ f ∈ r.fields, 1 ≤ f.align

end Record

/-- The bytes at a span ... -/
def bytesAt (b : Bytes) (s : Span) : Bytes := sl b s.1 (s.1 + s.2)

/-- ... and the number they stand for, least significant byte first. -/
def numAt (b : Bytes) (s : Span) : Nat := leNat (bytesAt b s)

end Verif
