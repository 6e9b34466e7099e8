import Verif.Spec.Text
import Verif.Spec.Json

/-!
# Specification of passkey assertions

What a browser signs when it is asked for a passkey signature (WebAuthn level 2, §5.8.1.1 "Serialization"), the prefix codes that compress the origin,
and the two layouts of the passkey part of a request.
-/

namespace Verif

/-! ### Prefix codes -/

/-- A prefix code over bytes as a binary tree: the code of a byte is the way to its leaf. -/
inductive Code where
  | leaf (c : UInt8)
  | node (zero one : Code)
  deriving DecidableEq, Repr

/-- `w` is a way from the root to a leaf for `c`. -/
inductive Code.Way : Code → List Bool → UInt8 → Prop
  | here (c : UInt8) : Way (.leaf c) [] c
  | zero {l r : Code} {w : List Bool} {c : UInt8} : Way l w c → Way (.node l r) (false :: w) c
  | one {l r : Code} {w : List Bool} {c : UInt8} : Way r w c → Way (.node l r) (true :: w) c

/-- `bits` is the coded form of `text`. -/
inductive Code.Codes (t : Code) : Bytes → List Bool → Prop
  | nil : Codes t [] []
  | cons {c : UInt8} {w : List Bool} {text : Bytes} {bits : List Bool} : t.Way w c → Codes t text bits → Codes t (c :: text) (w ++ bits)

/-- The table of three-byte entries holds the code `t` at entry `i`: a leaf is `0, byte, _`; an inner node is `x, zero, one` with `x ≠ 0` and the
positions of its two sides. -/
inductive Code.At (table : Bytes) : Nat → Code → Prop
  | leaf {i : Nat} {c : UInt8} : 3 * i + 3 ≤ table.length → table.getD (3 * i) 0 = 0 → table.getD (3 * i + 1) 0 = c → At table i (.leaf c)
  | node {i : Nat} {l r : Code} : 3 * i + 3 ≤ table.length → table.getD (3 * i) 0 ≠ 0 → At table (table.getD (3 * i + 1) 0).toNat l →
      At table (table.getD (3 * i + 2) 0).toNat r → At table i (.node l r)

/-- A table for a code with at least two sides: whole entries, the last one is the root. -/
def Code.Table (table : Bytes) (l r : Code) : Prop := ∃ n, table.length = 3 * (n + 1) ∧ Code.At table n (.node l r)

/-! ### Layouts of the passkey part -/

/-- Kind 2: authenticator data and the client data as they are. -/
def rawPart (authData json : Bytes) : Bytes := [2, 0] ++ natLE 2 authData.length ++ authData ++ natLE 2 json.length ++ json

/-- Kind 1: authenticator data, the order of the members, and the origin in compressed form. -/
def packedPart (authData order : Bytes) (originLength : Nat) (table coded rest : Bytes) : Bytes :=
  [1, 0] ++ natLE 2 authData.length ++ authData ++ order ++ natLE 2 originLength ++ natLE 2 table.length ++ natLE 2 coded.length ++ table ++ coded ++ rest

end Verif
