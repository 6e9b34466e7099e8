import Verif.Model.Basic

/-!
# Text encodings (RFC 4648)
-/

namespace Verif

/-- The bits of a byte string, most significant bit of each byte first. -/
def bitString (b : Bytes) : List Bool :=
  b.flatMap (fun x => (List.range 8).map (fun i => x.toNat / 2 ^ (7 - i) % 2 == 1))

/-- Value of a bit group padded with zero bits on the right up to `width`. -/
def groupValue (width : Nat) (g : List Bool) : Nat :=
  (g.foldl (fun n bit => 2 * n + (if bit then 1 else 0)) 0) * 2 ^ (width - g.length)

/-- Groups of `w` bits, the last one possibly shorter. -/
def groups (w : Nat) : Nat → List Bool → List (List Bool)
  | 0, _ => []
  | _, [] => []
  | n + 1, b :: bs => (b :: bs).take w :: groups w n ((b :: bs).drop w)

/-- RFC 4648 base encoding over an alphabet of `2 ^ w` characters, without padding characters. -/
def baseEncode (w : Nat) (alphabet : List Char) (b : Bytes) : List Char :=
  (groups w (bitString b).length (bitString b)).map (fun g => alphabet.getD (groupValue w g) '?')

def hexAlphabet : List Char := "0123456789abcdef".toList
def base64urlAlphabet : List Char := "ABCDEFGHIJKLMNOPQRSTUVWXYZabcdefghijklmnopqrstuvwxyz0123456789-_".toList

end Verif
