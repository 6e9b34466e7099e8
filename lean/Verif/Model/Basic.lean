/-!
# Bytes, errors, little-endian fields

Shared vocabulary of the byte-level model.  Account data and instruction data are lists of bytes.
-/

namespace Verif

/-- Account or instruction data (`&[u8]`). -/
abbrev Bytes := List UInt8

/-- A 32-byte public key.  The length is not enforced by the type; where the code relies on the
`[u8; 32]` type the model slices exactly 32 bytes. -/
abbrev Key := Bytes

/-- Error values.  `ProgramError` variants used by the code, `SwigError`
(program/src/error.rs:20-167), `SwigStateError` (state/src/lib.rs:104-127) and
`SwigAuthenticateError` (state/src/lib.rs:130-211), by name; `panic` stands for a Rust panic (slice
index out of range, division by zero), `outOfFuel` for a loop that would not end
within the compute budget, `ub` for an unchecked access (`get_unchecked`, raw pointer) outside the slice, whose result is
not defined by the source, `runtime` for an error raised by the Solana runtime
(failed system call or cross-program invocation). -/
inductive Err where
  | panic
  | outOfFuel
  | ub
  | runtime
  -- ProgramError
  | invalidInstructionData
  | invalidAccountData
  | notEnoughAccountKeys
  | insufficientFunds
  | invalidSeeds
  | accountDataTooSmall
  | missingRequiredSignature
  | incorrectProgramId
  | invalidArgument
  -- SwigError, SwigStateError, SwigAuthenticateError: numeric code as in the source
  | custom (code : Nat)
  deriving DecidableEq, Repr, Inhabited

/-- Result of a model function: a value or an error.  A failed instruction has no effect on
the ledger (Solana runtime rule, trusted base). -/
abbrev R := Except Err

/-- `Except` results are compared in the worked examples. -/
instance {α : Type} [DecidableEq α] : DecidableEq (R α) := fun a b =>
  match a, b with
  | .ok x, .ok y => if h : x = y then isTrue (by rw [h]) else isFalse (by intro h'; cases h'; exact h rfl)
  | .error x, .error y =>
    if h : x = y then isTrue (by rw [h]) else isFalse (by intro h'; cases h'; exact h rfl)
  | .ok _, .error _ => isFalse (by intro h; cases h)
  | .error _, .ok _ => isFalse (by intro h; cases h)

/-- `if !cond { return Err(e) }`. -/
def require (c : Prop) [Decidable c] (e : Err) : R Unit := if c then .ok () else .error e

/-! ## Little-endian integers -/

/-- `uN::from_le_bytes`: value of a little-endian byte string. -/
def leNat : Bytes → Nat
  | [] => 0
  | b :: bs => b.toNat + 256 * leNat bs

/-- `uN::to_le_bytes`: the `k` low bytes of `n`, least significant first (an `as uN` cast truncates
in the same way). -/
def natLE : Nat → Nat → Bytes
  | 0, _ => []
  | k + 1, n => UInt8.ofNat n :: natLE k (n / 256)

/-! ## Slices -/

/-- `&b[i..j]` for indices already known to be in range (total; see `slice` for the checked form). -/
def sl (b : Bytes) (i j : Nat) : Bytes := (b.drop i).take (j - i)

/-- `&b[i..j]`: panics when the range is not within the slice. -/
def slice (b : Bytes) (i j : Nat) : R Bytes :=
  if i ≤ j ∧ j ≤ b.length then .ok (sl b i j) else .error .panic

/-- `b[i..i + v.len()].copy_from_slice(v)` for a range already known to fit. -/
def put (b : Bytes) (i : Nat) (v : Bytes) : Bytes := b.take i ++ v ++ b.drop (i + v.length)

/-- `b[i..i + v.len()].copy_from_slice(v)`: panics when the range is not within the slice. -/
def write (b : Bytes) (i : Nat) (v : Bytes) : R Bytes :=
  if i + v.length ≤ b.length then .ok (put b i v) else .error .panic

/-- `[0u8; n]`. -/
def zeros (n : Nat) : Bytes := List.replicate n 0

/-- Little-endian u16/u32/u64/u128 field at byte offset `i` (`transmute` reads of `repr(C)` structs on
a little-endian target). -/
def rd (b : Bytes) (i k : Nat) : Nat := leNat (sl b i (i + k))

def u16max : Nat := 2 ^ 16
def u32max : Nat := 2 ^ 32
def u64max : Nat := 2 ^ 64
def u128max : Nat := 2 ^ 128

end Verif
