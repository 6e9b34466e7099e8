import Verif.Model.Errors
import Verif.Model.Keys

/-!
# Ledger, transaction environment

What a handler sees of the Solana runtime: the accounts named by the instruction, the ledger, the clock, rent, address
derivation, hash and signature-recovery system calls.  The runtime itself is not part of the repository; this file fixes
the interface, and DESIGN.md lists it in the trusted base.
-/

namespace Verif

/-- An account of the ledger. -/
structure Acct where
  owner : Key
  lamports : Nat
  data : Bytes
  deriving DecidableEq, Repr

/-- The ledger.  Accounts passed twice are the same account, as in the runtime (aliased `AccountInfo`s share memory). -/
abbrev Mem := Key → Acct

/-- An account reference of an instruction (`AccountInfo`: key and the two privilege flags). -/
structure Meta where
  key : Key
  signer : Bool
  writable : Bool
  deriving DecidableEq, Repr

/-- Clock, rent and system calls.  `pda` is `create_program_address(seeds, swig program id)`; `recover` is
`sol_secp256k1_recover(hash, recovery id, signature)`. -/
structure Env where
  slot : Nat
  rent : Nat → Nat
  pda : List Bytes → Option Key
  sha256 : Bytes → Bytes
  keccak : Bytes → Bytes
  recover : Bytes → Nat → Bytes → Option Bytes
  stackHeight : Nat

def Mem.set (m : Mem) (k : Key) (a : Acct) : Mem := fun k' => if k' = k then a else m k'

/-- Write the data of an account. -/
def Mem.setData (m : Mem) (k : Key) (d : Bytes) : Mem := m.set k { m k with data := d }

/-- Set the balance of an account. -/
def Mem.setLamports (m : Mem) (k : Key) (n : Nat) : Mem := m.set k { m k with lamports := n }

/-- `AccountInfo::realloc` / `resize`: growth is zero filled by the runtime (the 10 KiB per-instruction growth limit is an
additional runtime error that is not modelled: it only makes more executions fail). -/
def resize (d : Bytes) (n : Nat) : Bytes := d.take n ++ zeros (n - d.length)

/-- Unchecked read of a little-endian integer (raw pointer or `get_unchecked`): outside the slice the result is not
defined by the source. -/
def rdU (b : Bytes) (i k : Nat) : R Nat := if i + k ≤ b.length then .ok (rd b i k) else .error .ub

/-- Unchecked slice. -/
def slU (b : Bytes) (i j : Nat) : R Bytes := if i ≤ j ∧ j ≤ b.length then .ok (sl b i j) else .error .ub

/-- `slice.get(i).ok_or(e)`. -/
def getOr {α : Type} (l : List α) (i : Nat) (e : Err) : R α :=
  match l[i]? with
  | some a => .ok a
  | none => .error e

/-- `a.checked_add`/`ok_or` style conversion. -/
def orErr {α : Type} (o : Option α) (e : Err) : R α :=
  match o with
  | some a => .ok a
  | none => .error e

end Verif
