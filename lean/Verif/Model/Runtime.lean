import Verif.Model.World
import Verif.Model.WebAuthn

/-!
# Calls into the runtime made by the handlers

`u64` arithmetic on balances, account reallocation, the two System-program instructions the handlers invoke, program
address search.  The System program and the runtime checks are not part of the repository: these definitions state what
the model assumes of them (DESIGN.md, trusted base).
-/

namespace Verif

/-- `a + b` on `u64` in a release build (wraps). -/
def add64 (a b : Nat) : Nat := (a + b) % 2 ^ 64

/-- `a - b` on `u64` in a release build (wraps). -/
def sub64 (a b : Nat) : Nat := (a + 2 ^ 64 - b) % 2 ^ 64

/-- `Layout::from_size_align(n, 8)?.pad_to_align().size()`: round up to a multiple of 8. -/
def align8 (n : Nat) : Nat := (n + 7) / 8 * 8

/-- Largest size of an account the runtime allows (`MAX_PERMITTED_DATA_LENGTH`, 10 MiB). -/
def maxAccountLen : Nat := 10485760

/-- How much an account may grow during one instruction (`MAX_PERMITTED_DATA_INCREASE`, 10 KiB). -/
def maxGrowth : Nat := 10240

/-- An account of `old` bytes may grow by `n` bytes. -/
def MayGrow (old n : Nat) : Prop := old + n ≤ 10485760 ∧ n ≤ 10240

instance (old n : Nat) : Decidable (MayGrow old n) := inferInstanceAs (Decidable (_ ∧ _))

/-- `AccountInfo::realloc` / `AccountInfo::resize`.  Each request resizes an account at most once, so that the size at the start of the instruction,
which the growth limit refers to, is the present one. -/
def realloc (m : Mem) (k : Key) (n : Nat) : R Mem :=
  if n > maxAccountLen ∨ n > (m k).data.length + maxGrowth then .error .runtime
  else .ok (m.setData k (resize (m k).data n))

/-- `pinocchio_system::instructions::Transfer { from, to, lamports }.invoke()`: the System program wants a signature of
`from`, which must be a System-owned account without data holding enough. -/
def sysTransfer (m : Mem) (src dst : Meta) (n : Nat) : R Mem :=
  if src.signer = false ∨ src.writable = false ∨ dst.writable = false then .error .runtime
  else if (m src.key).owner ≠ systemId ∨ (m src.key).data ≠ [] then .error .runtime
  else if (m src.key).lamports < n then .error .runtime
  else
    let m := m.setLamports src.key ((m src.key).lamports - n)
    .ok (m.setLamports dst.key ((m dst.key).lamports + n))

/-- Same, with a signature of the program for its own address `src` (`invoke_signed`). -/
def sysTransferSigned (m : Mem) (src dst : Meta) (n : Nat) : R Mem := sysTransfer m { src with signer := true } dst n

/-- `pinocchio_system::instructions::CreateAccount { from, to, lamports, space, owner }.invoke_signed(..)`: the System
program refuses an address that already holds lamports, has data or another owner; the growth limit of one instruction applies. -/
def sysCreate (m : Mem) (src dst : Meta) (lamports space : Nat) (owner : Key) : R Mem :=
  if dst.writable = false then .error .runtime
  else if (m dst.key).lamports > 0 ∨ (m dst.key).data ≠ [] ∨ (m dst.key).owner ≠ systemId then .error .runtime
  else if space > maxGrowth then .error .runtime
  else sysTransfer (m.set dst.key { owner := owner, lamports := (m dst.key).lamports, data := zeros space }) src dst lamports

/-- Search loop of `find_program_address`: bump seeds from `n` down to 1. -/
def findPdaGo (env : Env) (seeds : List Bytes) : Nat → Option (Key × UInt8)
  | 0 => none
  | n + 1 =>
    match env.pda (seeds ++ [[UInt8.ofNat (n + 1)]]) with
    | some k => some (k, UInt8.ofNat (n + 1))
    | none => findPdaGo env seeds n

/-- `find_program_address(seeds, swig program)`; panics when no bump works. -/
def findPda (env : Env) (seeds : List Bytes) : R (Key × UInt8) := orErr (findPdaGo env seeds 255) .panic

/-! ## Seeds, state/src/swig.rs:26-166 -/

/-- `swig_account_seeds`, state/src/swig.rs:28-36. -/
def swigSeeds (id : Bytes) : List Bytes := [ascii "swig", id]

/-- `swig_wallet_address_seeds`, state/src/swig.rs:49-60. -/
def walletSeeds (swig : Key) : List Bytes := [ascii "swig-wallet-address", swig]

/-- `sub_account_seeds`, state/src/swig.rs:73-85. -/
def subSeeds (swigId roleId : Bytes) : List Bytes := [ascii "sub-account", swigId, roleId]

/-- `sub_account_v2_state_seeds`, state/src/swig.rs:107-119. -/
def subV2StateSeeds (swigId subId : Bytes) : List Bytes := [ascii "sub-account-v2-state", swigId, subId]

/-- `sub_account_v2_asset_seeds`, state/src/swig.rs:140-152. -/
def subV2Seeds (swigId subId : Bytes) : List Bytes := [ascii "sub-account-v2", swigId, subId]

/-- `check_self_pda`, assertions/src/lib.rs:97-104: `create_program_address` (errors propagate) compared to the target;
returns the bump. -/
def checkSelfPda (env : Env) (seeds : List Bytes) (bump : UInt8) (target : Key) (e : Err) : R UInt8 :=
  match env.pda (seeds ++ [[bump]]) with
  | none => .error .invalidSeeds
  | some k => if k = target then .ok bump else .error e

end Verif
