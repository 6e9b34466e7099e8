import Verif.Spec.Total

/-!
# Who may change an account

The rule of the runtime that a program may change only accounts it owns (anybody may give an account lamports), and requests as runs of
steps that each obey it.
-/

namespace Verif

/-- The runtime rule: from `m` to `m'` the program `p` changes only accounts it owns; other accounts may only get lamports. -/
def Lawful (p : Key) (m m' : Mem) : Prop :=
  ∀ k, m' k = m k ∨ (m k).owner = p ∨
    ((m' k).owner = (m k).owner ∧ (m' k).data = (m k).data ∧ (m k).lamports ≤ (m' k).lamports)

/-- A run of changes by the wallet program itself, changes by the System program, and calls of other programs. -/
inductive Runs (cpi : Cpi) : Mem → Mem → Prop
  | start (m : Mem) : Runs cpi m m
  | own {m m1 m2 : Mem} : Runs cpi m m1 → Lawful swigId m1 m2 → Runs cpi m m2
  | system {m m1 m2 : Mem} : Runs cpi m m1 → Lawful systemId m1 m2 → Runs cpi m m2
  | call {m m1 m2 : Mem} (ix : CpiIx) : Runs cpi m m1 → cpi m1 ix = .ok m2 → Runs cpi m m2

/-- From `m` to `m'` the account keeps owner and data and loses no lamports. -/
def Spared (m m' : Mem) (k : Key) : Prop :=
  (m' k).owner = (m k).owner ∧ (m' k).data = (m k).data ∧ (m k).lamports ≤ (m' k).lamports

/-- The same run, with the signatures: what the System program does to an account to its cost is signed for by an account that is `ok`, and
so is every account presented as a signer to a called program. -/
inductive RunsAs (ok : Key → Prop) (cpi : Cpi) : Mem → Mem → Prop
  | start (m : Mem) : RunsAs ok cpi m m
  | own {m m1 m2 : Mem} : RunsAs ok cpi m m1 → Lawful swigId m1 m2 → RunsAs ok cpi m m2
  | system {m m1 m2 : Mem} : RunsAs ok cpi m m1 → Lawful systemId m1 m2 → (∀ k, ok k ∨ Spared m1 m2 k) → RunsAs ok cpi m m2
  | call {m m1 m2 : Mem} (ix : CpiIx) : RunsAs ok cpi m m1 → (∀ a ∈ ix.accounts, a.signer = true → ok a.key) → cpi m1 ix = .ok m2 →
      RunsAs ok cpi m m2

/-- The seeds of the addresses of a wallet with the given id and configuration account: the configuration account, the wallet address, the
sub-accounts of version 1, and the records and the accounts of the sub-accounts of version 2. -/
inductive OwnSeeds (id : Bytes) (config : Key) : List Bytes → Prop
  | config (bump : UInt8) : OwnSeeds id config ([ascii "swig", id, [bump]])
  | wallet (bump : UInt8) : OwnSeeds id config ([ascii "swig-wallet-address", config, [bump]])
  | sub (role : Nat) (bump : UInt8) : OwnSeeds id config ([ascii "sub-account", id, natLE 4 role, [bump]])
  | record (n : Nat) (bump : UInt8) : OwnSeeds id config ([ascii "sub-account-v2-state", id, natLE 4 n, [bump]])
  | sub2 (n : Nat) (bump : UInt8) : OwnSeeds id config ([ascii "sub-account-v2", id, natLE 4 n, [bump]])

/-- The called programs do not take an account away from the wallet program, as only the owner of an account may. -/
def Cpi.Holds (cpi : Cpi) : Prop := ∀ m ix m' k, (m k).owner = swigId → cpi m ix = .ok m' → (m' k).owner = swigId

end Verif
