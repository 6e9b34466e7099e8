import Verif.Spec.Charges
import Verif.Spec.Ops
import Verif.Model.Process

/-!
# Vocabulary for the signing properties

A SignV2 request: instruction number 11 (`rd ix 0 2`), length of the inner instructions (`rd ix 2 2`), acting role (`rd ix 4 4`), then
the inner instructions and the credential of the role.  Accounts: configuration account, wallet address, others.
-/

namespace Verif

/-- The inner instructions of a request, compact form. -/
def innerBytes (ix : Bytes) : Bytes := sl ix 8 (8 + rd ix 2 2)

/-- The role is restricted: it holds neither All nor AllButManageAuthority. -/
def Restricted (r : Role) : Prop := ∀ a ∈ r.actions, a.ty ≠ P.all ∧ a.ty ≠ P.allButManageAuthority

instance (r : Role) : Decidable (Restricted r) := inferInstanceAs (Decidable (∀ a ∈ r.actions, _))

/-- Addresses have 32 bytes and balances are `u64`. -/
def Mem.Typed (m : Mem) : Prop := ∀ k, (m k).owner.length = 32 ∧ (m k).lamports < 2 ^ 64

/-- Called programs keep ledgers typed. -/
def Cpi.Typed (cpi : Cpi) : Prop := ∀ m ix m', cpi m ix = .ok m' → m.Typed → m'.Typed

/-- Called programs leave the data and the owner of the account alone. -/
def Cpi.Keeps (cpi : Cpi) (k : Key) : Prop :=
  ∀ m ix m', cpi m ix = .ok m' → (m' k).data = (m k).data ∧ (m' k).owner = (m k).owner

/-- Runtime guarantees used by the signing properties: typed ledgers and addresses, and an account passed read-only is not written by
the called programs. -/
structure Runtime (env : Env) (cpi : Cpi) (m : Mem) (swig : Meta) (metas : List Meta) : Prop where
  mem : m.Typed
  calls : cpi.Typed
  keys : ∀ a ∈ metas, a.key.length = 32
  slot : env.slot < 2 ^ 64
  readonly : swig.writable = false → cpi.Keeps swig.key

/-- `m1` is the ledger after the inner instructions `ixs` have been executed for the wallet `w` (whose acting role has already used its
replay counter), before limits are charged. -/
def AfterCalls (env : Env) (cpi : Cpi) (m : Mem) (metas : List Meta) (swig wallet : Meta) (ix : Bytes) (w : Wallet) (ixs : List Inner)
    (m1 : Mem) : Prop :=
  decodeIxs metas wallet.key [] (innerBytes ix) = .ok ixs ∧
  execAll env cpi metas wallet.key (walletSeeds swig.key ++ [[w.walletBump]]) (m.setData swig.key (w.used (rd ix 4 4)).encode) ixs = .ok m1

/-- What the address `k` loses in each of the instructions `ixs`, executed one after the other. -/
def lostEach (env : Env) (cpi : Cpi) (metas : List Meta) (signer : Key) (seeds : List Bytes) (k : Key) : Mem → List Inner → List Nat
  | _, [] => []
  | m, ix :: rest =>
    match execInner env cpi m metas signer seeds ix with
    | .ok m' => ((m k).lamports - (m' k).lamports) :: lostEach env cpi metas signer seeds k m' rest
    | .error _ => []

/-- What the wallet address loses in each inner instruction of the request. -/
def walletLost (env : Env) (cpi : Cpi) (m : Mem) (metas : List Meta) (swig wallet : Meta) (ix : Bytes) (w : Wallet) (ixs : List Inner) :
    List Nat :=
  lostEach env cpi metas wallet.key (walletSeeds swig.key ++ [[w.walletBump]]) wallet.key
    (m.setData swig.key (w.used (rd ix 4 4)).encode) ixs

/-- The bytes outside the given ranges (which are in order), from `pos` on. -/
def exceptBytes (d : Bytes) : Nat → List (Nat × Nat) → Bytes
  | pos, [] => d.drop pos
  | pos, (s, e) :: rs => sl d pos s ++ exceptBytes d e rs

/-- Two explicitly given accounts that differ in owner or data but have the same SHA-256: a collision exhibited by the run itself. -/
def Clash (env : Env) (a b : Acct) : Prop :=
  a.owner ++ a.data ≠ b.owner ++ b.data ∧ env.sha256 (a.owner ++ a.data) = env.sha256 (b.owner ++ b.data)

/-- The limit of the given kind that counts for the role: the first one. -/
abbrev Role.limit? (r : Role) (ty : Nat) (key : Bytes) : Option Bytes := payload? r.actions ty key

/-- A restricted role `r` of the wallet `w` signs successfully with SignV2. -/
structure RestrictedSign (env : Env) (cpi : Cpi) (m m' : Mem) (swig wallet : Meta) (rest : List Meta) (ix : Bytes) (w : Wallet) (r : Role) :
    Prop where
  wf : w.WF
  stored : (m swig.key).data = w.encode
  number : rd ix 0 2 = 11
  role : w.role? (rd ix 4 4) = some r
  restricted : Restricted r
  runtime : Runtime env cpi m swig (swig :: wallet :: rest)
  runs : process env cpi m (swig :: wallet :: rest) ix = .ok m'

/-- The wallet stored afterwards is `w'`, with the acting role now `r'`. -/
def StoredAs (m' : Mem) (swig : Meta) (ix : Bytes) (w' : Wallet) (r' : Role) : Prop :=
  w'.WF ∧ (m' swig.key).data = w'.encode ∧ w'.role? (rd ix 4 4) = some r'

/-- The configuration account is exactly what it was before the calls, or its two versions are a SHA-256 collision. -/
def ConfigClash (env : Env) (m m1 : Mem) (swig : Meta) (ix : Bytes) (w : Wallet) : Prop :=
  Clash env ⟨(m swig.key).owner, (m swig.key).lamports, (w.used (rd ix 4 4)).encode⟩ (m1 swig.key)

/-- System transfer of an inner instruction out of `src`: destination and amount. -/
def transferFrom (src : Key) (ix : Inner) : Option (Key × Nat) :=
  if ix.program = systemId ∧ 12 ≤ ix.data.length ∧ rd ix.data 0 4 = 2 then
    match ix.accounts with
    | a :: d :: _ => if a.key = src then some (d.key, rd ix.data 4 8) else none
    | _ => none
  else none

/-- System transfers out of `src` to another address take exactly their amount. -/
def Cpi.ExactTransfers (cpi : Cpi) (src : Key) : Prop :=
  ∀ m ix m', cpi m ix = .ok m' → ix.program = systemId → 12 ≤ ix.data.length → rd ix.data 0 4 = 2 →
    ∀ a d more, ix.accounts = a :: d :: more → a.key = src → d.key ≠ src →
    (m' src).lamports + rd ix.data 4 8 = (m src).lamports

/-- A token account of the wallet address, passed writable. -/
def WalletToken (m : Mem) (wallet : Key) (a : Meta) : Prop :=
  a.writable = true ∧ ((m a.key).owner = tokenId ∨ (m a.key).owner = token2022Id) ∧ 165 ≤ (m a.key).data.length ∧
    sl (m a.key).data 32 64 = wallet

instance (m : Mem) (wallet : Key) (a : Meta) : Decidable (WalletToken m wallet a) := inferInstanceAs (Decidable (_ ∧ _))

/-- Mint and amount of a token account. -/
def mintOf (a : Acct) : Bytes := sl a.data 0 32
def tokensOf (a : Acct) : Nat := rd a.data 64 8

/-- The account does not exist any more. -/
def Acct.Closed (a : Acct) : Prop := a.data = [] ∨ a.lamports = 0

instance (a : Acct) : Decidable a.Closed := inferInstanceAs (Decidable (_ ∨ _))

/-- Two versions of an account that differ outside the given ranges of their data (or in their owner), with the same SHA-256: a
collision exhibited by the run itself. -/
def ClashExcept (env : Env) (rs : List (Nat × Nat)) (a b : Acct) : Prop :=
  a.owner ++ exceptBytes a.data 0 rs ≠ b.owner ++ exceptBytes b.data 0 rs ∧
    env.sha256 (a.owner ++ exceptBytes a.data 0 rs) = env.sha256 (b.owner ++ exceptBytes b.data 0 rs)

/-- A token account of the wallet whose two versions collide. -/
def TokenClash (env : Env) (m m1 : Mem) (wallet : Key) (rest : List Meta) : Prop :=
  ∃ a ∈ rest, WalletToken m wallet a ∧ ClashExcept env [(64, 72)] (m a.key) (m1 a.key)

/-- What the wallet's token accounts of one mint (passed writable, not closed afterwards) lost together. -/
def tokensLost (m m' : Mem) (wallet : Key) (mint : Bytes) (rest : List Meta) : Nat :=
  ((rest.filter fun a => decide (WalletToken m wallet a ∧ mintOf (m a.key) = mint ∧ ¬ (m' a.key).Closed)).map fun a =>
    tokensOf (m a.key) - tokensOf (m' a.key)).sum

/-- Token transfer of an inner instruction out of `src` (plain transfer: source, destination; checked: source, mint, destination):
destination and amount. -/
def tokenTransferFrom (src : Key) (ix : Inner) : Option (Key × Nat) :=
  if ix.program = tokenId ∨ ix.program = token2022Id then
    match ix.accounts with
    | a :: b :: more =>
      if a.key ≠ src then none
      else if ix.data.head? = some 3 ∧ 9 ≤ ix.data.length then some (b.key, rd ix.data 1 8)
      else if ix.data.head? = some 12 ∧ 10 ≤ ix.data.length then more.head?.map fun d => (d.key, rd ix.data 1 8)
      else none
    | _ => none
  else none

end Verif
