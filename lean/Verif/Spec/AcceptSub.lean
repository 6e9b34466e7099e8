import Verif.Spec.Accept
import Verif.Spec.Client

/-! What requests about sub-accounts and new wallets have to meet to be accepted (property C110): words used by its theorems. -/

namespace Verif

/-- The payer, an ordinary account that signed, may pay into `x`. -/
def MayPay (m : Mem) (payer x : Meta) : Prop :=
  payer.signer = true ∧ payer.writable = true ∧ x.writable = true ∧ (m payer.key).owner = systemId ∧ (m payer.key).data = []

/-- Each of the accounts listed with a size holds its rent minimum or can be paid to, and the payer holds all that is missing. -/
def ToppedAll (env : Env) (m : Mem) (payer : Meta) (xs : List (Meta × Nat)) : Prop :=
  (∀ x ∈ xs, env.rent x.2 ≤ (m x.1.key).lamports ∨ MayPay m payer x.1) ∧
    (xs.map fun x => env.rent x.2 - (m x.1.key).lamports).sum ≤ (m payer.key).lamports

/-- Whether role `role` (with record `r`) of the wallet with id `id` may withdraw from the version 1 sub-account `sub`, and the role `i` and
bump `b` whose derivation signs.  If the role has a grant for the address, its first such grant has to be enabled and name the wallet and
the role.  Otherwise the role has to be a manager whose own derivation is the address or, not being a manager, hold `All`; and the address
has to be the derivation of one of the first eleven roles. -/
def MayWithdrawV1 (env : Env) (id : Bytes) (role : Nat) (sub : Key) (r : Role) (i : Nat) (b : UInt8) : Prop :=
  match r.actions.find? (fun a => a.grants P.subAccount sub) with
  | some a => a.data.getD 33 0 = 1 ∧ rd a.data 36 4 = role ∧ sl a.data 40 72 = id ∧ i = role ∧ b = a.data.getD 32 0
  | none =>
    ((r.holds P.manageAuthority ∧ ∃ c, Client.Canonical env (subSeeds id (natLE 4 role)) c sub) ∨
        (¬ r.holds P.manageAuthority ∧ r.holds P.all)) ∧
      i ≤ 10 ∧ Client.Canonical env (subSeeds id (natLE 4 i)) b sub ∧
      ∀ j < i, ∃ k c, Client.Canonical env (subSeeds id (natLE 4 j)) c k ∧ k ≠ sub

/-- The program may make the call `ix` signing for the address derived from `seeds` (who has to sign has signed, or is that address; what is
to be written was passed writable), and the called program turns `m` into `m'`. -/
def Carries (env : Env) (cpi : Cpi) (outer : List Meta) (seeds : List Bytes) (m : Mem) (ix : CpiIx) (m' : Mem) : Prop :=
  (∃ k, env.pda seeds = some k ∧
    ∀ a ∈ ix.accounts, (a.signer = true → a.key = k ∨ ∃ o ∈ outer, o.key = a.key ∧ o.signer = true) ∧
      (a.writable = true → ∃ o ∈ outer, o.key = a.key ∧ o.writable = true)) ∧
    cpi m ix = .ok m'

/-- The token program's `Transfer`: source, destination, authority; 3, then the amount. -/
def moveTokens (program src dst auth : Key) (n : Nat) : CpiIx :=
  ⟨program, [⟨src, false, true⟩, ⟨dst, false, true⟩, ⟨auth, true, false⟩], 3 :: natLE 8 n⟩

/-- The token program's `CloseAccount`: account, receiver of its lamports, authority. -/
def shutTokens (program acct dst auth : Key) : CpiIx :=
  ⟨program, [⟨acct, false, true⟩, ⟨dst, false, true⟩, ⟨auth, true, false⟩], [9]⟩

/-- A token account of `program` under the authority `auth`. -/
def TokenUnder (m : Mem) (program acct auth : Key) : Prop :=
  (m acct).owner = program ∧ 72 ≤ (m acct).data.length ∧ sl (m acct).data 32 64 = auth

/-- The listed token accounts, each under the authority of the wallet address or of the configuration account, are closed one after the
other, leading from the first state to the last. -/
inductive ClosesAll (env : Env) (cpi : Cpi) (outer : List Meta) (program swig wallet dst : Key) (walletSigner swigSigner : List Bytes) :
    Mem → List Meta → Mem → Prop where
  | nil {m : Mem} : ClosesAll env cpi outer program swig wallet dst walletSigner swigSigner m [] m
  | byWallet {m m1 m' : Mem} {t : Meta} {ts : List Meta} : TokenUnder m program t.key wallet →
      Carries env cpi outer walletSigner m (shutTokens program t.key dst wallet) m1 →
      ClosesAll env cpi outer program swig wallet dst walletSigner swigSigner m1 ts m' →
      ClosesAll env cpi outer program swig wallet dst walletSigner swigSigner m (t :: ts) m'
  | bySwig {m m1 m' : Mem} {t : Meta} {ts : List Meta} : TokenUnder m program t.key swig →
      Carries env cpi outer swigSigner m (shutTokens program t.key dst swig) m1 →
      ClosesAll env cpi outer program swig wallet dst walletSigner swigSigner m1 ts m' →
      ClosesAll env cpi outer program swig wallet dst walletSigner swigSigner m (t :: ts) m'

/-- `src` holds `n > 0` tokens under the authority of the configuration account, `dst` is under that of the wallet address, and `program`
is one of the two token programs. -/
def Movable (m : Mem) (swig wallet : Key) (src dst program : Meta) (n : Nat) : Prop :=
  (program.key = tokenId ∨ program.key = token2022Id) ∧
    72 ≤ (m src.key).data.length ∧ sl (m src.key).data 32 64 = swig ∧
    72 ≤ (m dst.key).data.length ∧ sl (m dst.key).data 32 64 = wallet ∧ n = rd (m src.key).data 64 8 ∧ 0 < n

/-- The accounts are taken in threes (source, destination, program); a triple that can be moved is moved in full, any other is skipped,
and one or two accounts left over are ignored. -/
inductive MovesAll (env : Env) (cpi : Cpi) (outer : List Meta) (swig wallet : Key) (signer : List Bytes) : Mem → List Meta → Mem → Prop where
  | done {m : Mem} {l : List Meta} : l.length < 3 → MovesAll env cpi outer swig wallet signer m l m
  | skip {m m' : Mem} {src dst program : Meta} {l : List Meta} : (∀ n, ¬ Movable m swig wallet src dst program n) →
      MovesAll env cpi outer swig wallet signer m l m' →
      MovesAll env cpi outer swig wallet signer m (src :: dst :: program :: l) m'
  | move {m m1 m' : Mem} {src dst program : Meta} {l : List Meta} {n : Nat} : Movable m swig wallet src dst program n →
      Carries env cpi outer signer m (moveTokens program.key src.key dst.key swig n) m1 →
      MovesAll env cpi outer swig wallet signer m1 l m' →
      MovesAll env cpi outer swig wallet signer m (src :: dst :: program :: l) m'

end Verif
