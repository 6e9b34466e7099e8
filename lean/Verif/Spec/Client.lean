import Verif.Model.Client
import Verif.Spec.Wallet

/-!
# Specification of honest clients

What it means that a caller controls a stored credential, and that instructions built by the client library are sent in a
transaction.
-/

namespace Verif.Client

/-- The instruction for the program, with the account flags the program sees. -/
def Built.seen (b : Built) (metas : List Meta) : TxIx := ⟨swigId, metas, b.data⟩

/-- The runtime gives an account of an instruction the flags it has in the whole transaction: keys and order stay, an account
requested as signer is a signer, an account requested as writable is writable (the System program, a reserved address, is never
writable), flags may otherwise only be added. -/
structure Promoted (built seen : List Meta) : Prop where
  keys : seen.map Meta.key = built.map Meta.key
  signers : ∀ (i : Nat) (a : Meta), built[i]? = some a → a.signer = true → ∃ a', seen[i]? = some a' ∧ a'.signer = true
  writables : ∀ (i : Nat) (a : Meta), built[i]? = some a → a.writable = true → a.key ≠ systemId →
    ∃ a', seen[i]? = some a' ∧ a'.writable = true

/-- The instructions of `b` are sent next to each other in a transaction, with other instructions around, and the program sees
the accounts `metas`. -/
structure Sent (m : Mem) (metas : List Meta) (b : Built) (pre post : List TxIx) : Prop where
  accounts : Promoted b.accounts metas
  shown : (m instructionsSysvarId).data =
    sysvarEncode (pre ++ b.before ++ b.seen metas :: post) (pre.length + b.before.length)
  fits : TxOk (pre ++ b.before ++ b.seen metas :: post) (pre.length + b.before.length)

/-- `sign` is the signing function of the secp256k1 key whose compressed form is `pk`: what it returns for a hash is `r`, `s`,
recovery byte, with `s` in the lower half, and recovery gives the key back. -/
def SignsK1 (env : Env) (sign : Bytes → Bytes) (pk : Bytes) : Prop :=
  ∀ msg, ∃ r s v key, sign msg = r ++ s ++ [v] ∧ r.length = 32 ∧ s.length = 32 ∧ beNat r < secpN ∧ beNat s ≤ secpN / 2 ∧
    env.recover msg (if v = 27 then 0 else 1) (r ++ s) = some key ∧ compressKey key = pk

/-- The instruction `p` proves a program-exec credential: it calls the program, its data start with the registered prefix, its first two
accounts are those of the request.  (The first two data bytes must not be a number below 2: property C62.) -/
structure Proves (p : TxIx) (program : Key) (plen : UInt8) (buf : Bytes) (accounts : List Meta) : Prop where
  program : p.program = program
  short : plen.toNat ≤ 40
  long : plen.toNat ≤ p.data.length
  pfx : p.data.take plen.toNat = buf.take plen.toNat
  odd : 2 ≤ p.data.length ∧ 2 ≤ rd p.data 0 2
  accounts : ∃ m0 m1 ms a0 a1 as, p.accounts = m0 :: m1 :: ms ∧ accounts = a0 :: a1 :: as ∧ m0.key = a0.key ∧ m1.key = a1.key

/-- The caller controls the main credential of the stored authority `a` and uses the next counter and a recent slot; the
accounts the program sees are the signed ones where the credential signs them. -/
def Owns (env : Env) (a : Auth) (metas : List Meta) (b : Built) (pre : List TxIx) : Caller → Prop
  | .ed25519 k => a.cred = .ed25519 k
  | .secp256k1 sign slot counter =>
    ∃ pk pad n, a.cred = .secp256k1 pk pad n ∧ counter = (n + 1) % 2 ^ 32 ∧ slot < 2 ^ 64 ∧ slot ≤ env.slot ∧ env.slot ≤ slot + 60 ∧
      SignsK1 env sign pk ∧ metas = b.accounts
  | .secp256r1 sign pk slot counter =>
    ∃ pad n, a.cred = .secp256r1 pk pad n ∧ counter = (n + 1) % 2 ^ 32 ∧ slot < 2 ^ 64 ∧ slot ≤ env.slot ∧ env.slot ≤ slot + 60 ∧
      (∀ msg, (sign msg).length = 64) ∧ metas = b.accounts
  | .exec p target =>
    ∃ program plen pad buf, a.cred = .exec program plen pad buf ∧ Proves p program plen buf b.accounts ∧
      ∀ i, target = some i → i.toNat = pre.length

/-- The caller can act for the stored authority: with its main credential if it has no sessions, with the key of a running session
otherwise. -/
def ActsFor (env : Env) (a : Auth) (metas : List Meta) (b : Built) (pre : List TxIx) (c : Caller) : Prop :=
  (a.session = none ∧ Owns env a metas b pre c) ∨ ∃ s, a.session = some s ∧ env.slot ≤ s.expiry ∧ c = .ed25519 s.key

/-- None of the accounts is a stake account or the target of a program scope of some role of the wallet: the accounts
the program inspects before it looks at the request (property C67). -/
def Plain (m : Mem) (w : Wallet) (metas : List Meta) : Prop :=
  ∀ a ∈ metas, (m a.key).owner ≠ stakeId ∧
    ∀ r ∈ w.roles, ∀ x ∈ r.actions, x.ty = P.programScope → keyOf P.programScope x.data ≠ a.key

/-- A request is ready: the wallet is stored at `swig`, the acting role exists and stores the authority `a`, the caller can act
for it, the instructions `b` are sent. -/
structure Ready (env : Env) (m : Mem) (swig : Key) (w : Wallet) (acting : Nat) (r : Role) (a : Auth) (metas : List Meta) (b : Built)
    (pre post : List TxIx) : Prop where
  stored : (m swig).data = w.encode
  owned : (m swig).owner = swigId
  wf : w.WF
  small : w.encode.length ≤ 10485760
  role : w.role? acting = some r
  cred : a.WF ∧ a.ty = r.authType ∧ a.encode = r.auth
  sent : Sent m metas b pre post
  plain : Plain m w metas

/-- The payer can bring the wallet account to the rent minimum of `n` bytes. -/
structure Pays (env : Env) (m : Mem) (payer swig : Key) (n : Nat) : Prop where
  other : payer ≠ swig
  notSystem : payer ≠ systemId ∧ swig ≠ systemId
  owner : (m payer).owner = systemId
  empty : (m payer).data = []
  funds : env.rent n ≤ (m swig).lamports + (m payer).lamports

/-- The address `find_program_address` finds for the seeds: the one of the highest bump that works. -/
def Canonical (env : Env) (seeds : List Bytes) (bump : UInt8) (k : Key) : Prop :=
  env.pda (seeds ++ [[bump]]) = some k ∧ bump ≠ 0 ∧ ∀ b, bump < b → env.pda (seeds ++ [[b]]) = none

/-- The state account of the V2 sub-account number `id` of the wallet `w`, as its creation writes it (C50), enabled or not. -/
structure SubAt (env : Env) (m : Mem) (w : Wallet) (state sub : Key) (id : Nat) (enabled : Bool) (stateBump assetBump : UInt8) : Prop where
  owner : (m state).owner = swigId
  data : (m state).data = [2, stateBump, assetBump, if enabled then 1 else 0] ++ natLE 4 id ++ w.id ++ sub
  statePda : env.pda (subV2StateSeeds w.id (natLE 4 id) ++ [[stateBump]]) = some state
  subPda : env.pda (subV2Seeds w.id (natLE 4 id) ++ [[assetBump]]) = some sub
  subLen : sub.length = 32
  idLt : id < 2 ^ 32

/-- Keccak-256 gives 32 bytes. -/
def HashLength (env : Env) : Prop := ∀ b, (env.keccak b).length = 32

/-! ## Actions -/

/-- The fields have the widths of the Rust types: 32-byte keys, `u64` amounts, windows and slots, `u128` scope amounts, `u32` ids. -/
def Action.InRange : Action → Prop
  | .tokenLimit m a => m.length = 32 ∧ a < 2 ^ 64
  | .tokenDestinationLimit m d a => m.length = 32 ∧ d.length = 32 ∧ a < 2 ^ 64
  | .tokenRecurringLimit m w l c r => m.length = 32 ∧ w < 2 ^ 64 ∧ l < 2 ^ 64 ∧ c < 2 ^ 64 ∧ r < 2 ^ 64
  | .tokenRecurringDestinationLimit m d a w r c =>
    m.length = 32 ∧ d.length = 32 ∧ a < 2 ^ 64 ∧ w < 2 ^ 64 ∧ r < 2 ^ 64 ∧ c < 2 ^ 64
  | .solLimit a => a < 2 ^ 64
  | .solRecurringLimit a w r c => a < 2 ^ 64 ∧ w < 2 ^ 64 ∧ r < 2 ^ 64 ∧ c < 2 ^ 64
  | .solDestinationLimit d a => d.length = 32 ∧ a < 2 ^ 64
  | .solRecurringDestinationLimit d a w r c => d.length = 32 ∧ a < 2 ^ 64 ∧ w < 2 ^ 64 ∧ r < 2 ^ 64 ∧ c < 2 ^ 64
  | .program p => p.length = 32
  | .programCurated r => r.length = 32
  | .programScope c l w r p t st nt s e =>
    c < 2 ^ 128 ∧ l < 2 ^ 128 ∧ w < 2 ^ 64 ∧ r < 2 ^ 64 ∧ p.length = 32 ∧ t.length = 32 ∧ st < 2 ^ 64 ∧ nt < 2 ^ 64 ∧ s < 2 ^ 64 ∧
      e < 2 ^ 64
  | .replaceAuthority r pad => r < 2 ^ 32 ∧ pad.length = 4
  | .subAccount a _ _ pad r s => a.length = 32 ∧ pad.length = 2 ∧ r < 2 ^ 32 ∧ s.length = 32
  | .subAccountV2All i pad => i < 2 ^ 32 ∧ pad.length = 4
  | .subAccountV2Sign i pad => i < 2 ^ 32 ∧ pad.length = 4
  | .subAccountV2Withdraw i pad => i < 2 ^ 32 ∧ pad.length = 4
  | .subAccountV2Toggle i pad => i < 2 ^ 32 ∧ pad.length = 4
  | .stakeLimit a => a < 2 ^ 64
  | .stakeRecurringLimit a w r c => a < 2 ^ 64 ∧ w < 2 ^ 64 ∧ r < 2 ^ 64 ∧ c < 2 ^ 64
  | _ => True

instance (a : Action) : Decidable a.InRange := by cases a <;> unfold Action.InRange <;> infer_instance

/-- The permission the program stores for an action. -/
def Action.toAct (a : Action) : Act := ⟨a.header.1, a.bytes⟩

/-- What a repeatable action is about: program, mint, destination, mint and destination, target account, sub-account, role or
sub-account id (little endian). -/
def Action.key : Action → Bytes
  | .tokenLimit m _ => m
  | .tokenDestinationLimit m d _ => m ++ d
  | .tokenRecurringLimit m _ _ _ _ => m
  | .tokenRecurringDestinationLimit m d _ _ _ _ => m ++ d
  | .solDestinationLimit d _ => d
  | .solRecurringDestinationLimit d _ _ _ _ => d
  | .program p => p
  | .programScope _ _ _ _ _ t _ _ _ _ => t
  | .replaceAuthority r _ => natLE 4 r
  | .subAccount a _ _ _ _ _ => a
  | .subAccountV2All i _ => natLE 4 i
  | .subAccountV2Sign i _ => natLE 4 i
  | .subAccountV2Withdraw i _ => natLE 4 i
  | .subAccountV2Toggle i _ => natLE 4 i
  | _ => []

/-- Remaining amount and last reset of a recurring limit of `full` per `window` when `n` is to be spent at `slot`: refilled when more than
`window` slots have passed since the last reset and `n` does not exceed the full amount; the last reset is then the
start of the window. -/
def refilled (full window last left n slot : Nat) : Nat × Nat :=
  if slot - last > window ∧ n ≤ full then (full, slot / window * window) else (left, last)

/-- The same for a destination limit: the time since the last reset is taken modulo 2^64, the last reset is then the present slot. -/
def refilledDest (full window last left n slot : Nat) : Nat × Nat :=
  if (slot + 2 ^ 64 - last) % 2 ^ 64 > window ∧ n ≤ full then (full, slot) else (left, last)

/-- Spending `n` at `slot` under an action: what is left of it, `none` if it does not allow it or is not a limit.  Amounts left go
down; program scopes count up to their limit (`scopeType` 0 no limit, 1 limit, 2 recurring limit, modulo 256).  A recurring limit with
window 0 fails when it would be refilled. -/
def Action.spend (n slot : Nat) : Action → Option Action
  | .solLimit a => if n ≤ a then some (.solLimit (a - n)) else none
  | .stakeLimit a => if n ≤ a then some (.stakeLimit (a - n)) else none
  | .tokenLimit m a => if n ≤ a then some (.tokenLimit m (a - n)) else none
  | .solDestinationLimit d a => if n ≤ a then some (.solDestinationLimit d (a - n)) else none
  | .tokenDestinationLimit m d a => if n ≤ a then some (.tokenDestinationLimit m d (a - n)) else none
  | .solRecurringLimit f w r c =>
    let x := refilled f w r c n slot
    if n ≤ x.1 ∧ ¬ (w = 0 ∧ slot - r > 0 ∧ n ≤ f) then some (.solRecurringLimit f w x.2 (x.1 - n)) else none
  | .stakeRecurringLimit f w r c =>
    let x := refilled f w r c n slot
    if n ≤ x.1 ∧ ¬ (w = 0 ∧ slot - r > 0 ∧ n ≤ f) then some (.stakeRecurringLimit f w x.2 (x.1 - n)) else none
  | .tokenRecurringLimit m w f c r =>
    let x := refilled f w r c n slot
    if n ≤ x.1 ∧ ¬ (w = 0 ∧ slot - r > 0 ∧ n ≤ f) then some (.tokenRecurringLimit m w f (x.1 - n) x.2) else none
  | .solRecurringDestinationLimit d f w r c =>
    let x := refilledDest f w r c n slot
    if n ≤ x.1 then some (.solRecurringDestinationLimit d f w x.2 (x.1 - n)) else none
  | .tokenRecurringDestinationLimit m d f w r c =>
    let x := refilledDest f w r c n slot
    if n ≤ x.1 then some (.tokenRecurringDestinationLimit m d f w x.2 (x.1 - n)) else none
  | .programScope c l w r p t st nt s e =>
    let new (c r : Nat) :=
      let u := min (c + n) (2 ^ 128 - 1)
      if u ≤ l then some (Action.programScope u l w r p t st nt s e) else none
    if st % 256 = 0 then some (.programScope c l w r p t st nt s e)
    else if st % 256 = 1 then new c r
    else if st % 256 = 2 then
      if slot - r > w then if w = 0 then none else new 0 (slot / w * w) else new c r
    else none
  | _ => none

end Verif.Client
