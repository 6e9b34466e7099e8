import Verif.Spec.Authn

/-! # Vocabulary for properties of one role over whole histories -/

namespace Verif

/-- The request names the role: it acts as it, or removes or updates it, toggles one of its sub-accounts or replaces its key. -/
def Names (ix : Bytes) (id : Nat) : Prop :=
  actingRole ix = id ∨ ((rd ix 0 2 = 2 ∨ rd ix 0 2 = 3) ∧ rd ix 12 4 = id) ∨ ((rd ix 0 2 = 10 ∨ rd ix 0 2 = 16) ∧ rd ix 8 4 = id)

/-- The request replaces the key of the role. -/
def Rekeys (ix : Bytes) (id : Nat) : Prop := rd ix 0 2 = 16 ∧ rd ix 8 4 = id

/-- The request is a signing by the role, or updates or removes it. -/
def Spends (ix : Bytes) (id : Nat) : Prop :=
  (rd ix 0 2 = 11 ∧ rd ix 4 4 = id) ∨ ((rd ix 0 2 = 2 ∨ rd ix 0 2 = 3) ∧ rd ix 12 4 = id)

/-- One execution of SignV2. -/
structure Signing where
  env : Env
  cpi : Cpi
  before : Mem
  after : Mem
  swig : Meta
  wallet : Meta
  rest : List Meta
  ix : Bytes

/-- A successful signing by the role `id` of the wallet with configuration account `k`; the called programs are arbitrary.  (The program
itself checks that the second account is the wallet address derived from `k`.) -/
structure Signing.By (e : Signing) (k : Key) (id : Nat) : Prop where
  config : e.swig.key = k
  number : rd e.ix 0 2 = 11
  role : rd e.ix 4 4 = id
  fine : Fine e.env e.cpi e.before (e.swig :: e.wallet :: e.rest) e.ix
  runs : process e.env e.cpi e.before (e.swig :: e.wallet :: e.rest) e.ix = .ok e.after

/-- What may happen at the stack height `h` (1: a transaction; more: a called program) besides the signings of the role `id` of the wallet in the account
`k` and updates and removals of this role.  Requests for other wallets are arbitrary.  Only the signings that a transaction itself asks for are
excluded: called programs may ask for signings by the role as well (the program refuses them, `C74_called`). -/
inductive Between (k : Key) (id : Nat) : Nat → Mem → Mem → Prop
  | refl {h : Nat} (m : Mem) : Between k id h m m
  | trans {h : Nat} {a b c : Mem} : Between k id h a b → Between k id h b c → Between k id h a c
  | outside {h : Nat} {a b : Mem} : (b k).data = (a k).data → (b k).owner = (a k).owner → Between k id h a b
  | request {env : Env} {cpi : Cpi} {m m' : Mem} {metas : List Meta} {ix : Bytes} :
      (∀ a ix b, (a k).owner = swigId → cpi a ix = .ok b → Between k id (env.stackHeight + 1) a b) →
      (metas.head?.map Meta.key = some k → ¬ ((rd ix 0 2 = 2 ∨ rd ix 0 2 = 3) ∧ rd ix 12 4 = id) ∧
        (env.stackHeight = 1 → ¬ (rd ix 0 2 = 11 ∧ rd ix 4 4 = id))) →
      Fine env cpi m metas ix → process env cpi m metas ix = .ok m' → Between k id env.stackHeight m m'

/-- A history in which the signings of the role `id` are listed; in between, anything may happen except that the role is updated or
removed.  (One made by a program that a listed signing calls would count for the listed signing.) -/
inductive Spending (k : Key) (id : Nat) : Mem → List Signing → Mem → Prop
  | nil (m : Mem) : Spending k id m [] m
  | other {a b c : Mem} {es : List Signing} : Between k id 1 a b → Spending k id b es c → Spending k id a es c
  | sign {e : Signing} {es : List Signing} {c : Mem} : e.By k id → Spending k id e.after es c → Spending k id e.before (e :: es) c

/-- Lamports the wallet address lost in a signing. -/
def Signing.lamportsLost (e : Signing) : Nat := (e.before e.wallet.key).lamports - (e.after e.wallet.key).lamports

/-- Tokens of a mint the wallet lost in a signing (accounts passed writable and not closed by it). -/
def Signing.tokensLost (e : Signing) (mint : Bytes) : Nat := Verif.tokensLost e.before e.after e.wallet.key mint e.rest

/-- The two versions of one of the wallet's token accounts that a signing compares by their SHA-256 are a collision. -/
def Signing.TokenCollision (e : Signing) : Prop := ∃ w ixs m1, Open e.before e.swig.key w ∧
  AfterCalls e.env e.cpi e.before (e.swig :: e.wallet :: e.rest) e.swig e.wallet e.ix w ixs m1 ∧ TokenClash e.env e.before m1 e.wallet.key e.rest

end Verif
