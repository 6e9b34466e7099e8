import Verif.Spec.Accept
import Verif.Spec.Allowed

/-! What a signing request of a role has to meet to be accepted (property C111): words used by its theorems. -/

namespace Verif
open Client

/-- Spending the listed amounts, one after the other, each under the limit for its destination: `one d acts acts' n`. -/
inductive TakesEach (one : Key → List Act → List Act → Nat → Prop) : List Act → List (Key × Nat) → List Act → Prop where
  | nil {acts : List Act} : TakesEach one acts [] acts
  | cons {acts mid acts' : List Act} {d : Key} {n : Nat} {l : List (Key × Nat)} : one d acts mid n → TakesEach one mid l acts' →
      TakesEach one acts ((d, n) :: l) acts'

/-- The SOL limits cover a loss of `n`, of which the instructions ask for the payments `paid`.  A general limit, if there is one, covers
all of it.  If the role has limits for destinations, of whatever destination, then the payments add up to the loss, there is one, and each
is covered by a limit for its destination.  One of the two has to be there. -/
def SolSettled (paid : List (Key × Nat)) (acts acts' : List Act) (n slot : Nat) : Prop :=
  ∃ mid, (SolTakes acts mid n slot ∨ (mid = acts ∧ NoneOf P.solLimit P.solRecurringLimit [] acts ∧ ¬ NoSolDest acts)) ∧
    ((NoSolDest acts ∧ acts' = mid) ∨
      (¬ NoSolDest acts ∧ paid ≠ [] ∧ (paid.map Prod.snd).sum = n ∧ TakesEach (fun d a a' n => SolDestTakes d a a' n slot) mid paid acts'))

/-- The same for tokens of a mint. -/
def TokensSettled (mint : Key) (paid : List (Key × Nat)) (acts acts' : List Act) (n slot : Nat) : Prop :=
  ∃ mid, (TokenTakes mint acts mid n slot ∨
      (mid = acts ∧ NoneOf P.tokenLimit P.tokenRecurringLimit mint acts ∧ ¬ NoTokenDest mint acts)) ∧
    ((NoTokenDest mint acts ∧ acts' = mid) ∨
      (¬ NoTokenDest mint acts ∧ paid ≠ [] ∧ (paid.map Prod.snd).sum = n ∧
        TakesEach (fun d a a' n => TokenDestTakes mint d a a' n slot) mid paid acts'))

/-- The states of the account `k` after each of the instructions. -/
def statesEach (env : Env) (cpi : Cpi) (metas : List Meta) (signer : Key) (seeds : List Bytes) (k : Key) : Mem → List Inner → List Acct
  | _, [] => []
  | m, ix :: rest =>
    match execInner env cpi m metas signer seeds ix with
    | .ok m' => m' k :: statesEach env cpi metas signer seeds k m' rest
    | .error _ => []

/-- The tokens that left an account that first held `known` and then went through the given states; while it is too short to be a token
account its balance counts as unchanged. -/
def takenFrom : Nat → List Acct → Nat
  | _, [] => 0
  | known, a :: l => if a.data.length < 72 then takenFrom known l else (known - rd a.data 64 8) + takenFrom (rd a.data 64 8) l

/-- A token account that is watched: under the authority of the wallet address or of the configuration account. -/
def Watched (m : Mem) (swig wallet : Key) (a : Meta) : Prop := TokenOf m swig a.key ∨ TokenOf m wallet a.key

/-- The accounts are settled in order.  `m` and `m1` are the ledgers before and after the calls, `taken a` is what left the token account
`a` and `paid a` are the payments out of it that the instructions ask for.  A watched account that is gone takes the permission to close
and has to be an empty account of the System program; any other has to be what it was except for its balance (its SHA-256 says so, if it
was passed writable), still under the authority of the wallet address and in use, and what left it has to be covered. -/
inductive Settles (env : Env) (m m1 : Mem) (swig wallet : Key) (taken : Meta → Nat) (paid : Meta → List (Key × Nat)) :
    List Act → List Meta → List Act → Prop where
  | nil {acts : List Act} : Settles env m m1 swig wallet taken paid acts [] acts
  | skip {acts acts' : List Act} {a : Meta} {l : List Meta} : ¬ Watched m swig wallet a →
      Settles env m m1 swig wallet taken paid acts l acts' → Settles env m m1 swig wallet taken paid acts (a :: l) acts'
  | closed {acts acts' : List Act} {a : Meta} {l : List Meta} : Watched m swig wallet a →
      (∃ x ∈ acts, x.ty = P.closeSwigAuthority) → (m1 a.key).lamports = 0 → (m1 a.key).owner = systemId →
      Settles env m m1 swig wallet taken paid acts l acts' → Settles env m m1 swig wallet taken paid acts (a :: l) acts'
  | kept {acts mid acts' : List Act} {a : Meta} {l : List Meta} : Watched m swig wallet a →
      (m1 a.key).lamports ≠ 0 → 165 ≤ (m1 a.key).data.length →
      (a.writable = true → env.sha256 ((m1 a.key).owner ++ exceptBytes (m1 a.key).data 0 [(64, 72)]) =
        env.sha256 ((m a.key).owner ++ exceptBytes (m a.key).data 0 [(64, 72)])) →
      sl (m1 a.key).data 32 64 = wallet → (m1 a.key).data.getD 108 0 = 1 →
      ((taken a = 0 ∧ mid = acts) ∨
        (taken a ≠ 0 ∧ TokensSettled (sl (m1 a.key).data 0 32) (paid a) acts mid (taken a) env.slot)) →
      Settles env m m1 swig wallet taken paid mid l acts' → Settles env m m1 swig wallet taken paid acts (a :: l) acts'

/-- A role with limits may have the instructions `ixs` carried out: calls that the wallet address signs are to programs it may call; the
calls succeed and lead to `m1`; the wallet address keeps its rent minimum; what it lost (in each call, added up, cut off at the largest
`u64`) is covered; and so is what left the token accounts.  Token accounts that are watched and writable have to be among the first hundred
accounts. -/
structure LimitsAllow (env : Env) (cpi : Cpi) (m m1 : Mem) (metas : List Meta) (swig wallet : Key) (seeds : List Bytes) (acts : List Act)
    (ixs : List Inner) : Prop where
  calls : ∀ i ∈ ixs, (∃ a ∈ i.accounts, a.key = wallet) → MayInvoke acts i.program
  runs : execAll env cpi metas wallet seeds m ixs = .ok m1
  rent : env.rent (m1 wallet).data.length ≤ (m1 wallet).lamports
  first : ∀ (i : Nat) (a : Meta), metas[i]? = some a → a.writable = true → Watched m swig wallet a → i < 100
  settled : ∃ mid acts', (((lostEach env cpi metas wallet seeds wallet m ixs).sum = 0 ∧ mid = acts) ∨
        ((lostEach env cpi metas wallet seeds wallet m ixs).sum ≠ 0 ∧
          SolSettled (ixs.filterMap (transferFrom wallet)) acts mid
            (min (2 ^ 64 - 1) (lostEach env cpi metas wallet seeds wallet m ixs).sum) env.slot)) ∧
      Settles env m m1 swig wallet
        (fun a => if a.writable = true then
          min (2 ^ 64 - 1) (takenFrom (rd (m a.key).data 64 8) (statesEach env cpi metas wallet seeds a.key m ixs)) else 0)
        (fun a => ixs.filterMap (tokenTransferFrom a.key)) mid metas acts'

end Verif
