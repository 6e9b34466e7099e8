import Verif.Spec.AcceptSign

/-! What a signing request has to meet to be accepted, whatever accounts are passed (property C114): words used by its theorems.  Those for
token accounts are in Verif/Spec/AcceptSign.lean. -/

namespace Verif
open Client

/-- A stake account with the given withdrawal authority. -/
structure StakeOf (m : Mem) (authority k : Key) : Prop where
  program : (m k).owner = stakeId
  long : 200 ≤ (m k).data.length
  withdrawer : sl (m k).data 44 76 = authority

/-- A stake account that is watched: the wallet address or the configuration account may withdraw. -/
def StakeWatched (m : Mem) (swig wallet : Key) (a : Meta) : Prop := StakeOf m swig a.key ∨ StakeOf m wallet a.key

/-- Accounts that no scope applies to: those of the wallet program, of the stake program, and token accounts. -/
def Unscoped (m : Mem) (k : Key) : Prop :=
  (m k).owner = swigId ∨ (m k).owner = stakeId ∨ (((m k).owner = tokenId ∨ (m k).owner = token2022Id) ∧ 165 ≤ (m k).data.length)

/-- The scope on an account that the program finds when it looks at the accounts: the first of the role with the lowest number that has
one, whichever role makes the request. -/
def Wallet.scopeOn (w : Wallet) (k : Key) : Option Bytes :=
  (List.range w.roleCounter).findSome? fun id => (w.role? id).bind fun r => payload? r.actions P.programScope k

/-- The account is watched as the target of the scope `s`. -/
def TargetOf (m : Mem) (w : Wallet) (a : Meta) (s : Bytes) : Prop := ¬ Unscoped m a.key ∧ w.scopeOn a.key = some s

/-- The number in the balance field of a scope: the field has the width of its type and lies within the data (its end is computed with
64 bits). -/
def ProgramScope.field (s : ProgramScope) (d : Bytes) : Option Nat :=
  match numericWidth s.numericType with
  | none => none
  | some n =>
    if s.balanceFieldEnd ≤ d.length ∧ s.balanceFieldStart + n ≤ d.length ∧ (s.balanceFieldStart + n) % 2 ^ 64 = s.balanceFieldEnd then
      some (rd d s.balanceFieldStart n)
    else none

/-- The balance that is noted before the instructions are executed. -/
def ProgramScope.noted (s : ProgramScope) (d : Bytes) : Option Nat := if s.scopeType = 0 then some 0 else s.field d

/-- The accounts after the first two pass the inspection that comes before any request: a watched stake account is in one of the four
known states, and the balance of the target of a scope can be read. -/
def Inspected (m : Mem) (w : Wallet) (swig wallet : Key) (rest : List Meta) : Prop :=
  ∀ a ∈ rest, (StakeWatched m swig wallet a → rd (m a.key).data 0 4 ≤ 3) ∧
    ∀ s, TargetOf m w a s → (ProgramScope.decode s).noted (m a.key).data ≠ none

/-- What is counted for a stake account with the delegated stake `b` and `l` lamports that went through the given states: in each step the
lamports that left or the change of the delegated stake, whichever is more. -/
def stakeMoved : Nat → Nat → List Acct → Nat
  | _, _, [] => 0
  | b, l, a :: rest =>
    if a.data.length < 164 then (l - a.lamports) + stakeMoved b a.lamports rest
    else max (l - a.lamports) ((rd a.data 156 8 - b) + (b - rd a.data 156 8)) + stakeMoved (rd a.data 156 8) a.lamports rest

/-- What the balance of the target of a scope went down by; while it cannot be read it counts as unchanged. -/
def fieldLost (s : ProgramScope) : Nat → List Acct → Nat
  | _, [] => 0
  | b, a :: rest =>
    match s.field a.data with
    | none => fieldLost s b rest
    | some c => (b - c) + fieldLost s c rest

/-- The stake limits of the role cover `n`. -/
def StakeSettled (acts acts' : List Act) (n slot : Nat) : Prop :=
  ((∃ x ∈ acts, x.ty = P.stakeAll) ∧ acts' = acts) ∨
    ((¬ ∃ x ∈ acts, x.ty = P.stakeAll) ∧ TakesOf P.stakeLimit P.stakeRecurringLimit [] acts acts' n slot)

/-- The amounts counted for an account, by kind of account. -/
structure Moved where
  token : Meta → Nat
  stake : Meta → Nat
  scope : Meta → Bytes → Nat

/-- The accounts are settled in order, as in `Settles`.  A watched stake account has to be what it was except for its state and the details
of its delegation.  The target of a scope takes a scope of the acting role for it, with a balance field that lies within the data before
(if the account is writable) and after; outside of the field it has to be what it was. -/
inductive SettlesAll (env : Env) (m m1 : Mem) (w : Wallet) (swig wallet : Key) (moved : Moved) (paid : Meta → List (Key × Nat)) :
    List Act → List Meta → List Act → Prop where
  | nil {acts : List Act} : SettlesAll env m m1 w swig wallet moved paid acts [] acts
  | skip {acts acts' : List Act} {a : Meta} {l : List Meta} : ¬ Watched m swig wallet a → ¬ StakeWatched m swig wallet a →
      (∀ s, ¬ TargetOf m w a s) →
      SettlesAll env m m1 w swig wallet moved paid acts l acts' → SettlesAll env m m1 w swig wallet moved paid acts (a :: l) acts'
  | closed {acts acts' : List Act} {a : Meta} {l : List Meta} : Watched m swig wallet a →
      (∃ x ∈ acts, x.ty = P.closeSwigAuthority) → (m1 a.key).lamports = 0 → (m1 a.key).owner = systemId →
      SettlesAll env m m1 w swig wallet moved paid acts l acts' → SettlesAll env m m1 w swig wallet moved paid acts (a :: l) acts'
  | kept {acts mid acts' : List Act} {a : Meta} {l : List Meta} : Watched m swig wallet a →
      (m1 a.key).lamports ≠ 0 → 165 ≤ (m1 a.key).data.length →
      (a.writable = true → env.sha256 ((m1 a.key).owner ++ exceptBytes (m1 a.key).data 0 [(64, 72)]) =
        env.sha256 ((m a.key).owner ++ exceptBytes (m a.key).data 0 [(64, 72)])) →
      sl (m1 a.key).data 32 64 = wallet → (m1 a.key).data.getD 108 0 = 1 →
      ((moved.token a = 0 ∧ mid = acts) ∨
        (moved.token a ≠ 0 ∧ TokensSettled (sl (m1 a.key).data 0 32) (paid a) acts mid (moved.token a) env.slot)) →
      SettlesAll env m m1 w swig wallet moved paid mid l acts' → SettlesAll env m m1 w swig wallet moved paid acts (a :: l) acts'
  | stake {acts mid acts' : List Act} {a : Meta} {l : List Meta} : StakeWatched m swig wallet a →
      (a.writable = true → 124 ≤ (m1 a.key).data.length ∧
        env.sha256 ((m1 a.key).owner ++ exceptBytes (m1 a.key).data 0 [(0, 4), (124, 200)]) =
          env.sha256 ((m a.key).owner ++ exceptBytes (m a.key).data 0 [(0, 4), (124, 200)])) →
      ((moved.stake a = 0 ∧ mid = acts) ∨ (moved.stake a ≠ 0 ∧ StakeSettled acts mid (moved.stake a) env.slot)) →
      SettlesAll env m m1 w swig wallet moved paid mid l acts' → SettlesAll env m m1 w swig wallet moved paid acts (a :: l) acts'
  | scope {acts mid acts' : List Act} {a : Meta} {l : List Meta} {s0 s : Bytes} {i j : Nat} : TargetOf m w a s0 →
      payload? acts P.programScope a.key = some s → i = (ProgramScope.decode s).balanceFieldStart →
      j = (ProgramScope.decode s).balanceFieldEnd → i < j → j ≤ (m1 a.key).data.length →
      (a.writable = true → j ≤ (m a.key).data.length ∧
        env.sha256 ((m1 a.key).owner ++ exceptBytes (m1 a.key).data 0 [(i, j)]) =
          env.sha256 ((m a.key).owner ++ exceptBytes (m a.key).data 0 [(i, j)])) →
      ((moved.scope a s0 = 0 ∧ mid = acts) ∨
        (moved.scope a s0 ≠ 0 ∧ ∃ lim lim', Takes acts mid lim lim' (moved.scope a s0) env.slot ∧ lim.header.1 = P.programScope ∧
          lim.key = a.key)) →
      SettlesAll env m m1 w swig wallet moved paid mid l acts' → SettlesAll env m m1 w swig wallet moved paid acts (a :: l) acts'

/-- What is counted for the accounts when the instructions are executed: nothing for those that are not writable; in total not more than the
largest `u64`, for scopes the largest `u128`.  For scopes the balance noted first is the one that the scope `s0` found in the inspection
names, those after each instruction the one that the scope of the acting role names. -/
def movedBy (env : Env) (cpi : Cpi) (metas : List Meta) (wallet : Key) (seeds : List Bytes) (m : Mem) (acts : List Act) (ixs : List Inner) :
    Moved where
  token a := if a.writable = true then
    min (2 ^ 64 - 1) (takenFrom (rd (m a.key).data 64 8) (statesEach env cpi metas wallet seeds a.key m ixs)) else 0
  stake a := if a.writable = true then
    min (2 ^ 64 - 1) (stakeMoved (rd (m a.key).data 156 8) (m a.key).lamports (statesEach env cpi metas wallet seeds a.key m ixs)) else 0
  scope a s0 := if a.writable = true then
    min (2 ^ 128 - 1) (fieldLost (ProgramScope.decode ((payload? acts P.programScope a.key).getD []))
      (((ProgramScope.decode s0).noted (m a.key).data).getD 0) (statesEach env cpi metas wallet seeds a.key m ixs)) else 0

/-- A role with limits may have the instructions `ixs` carried out: `LimitsAllow` for any accounts. -/
structure LimitsAllowAll (env : Env) (cpi : Cpi) (m m1 : Mem) (w : Wallet) (swig wallet : Meta) (rest : List Meta) (seeds : List Bytes)
    (acts : List Act) (ixs : List Inner) : Prop where
  calls : ∀ i ∈ ixs, (∃ a ∈ i.accounts, a.key = wallet.key) → MayInvoke acts i.program
  runs : execAll env cpi (swig :: wallet :: rest) wallet.key seeds m ixs = .ok m1
  rent : env.rent (m1 wallet.key).data.length ≤ (m1 wallet.key).lamports
  first : ∀ (i : Nat) (a : Meta), rest[i]? = some a → a.writable = true →
    Watched m swig.key wallet.key a ∨ StakeWatched m swig.key wallet.key a ∨ (∃ s, TargetOf m w a s) → i < 98
  settled : ∃ mid acts', (((lostEach env cpi (swig :: wallet :: rest) wallet.key seeds wallet.key m ixs).sum = 0 ∧ mid = acts) ∨
        ((lostEach env cpi (swig :: wallet :: rest) wallet.key seeds wallet.key m ixs).sum ≠ 0 ∧
          SolSettled (ixs.filterMap (transferFrom wallet.key)) acts mid
            (min (2 ^ 64 - 1) (lostEach env cpi (swig :: wallet :: rest) wallet.key seeds wallet.key m ixs).sum) env.slot)) ∧
      SettlesAll env m m1 w swig.key wallet.key (movedBy env cpi (swig :: wallet :: rest) wallet.key seeds m acts ixs)
        (fun a => ixs.filterMap (tokenTransferFrom a.key)) mid rest acts'

/-- The wallet without the other roles. -/
def Wallet.alone (w : Wallet) (id : Nat) : Wallet := { w with roles := w.roles.filter fun r => r.id = id }

end Verif
