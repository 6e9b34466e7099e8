import Verif.Spec.Ops
import Verif.Spec.Sign

/-!
# Histories

How a wallet may evolve, as an abstract state machine (`Change`, `Trace`), which request may cause which change (`Does`), and what a history of the ledger is (`Steps`): requests to
the program, calls made on the way included, and anything else that leaves the account alone.
-/

namespace Verif

/-- The wallet after the migration: address bump stored, the rest of the last eight header bytes cleared. -/
def Wallet.withBump (w : Wallet) (bump : UInt8) : Wallet := { w with walletBump := bump, pad := zeros 3, subCounter := 0 }

/-- The kinds of changes of a wallet, with the id of the role changed; `closed` is the end of the wallet. -/
inductive Kind where
  | used (id : Nat)
  | added
  | removed (id : Nat)
  | updated (id : Nat)
  | charged (id : Nat)
  | v1Sub (id : Nat)
  | granted (id : Nat)
  | session (id : Nat)
  | replaced (id : Nat)
  | claimed
  | migrated
  | issued
  | closed
  deriving DecidableEq

/-- One change of an open wallet. -/
inductive Change (w : Wallet) : Kind → Wallet → Prop
  /-- a role has authenticated -/
  | used (id : Nat) : Change w (.used id) (w.used id)
  /-- a role was added under the next id -/
  | added (ty : Nat) (auth : Bytes) (as : List Act) : Change w .added (w.addRole ty auth as)
  /-- a role other than the root role was removed -/
  | removed (id : Nat) : id ≠ 0 → Change w (.removed id) (w.removeRole id)
  /-- the permissions of a role were replaced -/
  | updated (id : Nat) (as : List Act) : Change w (.updated id) (w.setActions id as)
  /-- limits of a role were charged -/
  | charged (id : Nat) (r : Role) (as : List Act) : w.role? id = some r → as.map Act.ty = r.actions.map Act.ty →
      Change w (.charged id) (w.setActions id as)
  /-- a V1 sub-account of a role was created, enabled or disabled: one sub-account permission changed -/
  | v1Sub (id : Nat) (r : Role) (before : List Act) (a a' : Act) (after : List Act) : w.role? id = some r → r.actions = before ++ a :: after →
      a.ty = P.subAccount → a'.ty = P.subAccount → Change w (.v1Sub id) (w.setActions id (before ++ a' :: after))
  /-- a role was granted all rights for a V2 sub-account it created -/
  | granted (id : Nat) (r : Role) (a : Act) : w.role? id = some r → a.ty = P.subAccountV2All →
      Change w (.granted id) (w.setActions id (r.actions ++ [a]))
  /-- the main credential of a role authenticated and started a session -/
  | session (id : Nat) (r : Role) (a : Auth) (s t : Session) : w.role? id = some r → a.WF → a.encode = r.auth → a.ty = r.authType →
      a.session = some s → t.max = s.max → Change w (.session id) (w.setAuth id (⟨a.cred.used, some t⟩ : Auth).encode)
  /-- the key of a role was replaced by another one -/
  | replaced (id : Nat) (r : Role) (a : Auth) (key : Bytes) : w.role? id = some r → a.WF → a.encode = r.auth → a.ty = r.authType →
      a.cred.key ≠ key → Change w (.replaced id) (w.setAuth id (a.withKey key).encode)
  /-- the rent claimer was registered -/
  | claimed (k : Key) : w.claimer = none → Change w .claimed (w.setClaimer k)
  /-- the wallet was migrated -/
  | migrated (b : UInt8) : Change w .migrated (w.withBump b)
  /-- a V2 sub-account id was issued -/
  | issued : Change w .issued { w with subCounter := w.subCounter + 1 }

/-- Any number of changes, with their kinds. -/
inductive Trace (w : Wallet) : List Kind → Wallet → Prop
  | nil : Trace w [] w
  | snoc {ks : List Kind} {kd : Kind} {a b : Wallet} : Trace w ks a → Change a kd b → Trace w (ks ++ [kd]) b

/-- Any number of changes of the given kinds. -/
def Changes (allow : Kind → Prop) (w w' : Wallet) : Prop := ∃ ks, Trace w ks w' ∧ ∀ kd ∈ ks, allow kd

/-- The role a request acts as. -/
def actingRole (ix : Bytes) : Nat :=
  if rd ix 0 2 = 1 ∨ rd ix 0 2 = 10 then rd ix 12 4
  else if rd ix 0 2 = 2 ∨ rd ix 0 2 = 3 then rd ix 8 4
  else rd ix 4 4

/-- The changes a request may make to the wallet it is for, by its number, its acting role and the role it names. -/
def Does (ix : Bytes) : Kind → Prop
  | .used id => rd ix 0 2 ≠ 5 ∧ id = actingRole ix
  | .added => rd ix 0 2 = 1
  | .removed id => rd ix 0 2 = 2 ∧ id = rd ix 12 4
  | .updated id => rd ix 0 2 = 3 ∧ id = rd ix 12 4
  | .charged id => rd ix 0 2 = 11 ∧ id = actingRole ix
  | .v1Sub id => (rd ix 0 2 = 6 ∧ id = actingRole ix) ∨ (rd ix 0 2 = 10 ∧ id = rd ix 8 4)
  | .granted id => rd ix 0 2 = 18 ∧ id = actingRole ix
  | .session id => rd ix 0 2 = 5 ∧ id = actingRole ix
  | .replaced id => rd ix 0 2 = 16 ∧ id = rd ix 8 4
  | .claimed => rd ix 0 2 = 17
  | .migrated => rd ix 0 2 = 12
  | .issued => rd ix 0 2 = 18
  | .closed => rd ix 0 2 = 15

/-- The account `k` is the configuration account of the open wallet `w`. -/
structure Open (m : Mem) (k : Key) (w : Wallet) : Prop where
  owner : (m k).owner = swigId
  wf : w.WF
  data : (m k).data = w.encode

/-- The account `k` is a closed configuration account. -/
structure IsClosed (m : Mem) (k : Key) : Prop where
  owner : (m k).owner = swigId
  data : (m k).data = [255]

/-- What is assumed of a request and of the runtime executing it. -/
structure Fine (env : Env) (cpi : Cpi) (m : Mem) (metas : List Meta) (ix : Bytes) : Prop where
  /-- typed ledgers, 32-byte addresses, 64-bit slots, read-only accounts are not written by called programs -/
  runtime : ∀ swig rest, metas = swig :: rest → Runtime env cpi m swig metas
  /-- the wallet acted for has neither 65535 roles nor used up its role ids -/
  room : ∀ swig rest w, metas = swig :: rest → Open m swig.key w → w.roles.length + 1 < 2 ^ 16 ∧ w.roleCounter + 1 < 2 ^ 32
  /-- the two versions of the configuration account that a SignV2 compares by their SHA-256 are not a collision -/
  noCollision : ∀ swig wallet rest w ixs m1, metas = swig :: wallet :: rest → rd ix 0 2 = 11 → Open m swig.key w →
    AfterCalls env cpi m metas swig wallet ix w ixs m1 → ¬ ConfigClash env m m1 swig ix w

/-- Histories of the account `k` all of whose requests are `ok`.  `cpi` answers the calls of one execution; each answer is itself a history (as long
as the account belongs to the wallet program): a called program may call the wallet program again.  `outside` stands for everything other programs and the runtime do: they cannot change data
or owner of an account of the wallet program, except that the runtime deletes accounts without lamports, which is left out here (see
`C43_refuted`). -/
inductive Steps (ok : Bytes → Prop) (k : Key) : Mem → Mem → Prop
  | refl (m : Mem) : Steps ok k m m
  | trans {a b c : Mem} : Steps ok k a b → Steps ok k b c → Steps ok k a c
  | outside {a b : Mem} : (b k).data = (a k).data → (b k).owner = (a k).owner → Steps ok k a b
  | request {env : Env} {cpi : Cpi} {m m' : Mem} {metas : List Meta} {ix : Bytes} :
      (∀ a ix b, (a k).owner = swigId → cpi a ix = .ok b → Steps ok k a b) → ok ix → Fine env cpi m metas ix → process env cpi m metas ix = .ok m' → Steps ok k m m'

end Verif
