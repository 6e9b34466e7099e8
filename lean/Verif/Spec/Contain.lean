import Verif.Spec.Evolve

/-!
# Stolen credentials

What it means that only some of the roles of a wallet are used, and what a role must lack for the theft of its credential to stay contained.
-/

namespace Verif

/-- Histories in which every request for the wallet in the account `k` acts as a role with an id in `S`.  Requests for other wallets, and everything other programs do, are
arbitrary; requests made on the way by called programs are included. -/
inductive StepsBy (S : Nat → Prop) (k : Key) : Mem → Mem → Prop
  | refl (m : Mem) : StepsBy S k m m
  | trans {a b c : Mem} : StepsBy S k a b → StepsBy S k b c → StepsBy S k a c
  | outside {a b : Mem} : (b k).data = (a k).data → (b k).owner = (a k).owner → StepsBy S k a b
  | request {env : Env} {cpi : Cpi} {m m' : Mem} {metas : List Meta} {ix : Bytes} :
      (∀ a ix b, (a k).owner = swigId → cpi a ix = .ok b → StepsBy S k a b) → (metas.head?.map Meta.key = some k → S (actingRole ix)) →
      Fine env cpi m metas ix → process env cpi m metas ix = .ok m' → StepsBy S k m m'

/-- The permissions to administer a wallet: everything, manage roles, close the wallet, replace the key of a role. -/
def administrative : List Nat := [P.all, P.manageAuthority, P.closeSwigAuthority, P.replaceAuthority]

/-- No role with an id in `S` holds an administrative permission. -/
def Powerless (w : Wallet) (S : Nat → Prop) : Prop :=
  ∀ id, S id → ∀ r, w.role? id = some r → ∀ a ∈ r.actions, a.ty ∉ administrative

/-- The key, or the program, that the credential of a role belongs to: 33 bytes for secp roles, 32 bytes for the others. -/
def Role.mainKey (r : Role) : Bytes := r.auth.take (if 3 ≤ r.authType ∧ r.authType ≤ 6 then 33 else 32)

/-- What may be left of a wallet after the roles in `S` have been used. -/
structure Contained (S : Nat → Prop) (w w' : Wallet) : Prop where
  /-- the identity of the wallet, its claimer and its counter of roles are unchanged -/
  header : w'.id = w.id ∧ w'.bump = w.bump ∧ w'.walletBump = w.walletBump ∧ w'.claimer = w.claimer ∧ w'.roleCounter = w.roleCounter
  /-- other roles are unchanged, their limits, counters and sessions included -/
  others : ∀ j, ¬ S j → w'.role? j = w.role? j
  /-- the roles used keep their keys and gain no permission, except to administer sub-accounts they create -/
  inside : ∀ j r', w'.role? j = some r' → ∃ r, w.role? j = some r ∧ r'.authType = r.authType ∧ r'.mainKey = r.mainKey ∧
    ∀ a' ∈ r'.actions, a'.ty = P.subAccountV2All ∨ ∃ a ∈ r.actions, a.ty = a'.ty

end Verif
