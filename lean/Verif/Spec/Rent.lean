import Verif.Spec.Evolve
import Verif.Spec.Total

/-!
# Histories with rent

The histories of `Spec/Evolve.lean` with the balances in view: the runtime deletes accounts without lamports between transactions.
-/

namespace Verif

/-- The account `k` is a configuration account, open or closed, and holds its rent minimum. -/
structure Kept (rent : Nat → Nat) (m : Mem) (k : Key) : Prop where
  account : (∃ w, Open m k w) ∨ IsClosed m k
  exempt : rent (m k).data.length ≤ (m k).lamports

/-- What the runtime does after a transaction: accounts without lamports disappear. -/
def Mem.purge (m : Mem) : Mem := fun k => if (m k).lamports = 0 then ⟨systemId, 0, []⟩ else m k

/-- What is assumed of a request beside `Fine`: rent is the given function, which does not fall with size; called programs take no account
away from the System program (this is what `C64_refuted` does without); nobody holds more lamports than exist; the account the request is
for is rent exempt (the runtime lets no transaction end otherwise). -/
structure Solvent (rent : Nat → Nat) (env : Env) (cpi : Cpi) (m : Mem) (metas : List Meta) : Prop where
  rent : env.rent = rent
  mono : env.RentMono
  noAssign : ∀ a ix b k, cpi a ix = .ok b → (a k).owner = systemId → (b k).owner = systemId
  supply : ∀ k, (m k).lamports < 2 ^ 62
  first : ∀ a rest, metas = a :: rest → Exempt env m a.key

/-- Histories of the account `k`: requests, calls they lead to included; deposits and whatever else leaves data, owner and balance of the
account alone; and the deletion of accounts without lamports. -/
inductive Lives (rent : Nat → Nat) (ok : Bytes → Prop) (k : Key) : Mem → Mem → Prop
  | refl (m : Mem) : Lives rent ok k m m
  | trans {a b c : Mem} : Lives rent ok k a b → Lives rent ok k b c → Lives rent ok k a c
  | outside {a b : Mem} : (b k).data = (a k).data → (b k).owner = (a k).owner → (a k).lamports ≤ (b k).lamports → Lives rent ok k a b
  | purged (m : Mem) : Lives rent ok k m m.purge
  | request {env : Env} {cpi : Cpi} {m m' : Mem} {metas : List Meta} {ix : Bytes} :
      (∀ a ix b, (a k).owner = swigId → cpi a ix = .ok b → Lives rent ok k a b) → ok ix → Fine env cpi m metas ix →
      Solvent rent env cpi m metas → process env cpi m metas ix = .ok m' → Lives rent ok k m m'

end Verif
