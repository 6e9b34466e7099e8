import Verif.Spec.SdkClient
import Verif.Spec.Lifetime

/-!
# The wallet object of the SDK in use

Vocabulary of property C84: what it is for a wallet object to be in step with the program, and what a run of its requests is.
-/

namespace Verif.Sdk
open Client

/-- Holders of Secp256k1 and Secp256r1 roles without sessions. -/
def Holder.plainSecp : Holder → Bool
  | .secp256k1 .. => true
  | .secp256r1 .. => true
  | _ => false

/-- Holders of Secp256k1 and Secp256r1 roles with sessions. -/
def Holder.secpSession : Holder → Bool
  | .secp256k1Session .. => true
  | .secp256r1Session .. => true
  | _ => false

/-- Secp256k1 signatures have 65 bytes. -/
def Holder.SignsWell : Holder → Prop
  | .secp256k1 _ f _ => ∀ x, (f x).length = 65
  | .secp256k1Session _ _ _ f _ => ∀ x, (f x).length = 65
  | _ => True

/-- The wallet object is for a role of the kind of its holder, and its counter is the one stored for the role. -/
def InStep (o : Obj) (w : Wallet) : Prop :=
  ∃ r, w.role? o.role = some r ∧ r.authType = o.holder.ty ∧ o.holder.odometer = some (rd r.auth 36 4)

/-- Requests after which the wallet object advances its counter. -/
def Req.counts : Req → Bool
  | .addAuthority .. => false
  | .createSession .. => false
  | _ => true

/-- Requests by others: they neither act as the role nor replace its key. -/
def Others (id : Nat) (ix : Bytes) : Prop := actingRole ix ≠ id ∧ ¬ Rekeys ix id

/-- The request `q` of the wallet object is sent as the single instruction `b`, which the program carries out on `m` with result `m'`; programs
called on the way do not use the role themselves. -/
structure Carried (o : Obj) (q : Req) (b : Built) (m m' : Mem) : Prop where
  sized : q.Sized
  own : q.acting o.role = o.role
  built : ∃ env slot, o.instructions env slot q = some [b]
  small : b.data.length ≤ 1232
  runs : ∃ env cpi metas, metas.map Meta.key = b.accounts.map Meta.key ∧ Fine env cpi m metas b.data ∧
    (∀ x ix y, (x o.swig).owner = swigId → cpi x ix = .ok y → Steps (Others o.role) o.swig x y) ∧
    process env cpi m metas b.data = .ok m'

/-- A run of the wallet object, together with whatever others do in between: ledger and object before, ledger and object afterwards. -/
inductive Runs : Mem → Obj → Mem → Obj → Prop
  | done (m : Mem) (o : Obj) : Runs m o m o
  | others {m m' m'' : Mem} {o o' : Obj} : Steps (Others o.role) o.swig m m' → Runs m' o m'' o' → Runs m o m'' o'
  | request {m m' m'' : Mem} {o o' : Obj} {q : Req} {b : Built} : q.counts = true → Carried o q b m m' →
      Runs m' (o.settle (m' o.swig).data q).1 m'' o' → Runs m o m'' o'

end Verif.Sdk
