import Verif.Spec.SdkRuns
import Verif.Spec.Client

/-!
# Holders that can act

Vocabulary of property C86: what it is for a credential holder of the SDK to have what proves the stored authority `a`.
-/

namespace Verif.Sdk
open Client

/-- The slot the SDK was told: not in the future and at most 60 slots old. -/
def Recent (env : Env) (slot : Option Nat) : Prop := ∃ s, slot = some s ∧ s < 2 ^ 64 ∧ s ≤ env.slot ∧ env.slot ≤ s + 60

/-- The holder can act for the stored authority with the instructions `b`: it has its key, its signing function and its counter and knows a
recent slot; of an authority with sessions it has the key of a running session; its preceding instruction proves a program-exec
authority.  `metas` are the accounts as the program sees them: where the holder signs them they must be those it has signed. -/
def Holder.Acts (env : Env) (a : Auth) (slot : Option Nat) (metas : List Meta) (b : Built) : Holder → Prop
  | .ed25519 k => a.session = none ∧ a.cred = .ed25519 k
  | .secp256k1 _ f n => a.session = none ∧ (∃ pk pad, a.cred = .secp256k1 pk pad n ∧ SignsK1 env f pk) ∧ Recent env slot ∧ metas = b.accounts
  | .secp256r1 k f n => a.session = none ∧ (∃ pad, a.cred = .secp256r1 k pad n) ∧ (∀ x, (f x).length = 64) ∧ Recent env slot ∧ metas = b.accounts
  | .ed25519Session _ k _ => ∃ s, a.session = some s ∧ s.key = k ∧ env.slot ≤ s.expiry
  | .secp256k1Session _ k _ _ _ => ∃ s, a.session = some s ∧ s.key = k ∧ env.slot ≤ s.expiry
  | .secp256r1Session _ k _ _ _ => ∃ s, a.session = some s ∧ s.key = k ∧ env.slot ≤ s.expiry
  | .exec _ _ p => a.session = none ∧ ∃ program plen pad buf, a.cred = .exec program plen pad buf ∧ Proves p program plen buf b.accounts

/-- The holder has the main credential of the stored authority with sessions, and its counter. -/
def Holder.Starts (env : Env) (a : Auth) (slot : Option Nat) (metas : List Meta) (b : Built) : Holder → Prop
  | .ed25519Session k _ _ => a.cred = .ed25519 k
  | .secp256k1Session _ _ _ f n => (∃ pk pad, a.cred = .secp256k1 pk pad n ∧ SignsK1 env f pk) ∧ Recent env slot ∧ metas = b.accounts
  | .secp256r1Session k _ _ f n => (∃ pad, a.cred = .secp256r1 k pad n) ∧ (∀ x, (f x).length = 64) ∧ Recent env slot ∧ metas = b.accounts
  | _ => False

/-- The key a holder needs as signer of the transaction, if it proves its role that way. -/
def Holder.signer : Holder → Option Key
  | .ed25519 k => some k
  | .ed25519Session _ k _ => some k
  | .secp256k1Session _ k _ _ _ => some k
  | .secp256r1Session _ k _ _ _ => some k
  | _ => none

/-- Sub-account requests of version 1. -/
def Req.v1 : Req → Bool
  | .createSubV1 .. => true
  | .signSubV1 .. => true
  | .withdrawSubV1 .. => true
  | .withdrawSubTokenV1 .. => true
  | .toggleSubV1 .. => true
  | _ => false

/-- The wallet program, called by another program, runs as it does when called directly. -/
def CallsItself (cpi : Cpi) : Prop :=
  ∀ x i y, i.program = swigId → cpi x i = .ok y → ∃ env cpi', process env cpi' x i.accounts i.data = .ok y

end Verif.Sdk
