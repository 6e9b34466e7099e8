import Verif.Model.SdkClient
import Verif.Spec.Auth
import Verif.Spec.Ops
import Verif.Spec.Wallet

/-!
# Specification of the wallet object of the Rust SDK

What it means that credential bytes name a stored authority, and what a holder is the holder of.
-/

namespace Verif

/-- The role stores this authority. -/
structure Role.Stores (r : Role) (a : Auth) : Prop where
  wf : a.WF
  ty : a.ty = r.authType
  encode : a.encode = r.auth

/-- Credential bytes, as a client writes them, name a stored authority: the Ed25519 key; the compressed or uncompressed Secp256k1 key; the
compressed Secp256r1 key; program, prefix length and prefix of program execution, in the form of the 80 bytes such a role is created
from (of which the declared length is not looked at) or, for session roles, in the short form. -/
def Auth.Named (a : Auth) (cred : Bytes) : Prop :=
  match a.cred, a.session with
  | .ed25519 pk, _ => cred = pk
  | .secp256k1 pk _ _, _ => cred = pk ∨ cred.length = 64 ∧ compressKey cred = pk
  | .secp256r1 pk _ _, _ => cred = pk
  | .exec p n _ buf, none => cred.length = 80 ∧ cred.take 32 = p ∧ (cred.drop 40).take n.toNat = buf.take n.toNat
  | .exec p n _ buf, some _ => cred = p ++ [n] ++ buf.take n.toNat

/-- Declared prefixes of program-exec credentials fit their buffer of 40 bytes. -/
def Auth.PrefixFits (a : Auth) : Prop := ∀ p n pad buf, a.cred = .exec p n pad buf → n.toNat ≤ 40

instance (a : Auth) (cred : Bytes) : Decidable (a.Named cred) := by
  unfold Auth.Named
  split <;> infer_instance

end Verif

namespace Verif.Sdk

/-- The keys of a holder have the sizes of their types. -/
def Holder.Sized : Holder → Prop
  | .ed25519 k => k.length = 32
  | .secp256k1 k _ _ => k.length = 64
  | .secp256r1 k _ _ => k.length = 33
  | .ed25519Session k s _ => k.length = 32 ∧ s.length = 32
  | .secp256k1Session k s _ _ _ => k.length = 64 ∧ s.length = 32
  | .secp256r1Session k s _ _ _ => k.length = 33 ∧ s.length = 32
  | .exec p _ _ => p.length = 32

/-- The authority the program is to store for a new role of a holder: its key (Secp256k1 keys compressed), counter 0, for session roles the
session key, the maximum length and no running session, for program execution the program and at most 40 bytes of the prefix. -/
def Holder.created : Holder → Auth
  | .ed25519 k => ⟨.ed25519 k, none⟩
  | .secp256k1 k _ _ => ⟨.secp256k1 (compressKey k) (zeros 3) 0, none⟩
  | .secp256r1 k _ _ => ⟨.secp256r1 k (zeros 3) 0, none⟩
  | .ed25519Session k s n => ⟨.ed25519 k, some ⟨s, n, 0⟩⟩
  | .secp256k1Session k s n _ _ => ⟨.secp256k1 (compressKey k) (zeros 3) 0, some ⟨s, n, 0⟩⟩
  | .secp256r1Session k s n _ _ => ⟨.secp256r1 k (zeros 3) 0, some ⟨s, n, 0⟩⟩
  | .exec p x _ => ⟨.exec p (UInt8.ofNat (min x.length 40)) (zeros 7) (x.take 40 ++ zeros (40 - min x.length 40)), none⟩

/-- What a holder needs for its credential to be accepted: the maximum session length has 64 bits, a Secp256k1 session key is not one whose last
31 bytes are zero (which the program takes for a compressed key), and the program is not the wallet program itself. -/
def Holder.Creatable : Holder → Prop
  | .ed25519Session _ _ n => n < 2 ^ 64
  | .secp256k1Session k _ n _ _ => n < 2 ^ 64 ∧ k.drop 33 ≠ zeros 31
  | .secp256r1Session _ _ n _ _ => n < 2 ^ 64
  | .exec p _ _ => p ≠ swigId
  | _ => True

/-- Holders of session roles. -/
def Holder.session : Holder → Bool
  | .ed25519Session .. => true
  | .secp256k1Session .. => true
  | .secp256r1Session .. => true
  | _ => false

/-- The role is the first one whose stored authority is named by the bytes. -/
def FirstNamed (w : Wallet) (cred : Bytes) (r : Role) : Prop :=
  ∃ before after, w.roles = before ++ r :: after ∧ (∃ a, r.Stores a ∧ a.Named cred) ∧
    ∀ x ∈ before, ∀ a, x.Stores a → ¬ a.Named cred

end Verif.Sdk

namespace Verif

/-- Every stored program-exec prefix of the role fits. -/
def Role.PrefixFits (r : Role) : Prop := ∀ a, r.Stores a → a.PrefixFits

end Verif

namespace Verif.Sdk

/-- The role a request acts as: the role of the wallet object, except that toggling a V1 sub-account names it. -/
def Req.acting (q : Req) (role : Nat) : Nat :=
  match q with
  | .toggleSubV1 _ _ authRole _ => authRole
  | _ => role

/-- The number of the instruction a request sends. -/
def Req.number : Req → Nat
  | .addAuthority .. => 1
  | .removeAuthority .. => 2
  | .updateAuthority .. => 3
  | .createSession .. => 5
  | .setRentClaimer .. => 17
  | .signV2 .. => 11
  | .createSubV1 .. => 6
  | .signSubV1 .. => 9
  | .withdrawSubV1 .. => 7
  | .withdrawSubTokenV1 .. => 7
  | .toggleSubV1 .. => 10
  | .createSubV2 .. => 18
  | .signSubV2 .. => 20
  | .withdrawSubV2 .. => 21
  | .toggleSubV2 .. => 19

/-- Addresses have 32 bytes, ids fit their fields. -/
def Req.Sized : Req → Prop
  | .createSession key _ => key.length = 32
  | .setRentClaimer k => k.length = 32
  | .toggleSubV1 _ role authRole _ => role < 2 ^ 32 ∧ authRole < 2 ^ 32
  | _ => True

end Verif.Sdk
