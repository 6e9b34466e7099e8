import Verif.Spec.Wallet
import Verif.Spec.Auth
import Verif.Model.AuthLayout

/-!
# Specification of wallet operations

What the managing instructions are meant to do to the abstract wallet of `Spec/Wallet.lean`: no offsets, no cursors.
-/

namespace Verif

/-- Change the role with a given id. -/
def Wallet.mapRole (w : Wallet) (id : Nat) (f : Role → Role) : Wallet :=
  { w with roles := w.roles.map fun r => if r.id = id then f r else r }

/-- Stored credential after one use: the replay counter of the two plain secp types (the last four of their 40 bytes) goes up
by one modulo 2^32; all other records stay. -/
def usedCred (ty : Nat) (auth : Bytes) : Bytes :=
  if ty = 3 ∨ ty = 5 then auth.take 36 ++ natLE 4 (leNat (auth.drop 36) + 1) else auth

/-- The wallet after the role `id` has authenticated. -/
def Wallet.used (w : Wallet) (id : Nat) : Wallet := w.mapRole id fun r => { r with auth := usedCred r.authType r.auth }

/-- Append a role under the next free id. -/
def Wallet.addRole (w : Wallet) (ty : Nat) (auth : Bytes) (as : List Act) : Wallet :=
  { w with roles := w.roles ++ [⟨ty, w.roleCounter, auth, as⟩], roleCounter := w.roleCounter + 1 }

/-- Delete a role. -/
def Wallet.removeRole (w : Wallet) (id : Nat) : Wallet := { w with roles := w.roles.filter fun r => r.id ≠ id }

/-- Give a role another list of permissions. -/
def Wallet.setActions (w : Wallet) (id : Nat) (as : List Act) : Wallet := w.mapRole id fun r => { r with actions := as }

/-- Give a role another stored credential. -/
def Wallet.setAuth (w : Wallet) (id : Nat) (auth : Bytes) : Wallet := w.mapRole id fun r => { r with auth := auth }

/-- Register the rent claimer. -/
def Wallet.setClaimer (w : Wallet) (k : Key) : Wallet := { w with claimer := some k }

/-- The credential created from the data a client submits for a new role: length check, key (a 64-byte secp256k1 key is
compressed), counter 0, session expiry 0; program-exec roles may not name the wallet program itself and keep only the
declared prefix. -/
def initialAuth (ty : Nat) (c : Bytes) : Option Auth :=
  if ty = 1 then if c.length = 32 then some ⟨.ed25519 c, none⟩ else none
  else if ty = 2 then
    if c.length = 72 then some ⟨.ed25519 (sl c 0 32), some ⟨sl c 32 64, rd c 64 8, 0⟩⟩ else none
  else if ty = 3 then
    if c.length = 33 then some ⟨.secp256k1 c (zeros 3) 0, none⟩
    else if c.length = 64 then some ⟨.secp256k1 (compressKey c) (zeros 3) 0, none⟩
    else none
  else if ty = 4 then
    if c.length = 104 then
      some ⟨.secp256k1 (if sl c 33 64 = zeros 31 then sl c 0 33 else compressKey (sl c 0 64)) (zeros 3) 0,
        some ⟨sl c 64 96, rd c 96 8, 0⟩⟩
    else none
  else if ty = 5 then if c.length = 33 then some ⟨.secp256r1 c (zeros 3) 0, none⟩ else none
  else if ty = 6 then
    if c.length = 80 then some ⟨.secp256r1 (sl c 0 33) (zeros 3) 0, some ⟨sl c 40 72, rd c 72 8, 0⟩⟩ else none
  else if ty = 7 then
    if c.length = 80 ∧ (c.getD 32 0).toNat ≤ 40 ∧ sl c 0 32 ≠ swigId then
      some ⟨.exec (sl c 0 32) (c.getD 32 0) (zeros 7)
        (sl c 40 (40 + (c.getD 32 0).toNat) ++ zeros (40 - (c.getD 32 0).toNat)), none⟩
    else none
  else if ty = 8 then
    if c.length = 128 ∧ (c.getD 32 0).toNat ≤ 40 ∧ sl c 0 32 ≠ swigId then
      some ⟨.exec (sl c 0 32) (c.getD 32 0) (zeros 7) (sl c 40 80), some ⟨sl c 80 112, rd c 112 8, 0⟩⟩
    else none
  else none

/-- The credential after its main key was used once: the replay counter of the secp types goes up by one modulo 2^32. -/
def Cred.used : Cred → Cred
  | .secp256k1 pk pad n => .secp256k1 pk pad ((n + 1) % 2 ^ 32)
  | .secp256r1 pk pad n => .secp256r1 pk pad ((n + 1) % 2 ^ 32)
  | c => c

/-- The key a credential is bound to. -/
def Cred.key : Cred → Bytes
  | .ed25519 pk => pk
  | .secp256k1 pk _ _ => pk
  | .secp256r1 pk _ _ => pk
  | .exec p _ _ _ => p

/-- The key stored for a submitted replacement: 32 bytes for Ed25519, 33 bytes (or 64, compressed) for Secp256k1, 33 bytes for
Secp256r1; nothing for program execution. -/
def Cred.newKey (c : Cred) (new : Bytes) : Option Bytes :=
  match c with
  | .ed25519 _ => if new.length = 32 then some new else none
  | .secp256k1 .. => if new.length = 33 then some new else if new.length = 64 then some (compressKey new) else none
  | .secp256r1 .. => if new.length = 33 then some new else none
  | .exec .. => none

/-- The credential with another key and its replay counter back at 0. -/
def Cred.withKey (c : Cred) (key : Bytes) : Cred :=
  match c with
  | .ed25519 _ => .ed25519 key
  | .secp256k1 _ pad _ => .secp256k1 key pad 0
  | .secp256r1 _ pad _ => .secp256r1 key pad 0
  | .exec p n pad buf => .exec p n pad buf

/-- The authority with another key: counter back at 0, session ended (zero key, expiry 0), maximum session length kept. -/
def Auth.withKey (a : Auth) (key : Bytes) : Auth :=
  ⟨a.cred.withKey key, a.session.map fun s => ⟨zeros 32, s.max, 0⟩⟩

end Verif
