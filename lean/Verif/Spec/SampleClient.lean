import Verif.Spec.Client
import Verif.Spec.Sample

/-! Concrete requests of the client library. -/

namespace Verif.SampleClient
open Client Sample

/-- The sample environment with a 32-byte hash and a recovery function that returns one key. -/
def env1 : Env := { env with keccak := fun _ => zeros 32, recover := fun _ _ _ => some (zeros 64) }

/-- The compressed form of the recovered key. -/
def pk1 : Bytes := 2 :: zeros 32

def pk2 : Bytes := 3 :: K 9

/-- Five roles: the owner (Ed25519, All), a role with a session, a secp256k1 role, a secp256r1 role, a program-exec role. -/
def auth0 : Auth := ⟨.ed25519 (K 10), none⟩
def auth1 : Auth := ⟨.ed25519 (K 11), some ⟨K 12, 1000, 100⟩⟩
def auth2 : Auth := ⟨.secp256k1 pk1 (zeros 3) 7, none⟩
def auth3 : Auth := ⟨.secp256r1 pk2 (zeros 3) 41, none⟩
def auth4 : Auth := ⟨.exec (K 30) 2 (zeros 7) ([9, 9] ++ zeros 38), none⟩

def role0 : Role := ⟨1, 0, auth0.encode, [⟨P.all, []⟩]⟩
def role1 : Role := ⟨2, 1, auth1.encode, [⟨P.manageAuthority, []⟩]⟩
def role2 : Role := ⟨3, 2, auth2.encode, [⟨P.all, []⟩]⟩
def role3 : Role := ⟨5, 3, auth3.encode, [⟨P.all, []⟩]⟩
def role4 : Role := ⟨7, 4, auth4.encode, [⟨P.solLimit, natLE 8 70⟩, ⟨P.manageAuthority, []⟩]⟩

def roles : List Role := [role0, role1, role2, role3, role4]

def wallet1 : Wallet := ⟨255, K 70, 5, 254, zeros 3, 0, roles, none⟩

/-- Callers for the five roles; the last one sends an instruction of program `K 30` with the registered prefix first. -/
def sign1 : Bytes → Bytes := fun _ => zeros 32 ++ zeros 32 ++ [27]

def callerEd : Caller := .ed25519 (K 10)
def callerSession : Caller := .ed25519 (K 12)
def callerK1 : Caller := .secp256k1 sign1 90 8
def callerR1 : Caller := .secp256r1 (fun _ => zeros 64) pk2 90 42
def callerExec : Caller := .exec ⟨K 30, [⟨K 1, false, true⟩, ⟨K 10, true, true⟩], [9, 9, 9]⟩ none

/-- Roles 0 to 4 with their stored authorities and callers. -/
def sampleCase : Nat → Option (Role × Auth × Caller)
  | 0 => some (role0, auth0, callerEd)
  | 1 => some (role1, auth1, callerSession)
  | 2 => some (role2, auth2, callerK1)
  | 3 => some (role3, auth3, callerR1)
  | 4 => some (role4, auth4, callerExec)
  | _ => none

/-- The ledger on which the built instructions are executed, the accounts as requested. -/
def memOf (b : Built) : Mem := fun k =>
  if k = instructionsSysvarId then ⟨K 99, 1, sysvarEncode (b.before ++ [b.seen b.accounts]) b.before.length⟩ else mem wallet1 k

end Verif.SampleClient
