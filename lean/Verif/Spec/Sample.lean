import Verif.Model.Manage
import Verif.Spec.Ops

/-!
# A concrete wallet

Concrete ledgers and requests on which the handlers succeed: used beside the theorems to show that their hypotheses can be
met.
-/

namespace Verif.Sample

/-- Sample keys. -/
def K (n : UInt8) : Key := List.replicate 32 n

/-- A sample environment: slot 100, rent of the main network, fixed program addresses, trivial hash functions. -/
def env : Env where
  slot := 100
  rent n := (n + 128) * 6960
  pda seeds :=
    if seeds.head? = some (ascii "swig") then some (K 1)
    else if seeds.head? = some (ascii "swig-wallet-address") then some (K 2)
    else if seeds.head? = some (ascii "sub-account") then some (K 3)
    else if seeds.head? = some (ascii "sub-account-v2-state") then some (K 4)
    else if seeds.head? = some (ascii "sub-account-v2") then some (K 5)
    else none
  sha256 _ := zeros 32
  keccak b := b
  recover _ _ _ := none
  stackHeight := 1

/-- The role of the owner: Ed25519 key `K 10`, permission All. -/
def root : Role := ⟨1, 0, K 10, [⟨7, []⟩]⟩

/-- A restricted role: Ed25519 key `K 11`, a SOL limit of 500 and permission for program `K 60`. -/
def limited : Role := ⟨1, 1, K 11, [⟨1, natLE 8 500⟩, ⟨3, K 60⟩]⟩

/-- A wallet with these two roles. -/
def wallet : Wallet := ⟨255, K 70, 2, 254, zeros 3, 0, [root, limited], none⟩

/-- A ledger holding the wallet's configuration account at `K 1`, its wallet address at `K 2`, and two funded users at
`K 10`, `K 11`. -/
def mem (w : Wallet) : Mem := fun k =>
  if k = K 1 then ⟨swigId, 2000000000, w.encode⟩
  else if k = K 2 then ⟨systemId, 5000000000, []⟩
  else if k = K 10 ∨ k = K 11 then ⟨systemId, 7000000000, []⟩
  else ⟨systemId, 0, []⟩

/-- An empty ledger with the two users. -/
def mem0 : Mem := fun k =>
  if k = K 10 ∨ k = K 11 then ⟨systemId, 7000000000, []⟩ else ⟨systemId, 0, []⟩

/-- Accounts of most requests: configuration, payer (signing), System program. -/
def metas (payer : Key) : List Meta := [⟨K 1, false, true⟩, ⟨payer, true, true⟩, ⟨systemId, false, false⟩]

def createIx : Bytes :=
  natLE 2 0 ++ natLE 2 1 ++ natLE 2 32 ++ [255, 254] ++ K 70 ++ K 10 ++ (natLE 2 7 ++ natLE 2 0 ++ natLE 4 8)

def createMetas : List Meta := [⟨K 1, false, true⟩, ⟨K 10, true, true⟩, ⟨K 2, false, true⟩, ⟨systemId, false, false⟩]

/-- Role 0 adds an Ed25519 role with key `K 12` and a SOL limit of 9. -/
def addIx : Bytes :=
  natLE 2 1 ++ natLE 2 32 ++ natLE 2 16 ++ natLE 2 1 ++ [1, 0, 0, 0] ++ natLE 4 0 ++ K 12 ++
    (natLE 2 1 ++ natLE 2 8 ++ natLE 4 16 ++ natLE 8 9) ++ [1]

/-- Role 0 removes role 1. -/
def removeIx : Bytes := natLE 2 2 ++ zeros 6 ++ natLE 4 0 ++ natLE 4 1 ++ [1]

/-- Role 0 gives role 1 the single permission All. -/
def updateIx : Bytes :=
  natLE 2 3 ++ natLE 2 9 ++ [0] ++ zeros 3 ++ natLE 4 0 ++ natLE 4 1 ++ ([0] ++ natLE 2 7 ++ natLE 2 0 ++ natLE 4 8) ++ [1]

/-- Role 0 removes the SOL limit of role 1. -/
def updateRemoveIx : Bytes :=
  natLE 2 3 ++ natLE 2 2 ++ [0] ++ zeros 3 ++ natLE 4 0 ++ natLE 4 1 ++ [2, 1] ++ [1]

/-- Role 0 gives role 1 the key `K 13`. -/
def replaceIx : Bytes := natLE 2 16 ++ zeros 2 ++ natLE 4 0 ++ natLE 4 1 ++ natLE 2 32 ++ zeros 2 ++ K 13 ++ [1]

/-- Role 0 registers the rent claimer `K 20`. -/
def claimerIx : Bytes := natLE 2 17 ++ zeros 2 ++ natLE 4 0 ++ K 20 ++ [1]

/-- Whether a request succeeds. -/
def ok {α : Type} : R α → Bool
  | .ok _ => true
  | .error _ => false

theorem exists_of_ok {α : Type} {x : R α} (h : ok x = true) : ∃ a, x = .ok a := by
  cases x with
  | ok a => exact ⟨a, rfl⟩
  | error e => cases h

end Verif.Sample
