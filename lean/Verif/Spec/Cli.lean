import Verif.Model.Cli
import Verif.Spec.SdkClient

/-!
# What the texts given to the command line tool mean

Vocabulary of properties C89 to C95: what a JSON document says about a permission, in words of its members; what the text of a key stands for.
-/

namespace Verif.Cli
open Sdk

/-- The text of an address. -/
def IsAddress (t : Text) (k : Key) : Prop := k.length = 32 ∧ t = encode58 k

/-- The document has this member, and it is this text. -/
def Value.Text (v : Value) (name : String) (t : Cli.Text) : Prop := v.get name = some (.str t)

/-- The document has this member, and it is this number of 64 bits. -/
def Value.Number (v : Value) (name : String) (n : Nat) : Prop := v.get name = some (.num (some n))

/-- The document has this member, and it is an address. -/
def Value.Address (v : Value) (name : String) (k : Key) : Prop := ∃ t, v.Text name t ∧ IsAddress t k

/-- An optional number: absent, or this one. -/
def Value.Optional (v : Value) (name : String) : Option Nat → Prop
  | none => v.get name = none
  | some n => v.Number name n

/-- An optional `recurring` member with a window. -/
def Value.Recurs (v : Value) : Option Nat → Prop
  | none => v.get "recurring" = none
  | some w => ∃ r, v.get "recurring" = some r ∧ r.Number "window" w

/-- What a document says. -/
inductive Says (v : Value) : Permission → Prop
  | all : v.Text "type" "all".toList → Says v .all
  | programCurated : v.Text "type" "programCurated".toList → Says v .programCurated
  | allBut : v.Text "type" "allButManageAuthority".toList → Says v .allButManageAuthority
  | manage : v.Text "type" "manageAuthority".toList → Says v .manageAuthority
  | programAll : v.Text "type" "programAll".toList → Says v .programAll
  | sol (n w) : v.Text "type" "sol".toList → v.Number "amount" n → v.Recurs w → Says v (.sol n (w.map Recurring.new))
  | program (p) : v.Text "type" "program".toList → v.Address "programId" p → Says v (.program p)
  | scope (p t num limit window s e) : v.Text "type" "programScope".toList → v.Address "programId" p → v.Address "targetAccount" t →
      v.Number "numericType" num → v.Optional "limit" limit → v.Optional "window" window → v.Optional "balanceFieldStart" s →
      v.Optional "balanceFieldEnd" e → Says v (.programScope p t num limit window s e)
  | subAccount (k) : v.Text "type" "subAccount".toList → v.Address "subAccount" k → Says v (.subAccount k)
  | solDestination (d n w) : v.Text "type" "solDestination".toList → v.Address "destination" d → v.Number "amount" n → v.Recurs w →
      Says v (.solDestination d n (w.map Recurring.new))
  | tokenDestination (m d n w) : v.Text "type" "tokenDestination".toList → v.Address "mint" m → v.Address "destination" d →
      v.Number "amount" n → v.Recurs w → Says v (.tokenDestination m d n (w.map Recurring.new))

/-- The amount is a number where there has to be one, a recurring limit names its window, the members of a program scope that are numbers can be
read, and no sub-account is named. -/
structure Readable (v : Value) : Prop where
  amount : (v.Text "type" "sol".toList ∨ v.Text "type" "solDestination".toList ∨ v.Text "type" "tokenDestination".toList) →
    (∃ n, v.Number "amount" n) ∧ ∃ w, v.Recurs w
  scope : v.Text "type" "programScope".toList → (∃ n, v.Number "numericType" n) ∧ (∃ n, v.Optional "limit" n) ∧
    (∃ n, v.Optional "window" n) ∧ (∃ n, v.Optional "balanceFieldStart" n) ∧ ∃ n, v.Optional "balanceFieldEnd" n
  sub : ¬ v.Text "type" "subAccount".toList

/-- JSON separates the members of an object by commas. -/
def Separates (fromStr : Text → Option Value) : Prop := ∀ t fs, fromStr t = some (.obj fs) → ',' ∉ t → fs.length ≤ 1

/-- The key a user means by a text of each type, as the program is to store it: an address; the hexadecimal form of an uncompressed (with mark
04) or compressed Secp256k1 key; the hexadecimal form of a compressed Secp256r1 key; hexadecimal texts with or without `0x`. -/
inductive Means : Nat → Text → Cred → Prop
  | ed25519 (t k) : IsAddress t k → Means 1 t (.ed25519 k)
  | uncompressed (t k) : k.length = 64 → (t = hexText (4 :: k) ∨ t = '0' :: 'x' :: hexText (4 :: k)) →
      Means 3 t (.secp256k1 (compressKey k) (zeros 3) 0)
  | compressed (t k) : k.length = 33 → (k.head? = some 2 ∨ k.head? = some 3) → (t = hexText k ∨ t = '0' :: 'x' :: hexText k) →
      Means 3 t (.secp256k1 k (zeros 3) 0)
  | secp256r1 (t k) : k.length = 33 → (t = hexText k ∨ t = '0' :: 'x' :: hexText k) → Means 5 t (.secp256r1 k (zeros 3) 0)

/-- Kinds of permission that limit or allow something repeatedly, or that only later versions know: recurring limits (2, 6, 11, 17, 19), closing
a wallet (20), replacing an authority (21), sub-accounts of version 2 (22-26). -/
def Unnamed (ty : Nat) : Prop := ty ∈ [2, 6, 11, 17, 19, 20, 21, 22, 23, 24, 25, 26]

/-- The kinds of permission and their numbers in the program, by the words of the tool. -/
def kindWords : List (String × Nat) :=
  [("All", 7), ("AllButManageAuthority", 15), ("ManageAuthority", 8), ("Sol", 1), ("Token", 5), ("Program", 3), ("ProgramAll", 13),
    ("ProgramCurated", 14), ("ProgramScope", 4), ("SubAccount", 9), ("Stake", 10), ("StakeAll", 12), ("SolDestination", 16),
    ("TokenDestination", 18)]

/-- The word stands for this kind. -/
def IsKind (t : Text) (n : Nat) : Prop := ∃ word, (word, n) ∈ kindWords ∧ t = word.toList

/-- What a user is told an answer grants. -/
inductive Answer.Says : Answer → Permission → Prop
  | all : Answer.all.Says .all
  | manage : Answer.manageAuthority.Says .manageAuthority
  | allBut : Answer.allButManageAuthority.Says .allButManageAuthority
  | token (m k n w) : IsAddress m k → (Answer.token m n w).Says (.token k n (w.map Recurring.new))
  | sol (n w) : (Answer.sol n w).Says (.sol n (w.map Recurring.new))
  | tokenDestination (m d k l n w) : IsAddress m k → IsAddress d l →
      (Answer.tokenDestination m d n w).Says (.tokenDestination k l n (w.map Recurring.new))
  | solDestination (d k n w) : IsAddress d k → (Answer.solDestination d n w).Says (.solDestination k n (w.map Recurring.new))
  | program (p k) : IsAddress p k → (Answer.program p).Says (.program k)
  | programAll : Answer.programAll.Says .programAll
  | scope (t k l) : IsAddress t k → (Answer.programScope false t l).Says
      (.programScope tokenId k 2 (l.map (·.1)) (l.map (·.2)) (some 64) (some 72))
  | scope2022 (t k l) : IsAddress t k → (Answer.programScope true t l).Says
      (.programScope token2022Id k 2 (l.map (·.1)) (l.map (·.2)) (some 64) (some 72))
  | programCurated : Answer.programCurated.Says .programCurated
  | subAccount (a k) : IsAddress a k → (Answer.subAccount a).Says (.subAccount k)
  | stake : Answer.stake.Says (.stake 0 none)
  | stakeAll : Answer.stakeAll.Says .stakeAll

end Verif.Cli
