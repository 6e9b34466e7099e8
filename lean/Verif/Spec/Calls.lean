import Verif.Model.Cpi

/-!
# Sequences of calls

What a handler does through other programs, as the list of the instructions it hands to them.
-/

namespace Verif

/-- From `m` the instructions `calls` are executed one after the other and lead to `m'`; each of them satisfies `P` in the state in which it is
executed. -/
inductive Calls (cpi : Cpi) (P : Mem → CpiIx → Prop) : Mem → List CpiIx → Mem → Prop
  | done (m : Mem) : Calls cpi P m [] m
  | call {m m1 m' : Mem} {c : CpiIx} {cs : List CpiIx} : P m c → cpi m c = .ok m1 → Calls cpi P m1 cs m' → Calls cpi P m (c :: cs) m'

/-- `k` is an account of the token program `program` (mint at byte 0, owner at byte 32, amount at byte 64) that `owner` controls. -/
def HeldBy (m : Mem) (program k owner : Key) : Prop :=
  (m k).owner = program ∧ 72 ≤ (m k).data.length ∧ sl (m k).data 32 64 = owner

/-- Token instruction 9, `CloseAccount`: `k` is closed, its lamports go to `dst`, `auth` signs. -/
def tokenCloseIx (program k dst auth : Key) : CpiIx := ⟨program, [⟨k, false, true⟩, ⟨dst, false, true⟩, ⟨auth, true, false⟩], [9]⟩

/-- Token instruction 3, `Transfer`: `n` tokens from `src` to `dst`, `auth` signs. -/
def tokenMoveIx (program src dst auth : Key) (n : Nat) : CpiIx :=
  ⟨program, [⟨src, false, true⟩, ⟨dst, false, true⟩, ⟨auth, true, false⟩], 3 :: natLE 8 n⟩

/-- The two token programs. -/
def IsTokenProgram (k : Key) : Prop := k = tokenId ∨ k = token2022Id

end Verif
