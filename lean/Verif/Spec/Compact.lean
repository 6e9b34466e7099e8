import Verif.Model.Cpi

/-!
# Meaning of compact instructions

What a compact instruction means relative to the outer account list, stated without the decoder.
-/

namespace Verif

/-- Two lists of equal length related element by element. -/
inductive All2 {α β : Type} (R : α → β → Prop) : List α → List β → Prop
  | nil : All2 R [] []
  | cons {a b as bs} : R a b → All2 R as bs → All2 R (a :: as) (b :: bs)

/-- `a` is the outer account with index `x`, passed on: same key, same write access; it signs if it is the wallet's own signing
address or signed the outer transaction, unless restricted. -/
def Passes (metas : List Meta) (signer : Key) (restricted : List Key) (x : UInt8) (a : Meta) : Prop :=
  ∃ o, metas[x.toNat]? = some o ∧ a.key = o.key ∧ a.writable = o.writable ∧
    (a.signer = true ↔ (o.key = signer ∨ o.signer = true) ∧ o.key ∉ restricted)

/-- The instruction `i` is what the compact instruction `c` describes. -/
structure Denotes (metas : List Meta) (signer : Key) (restricted : List Key) (c : CompactIx) (i : Inner) : Prop where
  program : ∃ o, metas[c.program.toNat]? = some o ∧ i.program = o.key
  indexes : i.indexes = c.accounts.map (·.toNat)
  accounts : All2 (Passes metas signer restricted) c.accounts i.accounts
  data : i.data = c.data
  usesSigner : i.usesSigner = true ↔ ∃ a ∈ i.accounts, a.key = signer ∧ a.signer = true

/-- The counts fit the wire format and the program's arrays. -/
def CompactIx.Fits (c : CompactIx) : Prop := c.accounts.length ≤ 254 ∧ c.data.length < 2 ^ 16

end Verif
