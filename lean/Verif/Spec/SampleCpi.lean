import Verif.Spec.Sample
import Verif.Spec.Sign

/-!
# A small System and Token program

Concrete called programs for the examples and counterexamples about signing: System `Assign` (1) and `Transfer` (2), Token `Transfer` (3)
and `CloseAccount` (9), with the checks the real programs make.
-/

namespace Verif.Sample

/-- System `Assign`: needs the signature of the account, which must be System-owned. -/
def demoAssign (m : Mem) (a : Meta) (owner : Key) : R Mem :=
  if a.signer = true ∧ a.writable = true ∧ (m a.key).owner = systemId ∧ owner.length = 32 then
    .ok (m.set a.key { (m a.key) with owner := owner })
  else .error .runtime

/-- Transfer of lamports; the total supply fits `u64`. -/
def demoTransfer (m : Mem) (a b : Meta) (n : Nat) : R Mem :=
  if (m b.key).lamports + n < 2 ^ 64 then sysTransfer m a b n else .error .runtime

/-- Token `Transfer`: source, destination, authority. -/
def demoTokenTransfer (m : Mem) (a b auth : Meta) (n : Nat) : R Mem :=
  if auth.signer = true ∧ a.writable = true ∧ b.writable = true ∧ (m a.key).owner = tokenId ∧ (m b.key).owner = tokenId ∧ a.key ≠ b.key ∧
      sl (m a.key).data 32 64 = auth.key ∧ sl (m a.key).data 0 32 = sl (m b.key).data 0 32 ∧ n ≤ tokensOf (m a.key) ∧
      tokensOf (m b.key) + n < 2 ^ 64 then
    .ok ((m.setData a.key (put (m a.key).data 64 (natLE 8 (tokensOf (m a.key) - n)))).setData b.key
      (put (m b.key).data 64 (natLE 8 (tokensOf (m b.key) + n))))
  else .error .runtime

/-- Token `CloseAccount`: account, destination of the lamports, authority. -/
def demoTokenClose (m : Mem) (a b auth : Meta) : R Mem :=
  if auth.signer = true ∧ a.writable = true ∧ b.writable = true ∧ (m a.key).owner = tokenId ∧ a.key ≠ b.key ∧
      sl (m a.key).data 32 64 = auth.key ∧ tokensOf (m a.key) = 0 ∧ (m b.key).lamports + (m a.key).lamports < 2 ^ 64 then
    .ok ((m.setLamports b.key ((m b.key).lamports + (m a.key).lamports)).set a.key ⟨systemId, 0, []⟩)
  else .error .runtime

def demoSystem (m : Mem) (ix : CpiIx) : R Mem :=
  match ix.accounts with
  | [] => .error .runtime
  | a :: more =>
    if rd ix.data 0 4 = 1 then demoAssign m a (sl ix.data 4 36)
    else if rd ix.data 0 4 = 2 then
      match more with
      | [] => .error .runtime
      | b :: _ => demoTransfer m a b (rd ix.data 4 8)
    else .error .runtime

def demoToken (m : Mem) (ix : CpiIx) : R Mem :=
  match ix.accounts with
  | a :: b :: auth :: _ =>
    if ix.data.head? = some 3 then demoTokenTransfer m a b auth (rd ix.data 1 8)
    else if ix.data.head? = some 9 then demoTokenClose m a b auth
    else .error .runtime
  | _ => .error .runtime

def demoCpi : Cpi := fun m ix =>
  if ix.program = systemId then demoSystem m ix else if ix.program = tokenId then demoToken m ix else .error .runtime

theorem demoCpi_typed : demoCpi.Typed := by
  intro m ix m' h hm
  have hset : ∀ (m : Mem) (k : Key) (a : Acct), m.Typed → a.owner.length = 32 → a.lamports < 2 ^ 64 → (m.set k a).Typed := by
    intro m k a hm h1 h2 x
    unfold Mem.set
    split
    · exact ⟨h1, h2⟩
    · exact hm x
  have hlam : ∀ (m : Mem) (k : Key) (n : Nat), m.Typed → n < 2 ^ 64 → (m.setLamports k n).Typed := by
    intro m k n hm hn
    exact hset m k _ hm (hm k).1 hn
  have hdat : ∀ (m : Mem) (k : Key) (d : Bytes), m.Typed → (m.setData k d).Typed := by
    intro m k d hm
    exact hset m k _ hm (hm k).1 (hm k).2
  unfold demoCpi at h
  split at h
  · unfold demoSystem at h
    split at h
    · cases h
    · split at h
      · unfold demoAssign at h
        split at h
        · rename_i hc
          cases h
          exact hset _ _ _ hm hc.2.2.2 (hm _).2
        · cases h
      · split at h
        · split at h
          · cases h
          · unfold demoTransfer at h
            split at h
            · rename_i hb
              unfold sysTransfer at h
              split at h
              · cases h
              · split at h
                · cases h
                · split at h
                  · cases h
                  · cases h
                    refine hlam _ _ _ (hlam _ _ _ hm (Nat.lt_of_le_of_lt (Nat.sub_le _ _) (hm _).2)) ?_
                    unfold Mem.setLamports Mem.set
                    split
                    · rename_i e; rw [e] at hb; simp only; omega
                    · exact hb
            · cases h
        · cases h
  · split at h
    · unfold demoToken at h
      split at h
      · split at h
        · unfold demoTokenTransfer at h
          split at h
          · cases h
            exact hdat _ _ _ (hdat _ _ _ hm)
          · cases h
        · split at h
          · unfold demoTokenClose at h
            split at h
            · rename_i hc
              cases h
              refine hset _ _ _ (hlam _ _ _ hm hc.2.2.2.2.2.2.2) (by decide) (by decide)
            · cases h
          · cases h
      · cases h
    · cases h

/-- An environment whose hash has no collisions. -/
def signEnv : Env := { env with sha256 := fun b => b }

theorem signEnv_noClash (a b : Acct) : ¬ Clash signEnv a b := fun h => h.1 h.2
theorem signEnv_noClashExcept (rs : List (Nat × Nat)) (a b : Acct) : ¬ ClashExcept signEnv rs a b := fun h => h.1 h.2

end Verif.Sample
