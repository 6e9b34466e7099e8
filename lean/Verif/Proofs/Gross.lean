import Verif.Proofs.SignOut

/-! Losses of the wallet address, instruction by instruction. -/

namespace Verif

/-- With System transfers that take exactly their amount, and nobody taking over the address, a transfer loses its amount. -/
theorem lostEach_transfers {env : Env} {cpi : Cpi} {metas : List Meta} {wallet : Key} {seeds : List Bytes}
    (hf : cpi.ExactTransfers wallet) :
    ∀ (ixs : List Inner) {m m1 : Mem}, (∀ pre post mid, ixs = pre ++ post → execAll env cpi metas wallet seeds m pre = .ok mid →
      (mid wallet).owner = systemId) → execAll env cpi metas wallet seeds m ixs = .ok m1 →
    (∀ t ∈ ixs.filterMap (transferFrom wallet), t.1 ≠ wallet) →
    All2 (fun ix l => ∀ t, transferFrom wallet ix = some t → l = t.2) ixs (lostEach env cpi metas wallet seeds wallet m ixs) := by
  intro ixs
  induction ixs with
  | nil => intro m m1 _ _ _; exact .nil
  | cons ix ixs ih =>
    intro m m1 hown h ht
    simp only [execAll] at h
    obtain ⟨m2, h1, h2⟩ := bind_ok_iff.mp h
    simp only [lostEach, h1]
    have hown0 : (m wallet).owner = systemId := hown [] _ m rfl rfl
    have hinv : invokeSigned env cpi m metas ix.cpi seeds = .ok m2 := by
      unfold execInner at h1
      split at h1
      · split at h1
        · cases h1
        · rename_i a rest hacc
          rw [if_neg (by intro hh; exact hh.2 (by rw [hh.1]; exact hown0))] at h1
          exact h1
      · exact h1
    have hcpi : cpi m ix.cpi = .ok m2 := by
      unfold invokeSigned at hinv
      split at hinv
      · cases hinv
      · split at hinv
        · exact hinv
        · cases hinv
    refine .cons ?_ (ih (fun pre post mid he hm => hown (ix :: pre) post mid (by rw [he]; rfl)
      (by simp only [execAll, h1, ok_bind]; exact hm)) h2 fun t htm => ht t ?_)
    · intro t htf
      have hne := ht t (List.mem_filterMap.mpr ⟨ix, by simp, htf⟩)
      unfold transferFrom at htf
      split at htf
      · rename_i hc
        split at htf
        · rename_i a d more hacc
          split at htf
          · rename_i hk
            cases htf
            have := hf _ _ _ hcpi hc.1 hc.2.1 hc.2.2 a d more hacc hk hne
            have e : rd ix.cpi.data 4 8 = rd ix.data 4 8 := rfl
            simp only at this ⊢
            omega
          · cases htf
        · cases htf
      · cases htf
    · obtain ⟨i, h3, h4⟩ := List.mem_filterMap.mp htm
      exact List.mem_filterMap.mpr ⟨i, by simp [h3], h4⟩

/-- If the transfers already make up the whole loss, nothing else loses. -/
theorem others_zero {wallet : Key} : ∀ {ixs : List Inner} {ls : List Nat},
    All2 (fun ix l => ∀ t, transferFrom wallet ix = some t → l = t.2) ixs ls →
    ((ixs.filterMap (transferFrom wallet)).map Prod.snd).sum ≤ ls.sum ∧
    (((ixs.filterMap (transferFrom wallet)).map Prod.snd).sum = ls.sum →
      All2 (fun ix l => (∀ t, transferFrom wallet ix = some t → l = t.2) ∧ (transferFrom wallet ix = none → l = 0)) ixs ls) := by
  intro ixs ls h
  induction h with
  | nil => exact ⟨by simp, fun _ => .nil⟩
  | @cons ix l ixs ls h1 h2 ih =>
    obtain ⟨ih1, ih2⟩ := ih
    cases ht : transferFrom wallet ix with
    | none =>
      rw [List.filterMap_cons_none ht, List.sum_cons]
      refine ⟨by omega, fun e => .cons ⟨h1, fun _ => by omega⟩ (ih2 (by omega))⟩
    | some t =>
      have := h1 t ht
      rw [List.filterMap_cons_some ht, List.map_cons, List.sum_cons, List.sum_cons]
      refine ⟨by omega, fun e => .cons ⟨h1, fun hn => (by rw [ht] at hn; cases hn)⟩ (ih2 (by omega))⟩

end Verif
