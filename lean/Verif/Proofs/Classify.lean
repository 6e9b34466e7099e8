import Verif.Proofs.SettleAll
import Verif.Proofs.Sub

/-! The classification of the accounts of an instruction. -/

namespace Verif

theorem classifyGo_ok {m : Mem} {cache : Option (List (Nat × Bytes))} : ∀ {rest prev : List Meta} {cls out : List Class},
    classifyGo m cache prev cls rest = .ok out →
    ∃ cs, out = cls ++ cs ∧ cs.length = rest.length ∧
      ∀ i a, rest[i]? = some a → ∃ c, cs[i]? = some c ∧ classify m (prev ++ rest.take i) (cls ++ cs.take i) cache a = .ok c := by
  intro rest
  induction rest with
  | nil => intro prev cls out h; cases h; exact ⟨[], by simp, rfl, fun i a h => by simp at h⟩
  | cons b rest ih =>
    intro prev cls out h
    simp only [classifyGo] at h
    obtain ⟨c, h1, h⟩ := bind_ok_iff.mp h
    obtain ⟨cs, rfl, h2, h3⟩ := ih h
    refine ⟨c :: cs, by simp, by simp [h2], fun i a hi => ?_⟩
    cases i with
    | zero =>
      simp only [List.getElem?_cons_zero, Option.some.injEq] at hi
      subst hi
      exact ⟨c, rfl, by simpa using h1⟩
    | succ i =>
      simp only [List.getElem?_cons_succ] at hi
      obtain ⟨c', h4, h5⟩ := h3 i a hi
      refine ⟨c', by simpa using h4, ?_⟩
      simpa using h5

theorem classifyAll_ok {m : Mem} {a : Meta} {rest : List Meta} {cls : List Class} (h : classifyAll m (a :: rest) = .ok cls) :
    ∃ c cs, cls = c :: cs ∧ classify m [] [] none a = .ok c ∧ cs.length = rest.length ∧
      ∀ i b, rest[i]? = some b → ∃ c', cs[i]? = some c' ∧
        classify m (a :: rest.take i) (c :: cs.take i) (cacheOf m a.key) b = .ok c' := by
  simp only [classifyAll] at h
  obtain ⟨c, h1, h⟩ := bind_ok_iff.mp h
  obtain ⟨cs, rfl, h2, h3⟩ := classifyGo_ok h
  exact ⟨c, cs, rfl, h1, h2, by simpa using h3⟩

/-- Classification of the first account as the wallet's configuration account. -/
theorem classify_first {m : Mem} {a : Meta} {c : Class} (h : classify m [] [] none a = .ok c) (hs : c.isSwig = true) :
    c = .thisSwig (m a.key).lamports ∧ (m a.key).owner = swigId ∧ isConfig m a.key = true := by
  unfold classify at h
  dsimp only at h
  by_cases h1 : (m a.key).owner = swigId
  · rw [if_pos h1] at h
    by_cases h2 : isConfig m a.key = false
    · rw [if_pos h2] at h; cases h; cases hs
    · rw [if_neg h2, if_pos (by rfl)] at h
      cases h
      exact ⟨rfl, h1, by simpa using h2⟩
  · rw [if_neg h1] at h
    rw [if_neg (by simp)] at h
    split at h
    · simp only [List.length_nil, true_or, if_true] at h
      cases h; cases hs
    · split at h
      · rename_i h3; simp at h3
      · simp only [List.length_nil, if_true] at h
        cases h; cases hs

/-- What the classification of a later account says about it. -/
inductive Seen (m : Mem) (a : Meta) : Class → Prop
  | none : Seen m a .none
  | wallet : (m a.key).owner = systemId → Seen m a .wallet
  | token : (m a.key).owner = tokenId ∨ (m a.key).owner = token2022Id → 165 ≤ (m a.key).data.length →
      Seen m a (.token (rd (m a.key).data 64 8) 0)
  | stake : (m a.key).owner = stakeId → 200 ≤ (m a.key).data.length → rd (m a.key).data 0 4 ≤ 3 →
      Seen m a (.stake (rd (m a.key).data 0 4) (rd (m a.key).data 156 8) (m a.key).lamports 0)
  | scope {role b : Nat} : (m a.key).owner ≠ swigId → Seen m a (.scope role b 0)

theorem classify_later {m : Mem} {f : Meta} {prev : List Meta} {cls : List Class} {cache : Option (List (Nat × Bytes))} {a : Meta}
    {c : Class} (h : classify m (f :: prev) cls cache a = .ok c) : Seen m a c ∧ ((m a.key).owner = swigId → c = .none) := by
  unfold classify at h
  simp only [List.getElem?_cons_zero] at h
  by_cases h1 : (m a.key).owner = swigId
  · rw [if_pos h1] at h
    by_cases h2 : isConfig m a.key = false
    · rw [if_pos h2] at h; cases h; exact ⟨.none, fun _ => rfl⟩
    · rw [if_neg h2, if_neg (by simp)] at h
      split at h
      · cases h; exact ⟨.none, fun _ => rfl⟩
      · cases h
  · rw [if_neg h1] at h
    refine ⟨?_, fun h => absurd h h1⟩
    by_cases h2 : (m a.key).owner = systemId ∧ (f :: prev).length = 1
    · rw [if_pos h2] at h
      cases h
      split
      · exact .wallet h2.1
      · exact .none
    · rw [if_neg h2] at h
      by_cases h3 : (m a.key).owner = stakeId
      · rw [if_pos h3] at h
        by_cases h4 : (f :: prev).length = 0 ∨ (m a.key).data.length < 200
        · rw [if_pos h4] at h; cases h; exact .none
        · rw [if_neg h4] at h
          split at h
          · cases h; exact .none
          · split at h
            · cases h
            · cases h; exact .stake h3 (by omega) (by omega)
      · rw [if_neg h3] at h
        by_cases h4 : ((m a.key).owner = token2022Id ∨ (m a.key).owner = tokenId) ∧ (f :: prev).length > 0 ∧ 165 ≤ (m a.key).data.length
        · rw [if_pos h4] at h
          split at h
          · cases h; exact .none
          · cases h; exact .token h4.1.symm h4.2.2
        · rw [if_neg h4, if_neg (by simp)] at h
          split at h
          · cases h; exact .none
          · split at h
            · cases h; exact .none
            · obtain ⟨b, _, h⟩ := bind_ok_iff.mp h
              cases h
              exact .scope h1

/-- The accounts after the first, with what they are. -/
theorem classifyAll_rest {m : Mem} {a : Meta} {rest : List Meta} {cls : List Class} (h : classifyAll m (a :: rest) = .ok cls) :
    ∃ c cs, cls = c :: cs ∧ classify m [] [] none a = .ok c ∧ cs.length = rest.length ∧
      ∀ e ∈ rest.zip cs, Seen m e.1 e.2 ∧ ((m e.1.key).owner = swigId → e.2 = .none) := by
  obtain ⟨c, cs, h1, h2, h3, h4⟩ := classifyAll_ok h
  refine ⟨c, cs, h1, h2, h3, fun e he => ?_⟩
  obtain ⟨i, hi⟩ := List.getElem?_of_mem he
  rw [List.getElem?_zip_eq_some] at hi
  obtain ⟨c', h5, h6⟩ := h4 i e.1 hi.1
  rw [hi.2] at h5
  cases h5
  exact classify_later h6

theorem ownedBy_wallet {f w : Meta} {prev : List Meta} {c : Class} {cls : List Class} :
    ownedBy (f :: w :: prev) (c :: .wallet :: cls) w.key = true := by simp [ownedBy]

/-- A token account of the wallet address is recognised. -/
theorem classify_token {m : Mem} {f w a : Meta} {prev : List Meta} {c0 c : Class} {cls : List Class}
    {cache : Option (List (Nat × Bytes))} (h : classify m (f :: w :: prev) (c0 :: .wallet :: cls) cache a = .ok c)
    (ho : (m a.key).owner = tokenId ∨ (m a.key).owner = token2022Id) (hl : 165 ≤ (m a.key).data.length)
    (hw : sl (m a.key).data 32 64 = w.key) : c = .token (rd (m a.key).data 64 8) 0 := by
  unfold classify at h
  dsimp only at h
  have n1 : (m a.key).owner ≠ swigId := by rcases ho with h | h <;> rw [h] <;> decide
  have n2 : (m a.key).owner ≠ systemId := by rcases ho with h | h <;> rw [h] <;> decide
  have n3 : (m a.key).owner ≠ stakeId := by rcases ho with h | h <;> rw [h] <;> decide
  rw [if_neg n1, if_neg (fun h => n2 h.1), if_neg n3, if_pos ⟨ho.symm, by simp, hl⟩, hw, ownedBy_wallet] at h
  simp at h
  exact h.symm

/-- A stake account of the wallet address is recognised (or the instruction fails). -/
theorem classify_stake {m : Mem} {f w a : Meta} {prev : List Meta} {c0 c : Class} {cls : List Class}
    {cache : Option (List (Nat × Bytes))} (h : classify m (f :: w :: prev) (c0 :: .wallet :: cls) cache a = .ok c)
    (ho : (m a.key).owner = stakeId) (hl : 200 ≤ (m a.key).data.length)
    (hw : sl (m a.key).data 44 76 = w.key) :
    c = .stake (rd (m a.key).data 0 4) (rd (m a.key).data 156 8) (m a.key).lamports 0 := by
  unfold classify at h
  dsimp only at h
  have n1 : (m a.key).owner ≠ swigId := by rw [ho]; decide
  have n2 : (m a.key).owner ≠ systemId := by rw [ho]; decide
  rw [if_neg n1, if_neg (fun h => n2 h.1), if_pos ho, if_neg (by simp; omega), hw, ownedBy_wallet] at h
  simp only [Bool.true_eq_false, if_false] at h
  split at h
  · cases h
  · cases h; rfl

end Verif
