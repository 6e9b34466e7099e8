import Verif.Model.Limits
import Verif.Spec.History
import Verif.Proofs.Bytes

/-! Lemmas about limit histories, shared by the limit properties. -/

namespace Verif

theorem play_invariant {σ ι : Type} (run : σ → ι → R σ) (P : σ → Prop)
    (hstep : ∀ s i s', P s → run s i = .ok s' → P s') :
    ∀ is s, P s → P (play run s is).1 := by
  intro is
  induction is with
  | nil => intro s h; exact h
  | cons i is ih =>
    intro s h
    simp only [play]
    split
    · rename_i s' hs; exact ih s' (hstep s i s' h hs)
    · exact ih s h

/-- One-shot limits: remaining plus approved is constant. -/
theorem play_conserve {σ ι : Type} (run : σ → ι → R σ) (amt : ι → Nat) (rem : σ → Nat)
    (hstep : ∀ s i s', run s i = .ok s' → rem s' + amt i = rem s) :
    ∀ is s, rem (play run s is).1 + ((play run s is).2.map amt).sum = rem s := by
  intro is
  induction is with
  | nil => intro s; simp [play]
  | cons i is ih =>
    intro s
    simp only [play]
    split
    · rename_i s' hs
      have h1 := ih s'
      have h2 := hstep s i s' hs
      simp only [List.map_cons, List.sum_cons]
      omega
    · exact ih s

/-- Step relation of a recurring limit whose reset slot is aligned to the window. -/
structure AlignedStep {σ : Type} (run : σ → Charge → R σ) (Inv : σ → Prop) (cur last : σ → Nat)
    (A W : Nat) : Prop where
  inv : ∀ s c s', Inv s → run s c = .ok s' → Inv s'
  step : ∀ s c s', Inv s → run s c = .ok s' →
    (last s' = last s ∧ cur s' + c.amount = cur s) ∨
    (c.slot - last s > W ∧ last s' = c.slot / W * W ∧ cur s' + c.amount = A)

theorem aligned_bound_last {σ : Type} {run : σ → Charge → R σ} {Inv : σ → Prop}
    {cur last : σ → Nat} {A W : Nat} (H : AlignedStep run Inv cur last A W) (hW : 0 < W) (hi : Nat) :
    ∀ cs s, Inv s → (∀ c ∈ cs, c.slot ≤ hi) →
      Charge.total (play run s cs).2 + cur (play run s cs).1 ≤
        cur s + A * (hi / W - last s / W) := by
  intro cs
  induction cs with
  | nil => intro s _ _; simp [play, Charge.total]
  | cons c cs ih =>
    intro s hinv hc
    simp only [play]
    split
    · rename_i s' hs
      have h1 := ih s' (H.inv s c s' hinv hs) (fun x hx => hc x (List.mem_cons_of_mem _ hx))
      have hslot := hc c (List.mem_cons_self ..)
      simp only [Charge.total, List.map_cons, List.sum_cons] at h1 ⊢
      rcases H.step s c s' hinv hs with ⟨hl, hcur⟩ | ⟨hgt, hl, hcur⟩
      · rw [hl] at h1; omega
      · rw [hl, Nat.mul_div_cancel _ hW] at h1
        have e1 : last s / W + 1 ≤ c.slot / W := by
          have : last s + W ≤ c.slot := by omega
          have h2 := Nat.div_le_div_right (c := W) this
          rwa [Nat.add_div_right _ hW] at h2
        have e2 : c.slot / W ≤ hi / W := Nat.div_le_div_right hslot
        have e3 : A * (hi / W - c.slot / W) + A ≤ A * (hi / W - last s / W) := by
          rw [← Nat.mul_succ]
          exact Nat.mul_le_mul_left A (by omega)
        omega
    · exact ih s hinv (fun x hx => hc x (List.mem_cons_of_mem _ hx))

theorem aligned_bound {σ : Type} {run : σ → Charge → R σ} {Inv : σ → Prop}
    {cur last : σ → Nat} {A W : Nat} (H : AlignedStep run Inv cur last A W) (hW : 0 < W) (lo hi : Nat) :
    ∀ cs s, Inv s → (∀ c ∈ cs, lo ≤ c.slot ∧ c.slot ≤ hi) →
      Charge.total (play run s cs).2 + cur (play run s cs).1 ≤
        cur s + A * (1 + (hi / W - lo / W)) := by
  intro cs
  induction cs with
  | nil => intro s _ _; simp [play, Charge.total]
  | cons c cs ih =>
    intro s hinv hc
    simp only [play]
    split
    · rename_i s' hs
      have hinv' := H.inv s c s' hinv hs
      have hslot := hc c (List.mem_cons_self ..)
      have hrest : ∀ x ∈ cs, lo ≤ x.slot ∧ x.slot ≤ hi := fun x hx => hc x (List.mem_cons_of_mem _ hx)
      simp only [Charge.total, List.map_cons, List.sum_cons]
      rcases H.step s c s' hinv hs with ⟨hl, hcur⟩ | ⟨hgt, hl, hcur⟩
      · have h1 := ih s' hinv' hrest
        simp only [Charge.total] at h1
        omega
      · have h1 := aligned_bound_last H hW hi cs s' hinv' (fun x hx => (hrest x hx).2)
        simp only [Charge.total] at h1
        rw [hl, Nat.mul_div_cancel _ hW] at h1
        have e2 : lo / W ≤ c.slot / W := Nat.div_le_div_right hslot.1
        have e3 : A * (hi / W - c.slot / W) ≤ A * (hi / W - lo / W) :=
          Nat.mul_le_mul_left A (by omega)
        rw [Nat.mul_add, Nat.mul_one]
        omega
    · exact ih s hinv (fun x hx => hc x (List.mem_cons_of_mem _ hx))

/-- Step relation of a recurring limit that restarts its window at the charging slot; `wsub64` is the
wrapping elapsed-time computation. -/
structure SlidingStep {σ : Type} (run : σ → Charge → R σ) (Inv : σ → Prop) (cur last : σ → Nat)
    (A W : Nat) : Prop where
  inv : ∀ s c s', Inv s → run s c = .ok s' → Inv s'
  step : ∀ s c s', Inv s → run s c = .ok s' →
    (last s' = last s ∧ cur s' + c.amount = cur s) ∨
    (wsub64 c.slot (last s) > W ∧ last s' = c.slot ∧ cur s' + c.amount = A)

theorem wsub64_of_le {a b : Nat} (h : b ≤ a) (ha : a < 2 ^ 64) : wsub64 a b = a - b := by
  unfold wsub64
  have hb : b % 2 ^ 64 = b := Nat.mod_eq_of_lt (by omega)
  rw [hb]
  omega

theorem sliding_bound_last {σ : Type} {run : σ → Charge → R σ} {Inv : σ → Prop}
    {cur last : σ → Nat} {A W : Nat} (H : SlidingStep run Inv cur last A W) (hi : Nat)
    (hhi : hi < 2 ^ 64) :
    ∀ cs s, Inv s → (∀ c ∈ cs, last s ≤ c.slot ∧ c.slot ≤ hi) →
      cs.Pairwise (fun a b => a.slot ≤ b.slot) →
      Charge.total (play run s cs).2 + cur (play run s cs).1 ≤
        cur s + A * ((hi - last s) / (W + 1)) := by
  intro cs
  induction cs with
  | nil => intro s _ _ _; simp [play, Charge.total]
  | cons c cs ih =>
    intro s hinv hc hp
    have hp' := List.pairwise_cons.mp hp
    have hrest : ∀ x ∈ cs, last s ≤ x.slot ∧ x.slot ≤ hi := fun x hx => hc x (List.mem_cons_of_mem _ hx)
    simp only [play]
    split
    · rename_i s' hs
      have hinv' := H.inv s c s' hinv hs
      have hslot := hc c (List.mem_cons_self ..)
      simp only [Charge.total, List.map_cons, List.sum_cons]
      rcases H.step s c s' hinv hs with ⟨hl, hcur⟩ | ⟨hgt, hl, hcur⟩
      · have h1 := ih s' hinv' (by rw [hl]; exact hrest) hp'.2
        simp only [Charge.total] at h1
        rw [hl] at h1; omega
      · have h1 := ih s' hinv' (by
          rw [hl]; exact fun x hx => ⟨hp'.1 x hx, (hrest x hx).2⟩) hp'.2
        simp only [Charge.total] at h1
        rw [hl] at h1
        rw [wsub64_of_le hslot.1 (by omega)] at hgt
        have e1 : (hi - c.slot) / (W + 1) + 1 ≤ (hi - last s) / (W + 1) := by
          rw [← Nat.add_div_right _ (Nat.succ_pos W)]
          exact Nat.div_le_div_right (by omega)
        have e3 : A * ((hi - c.slot) / (W + 1)) + A ≤ A * ((hi - last s) / (W + 1)) := by
          rw [← Nat.mul_succ]
          exact Nat.mul_le_mul_left A e1
        omega
    · exact ih s hinv hrest hp'.2

theorem sliding_bound {σ : Type} {run : σ → Charge → R σ} {Inv : σ → Prop}
    {cur last : σ → Nat} {A W : Nat} (H : SlidingStep run Inv cur last A W) (lo hi : Nat)
    (hhi : hi < 2 ^ 64) :
    ∀ cs s, Inv s → (∀ c ∈ cs, lo ≤ c.slot ∧ c.slot ≤ hi) →
      cs.Pairwise (fun a b => a.slot ≤ b.slot) →
      Charge.total (play run s cs).2 + cur (play run s cs).1 ≤
        cur s + A * (1 + (hi - lo) / (W + 1)) := by
  intro cs
  induction cs with
  | nil => intro s _ _ _; simp [play, Charge.total]
  | cons c cs ih =>
    intro s hinv hc hp
    have hp' := List.pairwise_cons.mp hp
    have hrest : ∀ x ∈ cs, lo ≤ x.slot ∧ x.slot ≤ hi := fun x hx => hc x (List.mem_cons_of_mem _ hx)
    simp only [play]
    split
    · rename_i s' hs
      have hinv' := H.inv s c s' hinv hs
      have hslot := hc c (List.mem_cons_self ..)
      simp only [Charge.total, List.map_cons, List.sum_cons]
      rcases H.step s c s' hinv hs with ⟨hl, hcur⟩ | ⟨hgt, hl, hcur⟩
      · have h1 := ih s' hinv' hrest hp'.2
        simp only [Charge.total] at h1
        omega
      · have h1 := sliding_bound_last H hi hhi cs s' hinv' (by
          rw [hl]; exact fun x hx => ⟨hp'.1 x hx, (hrest x hx).2⟩) hp'.2
        simp only [Charge.total] at h1
        rw [hl] at h1
        have e1 : (hi - c.slot) / (W + 1) ≤ (hi - lo) / (W + 1) := Nat.div_le_div_right (by omega)
        have e3 := Nat.mul_le_mul_left A e1
        rw [Nat.mul_add, Nat.mul_one]
        omega
    · exact ih s hinv hrest hp'.2

end Verif
