import Verif.Proofs.Wait
import Verif.Proofs.AcceptSign
import Verif.Proofs.SignOut
import Verif.Proofs.Lifetime

/-! Lemmas for C123: charges keep limits in order and do not put off the time they are refilled. -/

namespace Verif
open Client

theorem refilled_kept {f w r c n slot s : Nat} (hs : slot ≤ s) (hc : c ≤ f) (hr : r ≤ s) :
    (refilled f w r c n slot).1 ≤ f ∧ (refilled f w r c n slot).2 ≤ s := by
  unfold refilled
  split
  · exact ⟨Nat.le_refl _, Nat.le_trans (Nat.div_mul_le_self ..) hs⟩
  · exact ⟨hc, hr⟩

theorem refilledDest_kept {f w r c n slot s : Nat} (hs : slot ≤ s) (hc : c ≤ f) (hr : r ≤ s) :
    (refilledDest f w r c n slot).1 ≤ f ∧ (refilledDest f w r c n slot).2 ≤ s := by
  unfold refilledDest
  split
  · exact ⟨Nat.le_refl _, hs⟩
  · exact ⟨hc, hr⟩

/-- Spending keeps a limit in order and ready. -/
theorem spend_kept {a a' : Action} {n slot s t : Nat} (hs : slot ≤ s) (h64 : s < 2 ^ 64) (hr : a.InRange) (h : a.InTime s) (hd : a.ReadyBy s t)
    (hsp : a.spend n slot = some a') : a'.InRange ∧ a'.InTime s ∧ a'.ReadyBy s t := by
  cases a with
  | solRecurringLimit f w r c =>
    simp only [Action.InRange, Action.InTime, Action.ReadyBy] at hr h hd
    simp only [Action.spend] at hsp
    split at hsp <;> cases hsp
    have := refilled_kept (w := w) (n := n) hs h.2 hd.1
    simp only [Action.InRange, Action.InTime, Action.ReadyBy]
    omega
  | stakeRecurringLimit f w r c =>
    simp only [Action.InRange, Action.InTime, Action.ReadyBy] at hr h hd
    simp only [Action.spend] at hsp
    split at hsp <;> cases hsp
    have := refilled_kept (w := w) (n := n) hs h.2 hd.1
    simp only [Action.InRange, Action.InTime, Action.ReadyBy]
    omega
  | tokenRecurringLimit m w f c r =>
    simp only [Action.InRange, Action.InTime, Action.ReadyBy] at hr h hd
    simp only [Action.spend] at hsp
    split at hsp <;> cases hsp
    have := refilled_kept (w := w) (n := n) hs h.2 hd.1
    simp only [Action.InRange, Action.InTime, Action.ReadyBy]
    omega
  | solRecurringDestinationLimit d f w r c =>
    simp only [Action.InRange, Action.InTime, Action.ReadyBy] at hr h hd
    simp only [Action.spend] at hsp
    split at hsp <;> cases hsp
    have := refilledDest_kept (w := w) (n := n) hs h.1 hd.1
    simp only [Action.InRange, Action.InTime, Action.ReadyBy]
    omega
  | tokenRecurringDestinationLimit m d f w r c =>
    simp only [Action.InRange, Action.InTime, Action.ReadyBy] at hr h hd
    simp only [Action.spend] at hsp
    split at hsp <;> cases hsp
    have := refilledDest_kept (w := w) (n := n) hs h.1 hd.1
    simp only [Action.InRange, Action.InTime, Action.ReadyBy]
    omega
  | programScope c l w r p k st nt fs fe =>
    simp only [Action.InRange, Action.InTime] at hr h
    have hdiv : slot / w * w ≤ slot := Nat.div_mul_le_self ..
    simp only [Action.spend] at hsp
    repeat' split at hsp
    all_goals cases hsp
    all_goals simp only [Action.InRange, Action.InTime, Action.ReadyBy]
    all_goals refine ⟨?_, h, trivial⟩
    all_goals omega
  | _ =>
    obtain ⟨_, k1, k2⟩ := Steady.spend (t := s) (by exact trivial) hr hsp
    refine ⟨k2, k1.inTime, ?_⟩
    simp only [Action.spend] at hsp
    first
      | cases hsp
      | (split at hsp <;> cases hsp; trivial)

theorem Takes.kept {acts acts' : List Act} {lim lim' : Action} {n slot s t : Nat} (hs : slot ≤ s) (h64 : s < 2 ^ 64) (h : InTime s acts)
    (hd : ReadyBy s t acts) (hsp : Takes acts acts' lim lim' n slot) : InTime s acts' ∧ ReadyBy s t acts' := by
  obtain ⟨hin, hsp, pre, post, rfl, rfl, _⟩ := hsp
  obtain ⟨k1, k2, k3⟩ := spend_kept hs h64 hin (h lim hin (by simp)) (hd lim hin (by simp)) hsp
  have old : ∀ a : Action, a.InRange → a.toAct ∈ pre ++ lim'.toAct :: post → a = lim' ∨ a.toAct ∈ pre ++ lim.toAct :: post := by
    intro a ha hm
    rcases List.mem_append.mp hm with hm | hm
    · exact .inr (by simp [hm])
    · rcases List.mem_cons.mp hm with hm | hm
      · exact .inl (toAct_inj ha k1 hm)
      · exact .inr (by simp [hm])
  constructor
  · intro a ha hm
    rcases old a ha hm with rfl | hm
    · exact k2
    · exact h a ha hm
  · intro a ha hm
    rcases old a ha hm with rfl | hm
    · exact k3
    · exact hd a ha hm

theorem chargeFirst_noKey {ty : Nat} {key : Bytes} (hk : repeatable ty = false) (f : Bytes → R Bytes) (acts : List Act) :
    chargeFirst ty key f acts = chargeFirst ty [] f acts := by
  induction acts with
  | nil => rfl
  | cons a as ih =>
    have : a.grants ty key ↔ a.grants ty [] := by
      unfold Act.grants
      simp [hk]
    unfold chargeFirst
    rw [ih]
    simp only [this]

theorem charge_type {ty : Nat} {key : Bytes} {n slot : Nat} {acts acts' : List Act}
    (h : chargeFirst ty key (chargeFn ty n slot) acts = .ok (some acts')) : ty ∈ limitTypes := by
  rcases chargeFirst_ok h with ⟨e, _⟩ | ⟨ab, a, aa, d, e, hg, hn, hf, ho⟩
  · cases e
  apply Classical.byContradiction
  intro ht
  simp only [limitTypes, List.mem_cons, List.not_mem_nil, or_false, not_or] at ht
  obtain ⟨t1, t2, t3, t4, t5, t6, t7, t8, t9, t10, t11⟩ := ht
  have : chargeFn ty n slot = fun _ => .error .invalidArgument := by
    unfold chargeFn
    rw [if_neg t1, if_neg t2, if_neg t11, if_neg t5, if_neg t6, if_neg t9, if_neg t10, if_neg t3, if_neg t4, if_neg t7, if_neg t8]
  rw [this] at hf
  cases hf

theorem Plays.kept {slot s t : Nat} {acts acts' : List Act} {cs : List Chg} (h : Plays slot acts cs acts') (hw : ∀ a ∈ acts, a.WF)
    (hs : slot ≤ s) (h64 : s < 2 ^ 64) (hi : InTime s acts) (hd : ReadyBy s t acts) : InTime s acts' ∧ ReadyBy s t acts' := by
  induction h with
  | nil => exact ⟨hi, hd⟩
  | @cons as as1 as' c cs hc hp ih =>
    have hw1 : ∀ a ∈ as1, a.WF := (Plays.charged (.cons c hc (.nil as1)) hw).wf hw
    have : ∃ lim lim', Takes as as1 lim lim' c.amount slot := by
      by_cases hk : repeatable c.ty = false
      · rw [chargeFirst_noKey hk] at hc
        obtain ⟨lim, lim', k, _⟩ := charge_takes hw (charge_type hc) (fun _ => rfl) hc
        exact ⟨lim, lim', k⟩
      · obtain ⟨lim, lim', k, _⟩ := charge_takes hw (charge_type hc) (fun e => absurd e hk) hc
        exact ⟨lim, lim', k⟩
    obtain ⟨lim, lim', k⟩ := this
    obtain ⟨g1, g2⟩ := k.kept hs h64 hi hd
    exact ih hw1 g1 g2

theorem kept_limits {s t : Nat} {acts acts' : List Act} (e : limitsOf acts' = limitsOf acts) (h : InTime s acts) (hd : ReadyBy s t acts) :
    InTime s acts' ∧ ReadyBy s t acts' := by
  have mem : ∀ a : Action, a.header.1 ≠ P.subAccount → a.header.1 ≠ P.subAccountV2All → a.toAct ∈ acts' → a.toAct ∈ acts := by
    intro a h1 h2 hm
    have : a.toAct ∈ limitsOf acts' := List.mem_filter.mpr ⟨hm, by simp [Action.toAct, h1, h2]⟩
    rw [e] at this
    exact (List.mem_filter.mp this).1
  have both : ∀ a : Action, a.InRange → a.toAct ∈ acts' → a.InTime s ∧ a.ReadyBy s t := by
    intro a ha hm
    by_cases h1 : a.header.1 = P.subAccount ∨ a.header.1 = P.subAccountV2All
    · cases a <;> first
        | exact ⟨trivial, trivial⟩
        | (exfalso; revert h1; simp only [Action.header]; decide)
    · have hm' := mem a (fun e => h1 (.inl e)) (fun e => h1 (.inr e)) hm
      exact ⟨h a ha hm', hd a ha hm'⟩
  exact ⟨fun a ha hm => (both a ha hm).1, fun a ha hm => (both a ha hm).2⟩

theorem Restored.recovered {s t : Nat} {acts acts2 : List Act} (hi : InTime s acts2) (hd : ReadyBy s t acts2) (h : All2 Restored acts acts2) :
    All2 (Recovered t) acts acts2 := by
  induction h with
  | nil => exact .nil
  | @cons x y l l' hx hl ih =>
    refine .cons ?_ (ih (fun a ha hm => hi a ha (List.mem_cons_of_mem _ hm)) (fun a ha hm => hd a ha (List.mem_cons_of_mem _ hm)))
    rcases hx with e | ⟨a, b, ha, hb, hab, rfl, rfl⟩
    · exact .inl e
    · have k1 := hi b hb (List.mem_cons_self ..)
      have k2 := hd b hb (List.mem_cons_self ..)
      refine .inr ⟨a, b, ha, hb, ?_, rfl, rfl⟩
      cases hab with
      | sol hc => exact .sol k1.1 hc k1.2 (by have := k2.1; have := k2.2; omega)
      | stake hc => exact .stake k1.1 hc k1.2 (by have := k2.1; have := k2.2; omega)
      | token hc => exact .token k1.1 hc k1.2 (by have := k2.1; have := k2.2; omega)
      | solDest hc => exact .solDest hc k1.1 (by have := k2.1; have := k2.2; omega)
      | tokenDest hc => exact .tokenDest hc k1.1 (by have := k2.1; have := k2.2; omega)

end Verif
