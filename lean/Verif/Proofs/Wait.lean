import Verif.Spec.Wait
import Verif.Proofs.More
import Verif.Proofs.SettleAll

/-! Lemmas for C122: what the limits of a role cover at one slot, they cover at any later one. -/

namespace Verif
open Client

/-- Permissions on which the slot has no bearing. -/
def Steady : Action → Prop
  | .solRecurringLimit .. => False
  | .stakeRecurringLimit .. => False
  | .tokenRecurringLimit .. => False
  | .solRecurringDestinationLimit .. => False
  | .tokenRecurringDestinationLimit .. => False
  | .programScope _ _ _ _ _ _ st _ _ _ => st % 256 ≠ 2
  | _ => True

theorem Steady.spend {a a' : Action} {n s t : Nat} (h : Steady a) (hr : a.InRange) (hs : a.spend n s = some a') :
    a.spend n t = some a' ∧ Steady a' ∧ a'.InRange := by
  cases a with
  | programScope c l w r p tt st nt fs fe =>
    simp only [Steady] at h
    simp only [Action.InRange] at hr
    simp only [Action.spend] at hs ⊢
    by_cases h0 : st % 256 = 0
    · rw [if_pos h0] at hs ⊢
      cases hs
      exact ⟨rfl, h, hr⟩
    · by_cases h1 : st % 256 = 1
      · rw [if_neg h0, if_pos h1] at hs ⊢
        split at hs <;> cases hs
        rename_i hc
        rw [if_pos hc]
        exact ⟨rfl, h, ⟨by omega, hr.2⟩⟩
      · rw [if_neg h0, if_neg h1, if_neg h] at hs
        cases hs
  | solRecurringLimit => exact absurd h id
  | stakeRecurringLimit => exact absurd h id
  | tokenRecurringLimit => exact absurd h id
  | solRecurringDestinationLimit => exact absurd h id
  | tokenRecurringDestinationLimit => exact absurd h id
  | solLimit a => 
    simp only [Action.spend] at hs ⊢
    simp only [Action.InRange] at hr
    split at hs <;> cases hs
    rename_i hc
    rw [if_pos hc]
    exact ⟨rfl, trivial, by simp only [Action.InRange]; omega⟩
  | stakeLimit a => 
    simp only [Action.spend] at hs ⊢
    simp only [Action.InRange] at hr
    split at hs <;> cases hs
    rename_i hc
    rw [if_pos hc]
    exact ⟨rfl, trivial, by simp only [Action.InRange]; omega⟩
  | tokenLimit m a => 
    simp only [Action.spend] at hs ⊢
    simp only [Action.InRange] at hr
    split at hs <;> cases hs
    rename_i hc
    rw [if_pos hc]
    exact ⟨rfl, trivial, by simp only [Action.InRange]; omega⟩
  | solDestinationLimit d a => 
    simp only [Action.spend] at hs ⊢
    simp only [Action.InRange] at hr
    split at hs <;> cases hs
    rename_i hc
    rw [if_pos hc]
    exact ⟨rfl, trivial, by simp only [Action.InRange]; omega⟩
  | tokenDestinationLimit m d a => 
    simp only [Action.spend] at hs ⊢
    simp only [Action.InRange] at hr
    split at hs <;> cases hs
    rename_i hc
    rw [if_pos hc]
    exact ⟨rfl, trivial, by simp only [Action.InRange]; omega⟩
  | _ => simp only [Action.spend] at hs; cases hs

theorem Steady.inTime {a : Action} {s : Nat} (h : Steady a) : a.InTime s := by
  cases a with
  | programScope => exact fun e => absurd e h
  | solRecurringLimit => exact absurd h id
  | stakeRecurringLimit => exact absurd h id
  | tokenRecurringLimit => exact absurd h id
  | solRecurringDestinationLimit => exact absurd h id
  | tokenRecurringDestinationLimit => exact absurd h id
  | _ => trivial

/-- The first limit at slot `s` allows no more than the second at slot `t`. -/
inductive Waits (s t : Nat) : Action → Action → Prop where
  | sol {f w r c r' c' : Nat} : 0 < w → c ≤ f → c' ≤ f → (s - r > w → t - r' > w) → (s - r ≤ w → t - r' > w ∨ c ≤ c') →
      Waits s t (.solRecurringLimit f w r c) (.solRecurringLimit f w r' c')
  | stake {f w r c r' c' : Nat} : 0 < w → c ≤ f → c' ≤ f → (s - r > w → t - r' > w) → (s - r ≤ w → t - r' > w ∨ c ≤ c') →
      Waits s t (.stakeRecurringLimit f w r c) (.stakeRecurringLimit f w r' c')
  | token {m : Key} {f w r c r' c' : Nat} : 0 < w → c ≤ f → c' ≤ f → (s - r > w → t - r' > w) → (s - r ≤ w → t - r' > w ∨ c ≤ c') →
      Waits s t (.tokenRecurringLimit m w f c r) (.tokenRecurringLimit m w f c' r')
  | solDest {d : Key} {f w r c r' c' : Nat} : c ≤ f → c' ≤ f → ((s + 2 ^ 64 - r) % 2 ^ 64 > w → (t + 2 ^ 64 - r') % 2 ^ 64 > w) →
      ((s + 2 ^ 64 - r) % 2 ^ 64 ≤ w → (t + 2 ^ 64 - r') % 2 ^ 64 > w ∨ c ≤ c') →
      Waits s t (.solRecurringDestinationLimit d f w r c) (.solRecurringDestinationLimit d f w r' c')
  | tokenDest {m d : Key} {f w r c r' c' : Nat} : c ≤ f → c' ≤ f → ((s + 2 ^ 64 - r) % 2 ^ 64 > w → (t + 2 ^ 64 - r') % 2 ^ 64 > w) →
      ((s + 2 ^ 64 - r) % 2 ^ 64 ≤ w → (t + 2 ^ 64 - r') % 2 ^ 64 > w ∨ c ≤ c') →
      Waits s t (.tokenRecurringDestinationLimit m d f w r c) (.tokenRecurringDestinationLimit m d f w r' c')
  | scope {l w r c r' c' st nt fs fe : Nat} {p k : Bytes} : st % 256 = 2 → 0 < w → (s - r > w → t - r' > w) → (s - r ≤ w → t - r' > w ∨ c' ≤ c) →
      Waits s t (.programScope c l w r p k st nt fs fe) (.programScope c' l w r' p k st nt fs fe)

section
variable {s t : Nat}

theorem Waits.header {a b : Action} (h : Waits s t a b) : b.header = a.header := by cases h <;> rfl
theorem Waits.key {a b : Action} (h : Waits s t a b) : b.key = a.key := by cases h <;> rfl

theorem refilled_wait {f w r c r' c' n : Nat} (hw : 0 < w) (hc : c ≤ f) (hc' : c' ≤ f) (h1 : s - r > w → t - r' > w)
    (h2 : s - r ≤ w → t - r' > w ∨ c ≤ c') (hs : s < 2 ^ 64) (ht : t < 2 ^ 64) (hr : r < 2 ^ 64) (hr' : r' < 2 ^ 64) (h : n ≤ (refilled f w r c n s).1) :
    n ≤ (refilled f w r' c' n t).1 ∧ (refilled f w r' c' n t).1 ≤ f ∧ (refilled f w r c n s).1 ≤ f ∧ s - (refilled f w r c n s).2 ≤ w ∧
      (refilled f w r c n s).1 ≤ (refilled f w r' c' n t).1 ∧ (refilled f w r c n s).2 < 2 ^ 64 ∧ (refilled f w r' c' n t).2 < 2 ^ 64 := by
  have q1 : s / w * w < 2 ^ 64 := Nat.lt_of_le_of_lt (Nat.div_mul_le_self s w) hs
  have q2 : t / w * w < 2 ^ 64 := Nat.lt_of_le_of_lt (Nat.div_mul_le_self t w) ht
  have q3 : s < s / w * w + w := Nat.lt_div_mul_add hw
  unfold refilled at h ⊢
  by_cases e1 : s - r > w ∧ n ≤ f <;> by_cases e2 : t - r' > w ∧ n ≤ f <;> 
    (first | rw [if_pos e1] at h ⊢ | rw [if_neg e1] at h ⊢) <;> (first | rw [if_pos e2] | rw [if_neg e2]) <;> simp only at h ⊢ <;> omega

theorem refilledDest_wait {f w r c r' c' n : Nat} (hc : c ≤ f) (hc' : c' ≤ f) (h1 : (s + 2 ^ 64 - r) % 2 ^ 64 > w → (t + 2 ^ 64 - r') % 2 ^ 64 > w)
    (h2 : (s + 2 ^ 64 - r) % 2 ^ 64 ≤ w → (t + 2 ^ 64 - r') % 2 ^ 64 > w ∨ c ≤ c') (hs : s < 2 ^ 64) (ht : t < 2 ^ 64) (hr : r < 2 ^ 64) (hr' : r' < 2 ^ 64)
    (h : n ≤ (refilledDest f w r c n s).1) :
    n ≤ (refilledDest f w r' c' n t).1 ∧ (refilledDest f w r' c' n t).1 ≤ f ∧ (refilledDest f w r c n s).1 ≤ f ∧
      (s + 2 ^ 64 - (refilledDest f w r c n s).2) % 2 ^ 64 ≤ w ∧
      (refilledDest f w r c n s).1 ≤ (refilledDest f w r' c' n t).1 ∧ (refilledDest f w r c n s).2 < 2 ^ 64 ∧ (refilledDest f w r' c' n t).2 < 2 ^ 64 := by
  unfold refilledDest at h ⊢
  by_cases e1 : (s + 2 ^ 64 - r) % 2 ^ 64 > w ∧ n ≤ f <;> by_cases e2 : (t + 2 ^ 64 - r') % 2 ^ 64 > w ∧ n ≤ f <;>
    
    (first | rw [if_pos e1] at h ⊢ | rw [if_neg e1] at h ⊢) <;> (first | rw [if_pos e2] | rw [if_neg e2]) <;> simp only at h ⊢ <;> omega

theorem Waits.spend {a b a' : Action} {n : Nat} (h : Waits s t a b) (hs : s < 2 ^ 64) (ht : t < 2 ^ 64) (ha : a.InRange) (hb : b.InRange)
    (h1 : a.spend n s = some a') : ∃ b', b.spend n t = some b' ∧ Waits s t a' b' ∧ a'.InRange ∧ b'.InRange := by
  cases h with
  | @sol f w r c r' c' hw hc hc' g1 g2 =>
    simp only [Action.spend] at h1 ⊢
    simp only [Action.InRange] at ha hb
    split at h1 <;> cases h1
    rename_i hn
    obtain ⟨k1, k2, k3, k4, k5, k6, k7⟩ := refilled_wait hw hc hc' g1 g2 hs ht (by omega) (by omega) hn.1
    rw [if_pos ⟨k1, by omega⟩]
    exact ⟨_, rfl, .sol hw (by omega) (by omega) (by omega) (by omega), by simp only [Action.InRange]; omega, by simp only [Action.InRange]; omega⟩
  | @stake f w r c r' c' hw hc hc' g1 g2 =>
    simp only [Action.spend] at h1 ⊢
    simp only [Action.InRange] at ha hb
    split at h1 <;> cases h1
    rename_i hn
    obtain ⟨k1, k2, k3, k4, k5, k6, k7⟩ := refilled_wait hw hc hc' g1 g2 hs ht (by omega) (by omega) hn.1
    rw [if_pos ⟨k1, by omega⟩]
    exact ⟨_, rfl, .stake hw (by omega) (by omega) (by omega) (by omega), by simp only [Action.InRange]; omega, by simp only [Action.InRange]; omega⟩
  | @token m f w r c r' c' hw hc hc' g1 g2 =>
    simp only [Action.spend] at h1 ⊢
    simp only [Action.InRange] at ha hb
    split at h1 <;> cases h1
    rename_i hn
    obtain ⟨k1, k2, k3, k4, k5, k6, k7⟩ := refilled_wait hw hc hc' g1 g2 hs ht (by omega) (by omega) hn.1
    rw [if_pos ⟨k1, by omega⟩]
    exact ⟨_, rfl, .token hw (by omega) (by omega) (by omega) (by omega), by simp only [Action.InRange]; omega, by simp only [Action.InRange]; omega⟩
  | @solDest d f w r c r' c' hc hc' g1 g2 =>
    simp only [Action.spend] at h1 ⊢
    simp only [Action.InRange] at ha hb
    split at h1 <;> cases h1
    rename_i hn
    obtain ⟨k1, k2, k3, k4, k5, k6, k7⟩ := refilledDest_wait hc hc' g1 g2 hs ht (by omega) (by omega) hn
    rw [if_pos k1]
    exact ⟨_, rfl, .solDest (by omega) (by omega) (fun h => absurd h (by omega)) (fun _ => .inr (by omega)), by simp only [Action.InRange]; omega,
      by simp only [Action.InRange]; omega⟩
  | @tokenDest m d f w r c r' c' hc hc' g1 g2 =>
    simp only [Action.spend] at h1 ⊢
    simp only [Action.InRange] at ha hb
    split at h1 <;> cases h1
    rename_i hn
    obtain ⟨k1, k2, k3, k4, k5, k6, k7⟩ := refilledDest_wait hc hc' g1 g2 hs ht (by omega) (by omega) hn
    rw [if_pos k1]
    exact ⟨_, rfl, .tokenDest (by omega) (by omega) (fun h => absurd h (by omega)) (fun _ => .inr (by omega)), by simp only [Action.InRange]; omega,
      by simp only [Action.InRange]; omega⟩
  | @scope l w r c r' c' st nt fs fe p k hst hw g1 g2 =>
    have q1 : s / w * w < 2 ^ 64 := Nat.lt_of_le_of_lt (Nat.div_mul_le_self s w) hs
    have q2 : t / w * w < 2 ^ 64 := Nat.lt_of_le_of_lt (Nat.div_mul_le_self t w) ht
    have q3 : s < s / w * w + w := Nat.lt_div_mul_add hw
    simp only [Action.spend] at h1 ⊢
    simp only [Action.InRange] at ha hb
    have n0 : ¬ st % 256 = 0 := by omega
    have n1 : ¬ st % 256 = 1 := by omega
    have nw : ¬ w = 0 := by omega
    rw [if_neg n0, if_neg n1, if_pos hst] at h1 ⊢
    by_cases e1 : s - r > w
    · rw [if_pos e1, if_neg nw] at h1
      rw [if_pos (g1 e1), if_neg nw]
      split at h1 <;> cases h1
      rename_i hn
      rw [if_pos hn]
      exact ⟨_, rfl, .scope hst hw (by omega) (fun _ => .inr (Nat.le_refl _)), by simp only [Action.InRange]; omega, by simp only [Action.InRange]; omega⟩
    · rw [if_neg e1] at h1
      split at h1 <;> cases h1
      rename_i hn
      by_cases e2 : t - r' > w
      · rw [if_pos e2, if_neg nw, if_pos (by omega)]
        exact ⟨_, rfl, .scope hst hw (by omega) (fun _ => .inr (by omega)), by simp only [Action.InRange]; omega, by simp only [Action.InRange]; omega⟩
      · have := g2 (by omega)
        rw [if_neg e2, if_pos (by omega)]
        exact ⟨_, rfl, .scope hst hw (by omega) (fun _ => .inr (by omega)), by simp only [Action.InRange]; omega, by simp only [Action.InRange]; omega⟩

/-! ## Lists of permissions -/

/-- The stored permission at slot `s` allows no more than the second at slot `t`. -/
def WaitsAct (s t : Nat) (x y : Act) : Prop :=
  (y = x ∧ ∀ a : Action, a.InRange → x = a.toAct → Steady a) ∨ ∃ a b : Action, a.InRange ∧ b.InRange ∧ Waits s t a b ∧ x = a.toAct ∧ y = b.toAct

theorem WaitsAct.ty {x y : Act} (h : WaitsAct s t x y) : y.ty = x.ty := by
  rcases h with ⟨rfl, _⟩ | ⟨a, b, _, _, h, rfl, rfl⟩
  · rfl
  · show b.header.1 = a.header.1
    rw [h.header]

theorem WaitsAct.keyOf {x y : Act} (h : WaitsAct s t x y) (hr : repeatable x.ty = true) : keyOf x.ty y.data = keyOf x.ty x.data := by
  rcases h with ⟨rfl, _⟩ | ⟨a, b, ha, hb, h, rfl, rfl⟩
  · rfl
  · have e1 := C69_key a ha hr
    have e2 := C69_key b hb (by rw [h.header]; exact hr)
    rw [h.header, h.key] at e2
    exact e2.trans e1.symm

theorem WaitsAct.grants {x y : Act} (h : WaitsAct s t x y) (ty : Nat) (k : Bytes) : y.grants ty k ↔ x.grants ty k := by
  unfold Act.grants
  rw [h.ty]
  constructor
  · rintro ⟨e, f⟩
    subst e
    exact ⟨rfl, fun hr => by rw [← h.keyOf hr]; exact f hr⟩
  · rintro ⟨e, f⟩
    subst e
    exact ⟨rfl, fun hr => by rw [h.keyOf hr]; exact f hr⟩

theorem WaitsAct.take32 {x y : Act} (h : WaitsAct s t x y) (ht : x.ty = P.tokenDestinationLimit ∨ x.ty = P.tokenRecurringDestinationLimit) :
    y.data.take 32 = x.data.take 32 := by
  rcases h with ⟨rfl, _⟩ | ⟨a, b, ha, hb, h, rfl, rfl⟩
  · rfl
  · cases h with
    | tokenDest => simp only [Action.InRange] at ha; simp [Action.toAct, Action.bytes, ha.1]
    | _ => exfalso; revert ht; simp only [Action.toAct, Action.header]; decide

theorem WaitsAct.same {x y : Act} (h : WaitsAct s t x y) (ht : x.ty = P.programAll ∨ x.ty = P.programCurated ∨ x.ty = P.program) : y = x := by
  rcases h with ⟨e, _⟩ | ⟨a, b, _, _, h, rfl, rfl⟩
  · exact e
  · exfalso
    revert ht
    cases h <;> simp only [Action.toAct, Action.header] <;> decide

theorem WaitsAct.field {x y : Act} (h : WaitsAct s t x y) (ht : x.ty = P.programScope) : y.data.drop 48 = x.data.drop 48 := by
  rcases h with ⟨rfl, _⟩ | ⟨a, b, ha, hb, h, rfl, rfl⟩
  · rfl
  · cases h with
    | scope =>
      simp only [Action.toAct, Action.bytes, List.append_assoc]
      have dr : ∀ (a b c d e f g h : Bytes) (r : Bytes), a.length = 16 → b.length = 16 → c.length = 8 → d.length = 8 →
          (a ++ (b ++ (c ++ (d ++ r)))).drop 48 = r := by
        intro a b c d _ _ _ _ r h1 h2 h3 h4
        rw [← List.append_assoc, ← List.append_assoc, ← List.append_assoc, List.drop_left' (by simp [h1, h2, h3, h4])]
      rw [dr _ _ _ _ [] [] [] [] _ (natLE_length ..) (natLE_length ..) (natLE_length ..) (natLE_length ..),
        dr _ _ _ _ [] [] [] [] _ (natLE_length ..) (natLE_length ..) (natLE_length ..) (natLE_length ..)]
    | _ => exfalso; revert ht; simp only [Action.toAct, Action.header]; decide

theorem InTime.waitsAct {acts : List Act} (hs : s ≤ t) (ht : t < 2 ^ 64) (h : InTime s acts) {x : Act} (hm : x ∈ acts) : WaitsAct s t x x := by
  by_cases hx : ∀ a : Action, a.InRange → x = a.toAct → Steady a
  · exact .inl ⟨rfl, hx⟩
  · simp only [not_forall] at hx
    obtain ⟨a, ha, rfl, hn⟩ := hx
    have hi := h a ha hm
    refine .inr ⟨a, a, ha, ha, ?_, rfl, rfl⟩
    cases a with
    | solRecurringLimit f w r c => exact .sol hi.1 hi.2 hi.2 (fun _ => by omega) (fun _ => .inr (Nat.le_refl _))
    | stakeRecurringLimit f w r c => exact .stake hi.1 hi.2 hi.2 (fun _ => by omega) (fun _ => .inr (Nat.le_refl _))
    | tokenRecurringLimit m w f c r => exact .token hi.1 hi.2 hi.2 (fun _ => by omega) (fun _ => .inr (Nat.le_refl _))
    | solRecurringDestinationLimit d f w r c =>
      simp only [Action.InTime] at hi
      exact .solDest hi.1 hi.1 (fun _ => by omega) (fun _ => .inr (Nat.le_refl _))
    | tokenRecurringDestinationLimit m d f w r c =>
      simp only [Action.InTime] at hi
      exact .tokenDest hi.1 hi.1 (fun _ => by omega) (fun _ => .inr (Nat.le_refl _))
    | programScope c l w r p k st nt fs fe =>
      simp only [Steady, not_not] at hn
      exact .scope hn (hi hn) (fun _ => by omega) (fun _ => .inr (Nat.le_refl _))
    | _ => exact absurd trivial hn

theorem InTime.waits {acts : List Act} (hs : s ≤ t) (ht : t < 2 ^ 64) (h : InTime s acts) : All2 (WaitsAct s t) acts acts := by
  suffices hh : ∀ l : List Act, (∀ x ∈ l, x ∈ acts) → All2 (WaitsAct s t) l l from hh acts fun _ => id
  intro l
  induction l with
  | nil => intro _; exact .nil
  | cons x l ih => exact fun hm => .cons (h.waitsAct hs ht (hm _ List.mem_cons_self)) (ih fun y hy => hm y (List.mem_cons_of_mem _ hy))

/-- A limit that is due has in full what it ever had. -/
theorem Spent.waits {a b : Action} (ht : t < 2 ^ 64) (h : Spent t a b) : Waits s t a b := by
  cases h with
  | sol h1 h2 h3 h4 => exact .sol h1 h2 h3 (fun _ => h4) fun _ => .inl h4
  | stake h1 h2 h3 h4 => exact .stake h1 h2 h3 (fun _ => h4) fun _ => .inl h4
  | token h1 h2 h3 h4 => exact .token h1 h2 h3 (fun _ => h4) fun _ => .inl h4
  | solDest h2 h3 h4 => exact .solDest h2 h3 (fun _ => by omega) fun _ => .inl (by omega)
  | tokenDest h2 h3 h4 => exact .tokenDest h2 h3 (fun _ => by omega) fun _ => .inl (by omega)

theorem Recovered.waits {acts acts2 : List Act} (hs : s ≤ t) (ht : t < 2 ^ 64) (h : InTime s acts) (hr : All2 (Recovered t) acts acts2) :
    All2 (WaitsAct s t) acts acts2 := by
  have hh : ∀ {l l2 : List Act}, All2 (Recovered t) l l2 → (∀ x ∈ l, x ∈ acts) → All2 (WaitsAct s t) l l2 := by
    intro l l2 hr
    induction hr with
    | nil => intro _; exact .nil
    | cons h1 _ ih =>
      intro hm
      refine .cons ?_ (ih fun y hy => hm y (List.mem_cons_of_mem _ hy))
      rcases h1 with rfl | ⟨a, b, ha, hb, h1, rfl, rfl⟩
      · exact h.waitsAct hs ht (hm _ List.mem_cons_self)
      · exact .inr ⟨a, b, ha, hb, h1.waits ht, rfl, rfl⟩
  exact hh hr fun _ => id

/-- The scopes are the same. -/
theorem Recovered.scope {acts acts2 : List Act} (hr : All2 (Recovered t) acts acts2) (k : Key) :
    payload? acts2 P.programScope k = payload? acts P.programScope k := by
  unfold payload?
  induction hr with
  | nil => rfl
  | @cons x y xs ys h1 _ ih =>
    rw [List.find?_cons, List.find?_cons]
    rcases h1 with rfl | ⟨a, b, _, _, h1, rfl, rfl⟩
    · split
      · rfl
      · exact ih
    · have g : ¬ a.toAct.grants P.programScope k ∧ ¬ b.toAct.grants P.programScope k := by
        unfold Act.grants
        cases h1 <;> simp only [Action.toAct, Action.header] <;> exact ⟨fun g => absurd g.1 (by decide), fun g => absurd g.1 (by decide)⟩
      simp only [g.1, g.2, decide_false]
      exact ih

variable {acts acts' acts2 mid : List Act} {n : Nat}

theorem TakesOf.wait {t1 t2 : Nat} {key : Bytes} (hs : s < 2 ^ 64) (ht : t < 2 ^ 64)
    (h : TakesOf t1 t2 key acts mid n s) (hb : All2 (WaitsAct s t) acts acts2) : ∃ mid2, TakesOf t1 t2 key acts2 mid2 n t ∧ All2 (WaitsAct s t) mid mid2 := by
  obtain ⟨lim, lim', ⟨hin, hsp, pre, post, rfl, rfl, hpre⟩, hkey, hkind⟩ := h
  obtain ⟨pre2, y, post2, rfl, g1, g2, g3⟩ := hb.split
  obtain ⟨lim2, lim2', e1, e2, e3, e4, e5, e6⟩ : ∃ lim2 lim2' : Action, y = lim2.toAct ∧ lim2.InRange ∧ lim2.spend n t = some lim2' ∧ lim2.header = lim.header ∧
      lim2.key = lim.key ∧ WaitsAct s t lim'.toAct lim2'.toAct := by
    rcases g2 with ⟨rfl, hst⟩ | ⟨a, b, ha, hb', hr, e1, rfl⟩
    · obtain ⟨k1, k2, k3⟩ := (hst lim hin rfl).spend (t := t) hin hsp
      refine ⟨lim, lim', rfl, hin, k1, rfl, rfl, .inl ⟨rfl, fun a ha e => ?_⟩⟩
      have := toAct_inj k3 ha e
      subst this
      exact k2
    · have := toAct_inj hin ha e1
      subst this
      obtain ⟨b', f1, f2, f3, f4⟩ := hr.spend hs ht ha hb' hsp
      exact ⟨b, b', rfl, hb', f1, hr.header, hr.key, .inr ⟨_, _, f3, f4, f2, rfl, rfl⟩⟩
  subst e1
  refine ⟨pre2 ++ lim2'.toAct :: post2, ⟨lim2, lim2', ⟨e2, e3, pre2, post2, rfl, rfl, ?_⟩, by rw [e5]; exact hkey, ?_⟩, g1.append (.cons e6 g3)⟩
  · intro x hx
    obtain ⟨x', hx', hr⟩ := g1.left_of hx
    rw [e4, e5, hr.grants]
    exact hpre x' hx'
  · rw [e4]
    refine hkind.imp id fun ⟨h, h'⟩ => ⟨h, fun x hx => ?_⟩
    obtain ⟨x', hx', hr⟩ := hb.left_of hx
    rw [hr.grants]
    exact h' x' hx'

theorem NoneOf.wait {t1 t2 : Nat} {key : Bytes} (h : NoneOf t1 t2 key acts) (hb : All2 (WaitsAct s t) acts acts2) : NoneOf t1 t2 key acts2 := by
  intro x hx
  obtain ⟨x', hx', hr⟩ := hb.left_of hx
  rw [hr.grants, hr.grants]
  exact h x' hx'

theorem NoSolDest.wait (hb : All2 (WaitsAct s t) acts acts2) : NoSolDest acts2 ↔ NoSolDest acts := by
  constructor
  · intro h x hx
    obtain ⟨y, hy, hr⟩ := hb.right_of hx
    rw [← hr.ty]
    exact h y hy
  · intro h x hx
    obtain ⟨x', hx', hr⟩ := hb.left_of hx
    rw [hr.ty]
    exact h x' hx'

theorem NoTokenDest.wait {mint : Key} (hb : All2 (WaitsAct s t) acts acts2) : NoTokenDest mint acts2 ↔ NoTokenDest mint acts := by
  constructor
  · intro h x hx ht
    obtain ⟨y, hy, hr⟩ := hb.right_of hx
    rw [← hr.take32 ht]
    exact h y hy (by rw [hr.ty]; exact ht)
  · intro h x hx ht
    obtain ⟨x', hx', hr⟩ := hb.left_of hx
    rw [hr.ty] at ht
    rw [hr.take32 ht]
    exact h x' hx' ht

theorem TakesEach.wait {one one' : Key → List Act → List Act → Nat → Prop}
    (ho : ∀ d acts mid acts2 n, one d acts mid n → All2 (WaitsAct s t) acts acts2 → ∃ mid2, one' d acts2 mid2 n ∧ All2 (WaitsAct s t) mid mid2) {l : List (Key × Nat)}
    (h : TakesEach one acts l acts') : ∀ {acts2 : List Act}, All2 (WaitsAct s t) acts acts2 → ∃ acts2', TakesEach one' acts2 l acts2' ∧ All2 (WaitsAct s t) acts' acts2' := by
  induction h with
  | nil => intro acts2 hb; exact ⟨acts2, .nil, hb⟩
  | cons h1 _ ih =>
    intro acts2 hb
    obtain ⟨mid2, k1, k2⟩ := ho _ _ _ _ _ h1 hb
    obtain ⟨e, k3, k4⟩ := ih k2
    exact ⟨e, .cons k1 k3, k4⟩

theorem SolSettled.wait {paid : List (Key × Nat)} (hs : s < 2 ^ 64) (ht : t < 2 ^ 64) (h : SolSettled paid acts acts' n s)
    (hb : All2 (WaitsAct s t) acts acts2) : ∃ acts2', SolSettled paid acts2 acts2' n t ∧ All2 (WaitsAct s t) acts' acts2' := by
  obtain ⟨mid, h1, h2⟩ := h
  obtain ⟨mid2, g1, g2⟩ : ∃ mid2, (SolTakes acts2 mid2 n t ∨ (mid2 = acts2 ∧ NoneOf P.solLimit P.solRecurringLimit [] acts2 ∧ ¬ NoSolDest acts2)) ∧
      All2 (WaitsAct s t) mid mid2 := by
    rcases h1 with h1 | ⟨rfl, h1, h3⟩
    · obtain ⟨mid2, e1, e2⟩ := TakesOf.wait hs ht h1 hb
      exact ⟨mid2, .inl e1, e2⟩
    · exact ⟨acts2, .inr ⟨rfl, h1.wait hb, by rw [NoSolDest.wait hb]; exact h3⟩, hb⟩
  rcases h2 with ⟨h2, rfl⟩ | ⟨h2, h3, h4, h5⟩
  · exact ⟨mid2, ⟨mid2, g1, .inl ⟨(NoSolDest.wait hb).mpr h2, rfl⟩⟩, g2⟩
  · obtain ⟨e, e1, e2⟩ := TakesEach.wait (one := fun d a a' n => SolDestTakes d a a' n s) (one' := fun d a a' n => SolDestTakes d a a' n t)
      (fun d a m a2 n h hb => TakesOf.wait hs ht h hb) h5 g2
    exact ⟨e, ⟨mid2, g1, .inr ⟨by rw [NoSolDest.wait hb]; exact h2, h3, h4, e1⟩⟩, e2⟩

theorem TokensSettled.wait {mint : Key} {paid : List (Key × Nat)} (hs : s < 2 ^ 64) (ht : t < 2 ^ 64)
    (h : TokensSettled mint paid acts acts' n s) (hb : All2 (WaitsAct s t) acts acts2) : ∃ acts2', TokensSettled mint paid acts2 acts2' n t ∧ All2 (WaitsAct s t) acts' acts2' := by
  obtain ⟨mid, h1, h2⟩ := h
  obtain ⟨mid2, g1, g2⟩ : ∃ mid2, (TokenTakes mint acts2 mid2 n t ∨ (mid2 = acts2 ∧ NoneOf P.tokenLimit P.tokenRecurringLimit mint acts2 ∧
      ¬ NoTokenDest mint acts2)) ∧ All2 (WaitsAct s t) mid mid2 := by
    rcases h1 with h1 | ⟨rfl, h1, h3⟩
    · obtain ⟨mid2, e1, e2⟩ := TakesOf.wait hs ht h1 hb
      exact ⟨mid2, .inl e1, e2⟩
    · exact ⟨acts2, .inr ⟨rfl, h1.wait hb, by rw [NoTokenDest.wait hb]; exact h3⟩, hb⟩
  rcases h2 with ⟨h2, rfl⟩ | ⟨h2, h3, h4, h5⟩
  · exact ⟨mid2, ⟨mid2, g1, .inl ⟨(NoTokenDest.wait hb).mpr h2, rfl⟩⟩, g2⟩
  · obtain ⟨e, e1, e2⟩ := TakesEach.wait (one := fun d a a' n => TokenDestTakes mint d a a' n s) (one' := fun d a a' n => TokenDestTakes mint d a a' n t)
      (fun d a m a2 n h hb => TakesOf.wait hs ht h hb) h5 g2
    exact ⟨e, ⟨mid2, g1, .inr ⟨by rw [NoTokenDest.wait hb]; exact h2, h3, h4, e1⟩⟩, e2⟩

theorem has_wait {ty : Nat} (hb : All2 (WaitsAct s t) acts acts2) : (∃ x ∈ acts2, x.ty = ty) ↔ ∃ x ∈ acts, x.ty = ty := by
  constructor
  · rintro ⟨x, hx, e⟩
    obtain ⟨y, hy, hr⟩ := hb.left_of hx
    exact ⟨y, hy, hr.ty ▸ e⟩
  · rintro ⟨x, hx, e⟩
    obtain ⟨y, hy, hr⟩ := hb.right_of hx
    exact ⟨y, hy, hr.ty.trans e⟩

theorem StakeSettled.wait (hs : s < 2 ^ 64) (ht : t < 2 ^ 64) (h : StakeSettled acts mid n s) (hb : All2 (WaitsAct s t) acts acts2) :
    ∃ mid2, StakeSettled acts2 mid2 n t ∧ All2 (WaitsAct s t) mid mid2 := by
  rcases h with ⟨h, rfl⟩ | ⟨h, h1⟩
  · exact ⟨acts2, .inl ⟨(has_wait hb).mpr h, rfl⟩, hb⟩
  · obtain ⟨mid2, k1, k2⟩ := TakesOf.wait hs ht h1 hb
    exact ⟨mid2, .inr ⟨by rw [has_wait hb]; exact h, k1⟩, k2⟩

theorem payload?_wait {k : Key} {p : Bytes} (hb : All2 (WaitsAct s t) acts acts2) (h : payload? acts P.programScope k = some p) :
    ∃ p2, payload? acts2 P.programScope k = some p2 ∧ (ProgramScope.decode p2).balanceFieldStart = (ProgramScope.decode p).balanceFieldStart ∧
      (ProgramScope.decode p2).balanceFieldEnd = (ProgramScope.decode p).balanceFieldEnd := by
  unfold payload? at h ⊢
  induction hb with
  | nil => cases h
  | @cons x y xs ys h1 _ ih =>
    rw [List.find?_cons] at h ⊢
    by_cases g : x.grants P.programScope k
    · have g2 : y.grants P.programScope k := by rw [h1.grants]; exact g
      simp only [g, g2, decide_true, Option.map_some, Option.some.injEq] at h ⊢
      subst h
      refine ⟨_, rfl, ?_⟩
      have e := h1.field g.1
      simp only [ProgramScope.decode]
      constructor
      · rw [rd_drop _ _ _ 48 (by omega), rd_drop x.data _ _ 48 (by omega), e]
      · rw [rd_drop _ _ _ 48 (by omega), rd_drop x.data _ _ 48 (by omega), e]
    · have g2 : ¬ y.grants P.programScope k := by rw [h1.grants]; exact g
      simp only [g, g2, decide_false] at h ⊢
      exact ih h

end

/-! ## The same environment at another slot -/

section
variable {env : Env} {cpi : Cpi} {metas : List Meta} {signer : Key} {seeds : List Bytes} {t : Nat}

theorem execAll_slot : ∀ {ixs : List Inner} {m : Mem}, execAll { env with slot := t } cpi metas signer seeds m ixs = execAll env cpi metas signer seeds m ixs := by
  intro ixs
  induction ixs with
  | nil => intro m; rfl
  | cons ix rest ih =>
    intro m
    have e : execInner { env with slot := t } cpi m metas signer seeds ix = execInner env cpi m metas signer seeds ix := rfl
    unfold execAll
    rw [e]
    cases execInner env cpi m metas signer seeds ix with
    | error => rfl
    | ok m1 => exact ih

theorem lostEach_slot {k : Key} : ∀ {ixs : List Inner} {m : Mem}, lostEach { env with slot := t } cpi metas signer seeds k m ixs = lostEach env cpi metas signer seeds k m ixs := by
  intro ixs
  induction ixs with
  | nil => intro m; rfl
  | cons ix rest ih =>
    intro m
    have e : execInner { env with slot := t } cpi m metas signer seeds ix = execInner env cpi m metas signer seeds ix := rfl
    unfold lostEach
    rw [e]
    cases execInner env cpi m metas signer seeds ix with
    | error => rfl
    | ok m1 => simp only [ih]

theorem statesEach_slot {k : Key} : ∀ {ixs : List Inner} {m : Mem}, statesEach { env with slot := t } cpi metas signer seeds k m ixs = statesEach env cpi metas signer seeds k m ixs := by
  intro ixs
  induction ixs with
  | nil => intro m; rfl
  | cons ix rest ih =>
    intro m
    have e : execInner { env with slot := t } cpi m metas signer seeds ix = execInner env cpi m metas signer seeds ix := rfl
    unfold statesEach
    rw [e]
    cases execInner env cpi m metas signer seeds ix with
    | error => rfl
    | ok m1 => simp only [ih]

theorem SettlesAll.wait {m m1 : Mem} {w : Wallet} {swig wallet : Key} {moved : Moved} {paid : Meta → List (Key × Nat)} (hs : env.slot < 2 ^ 64) (ht : t < 2 ^ 64)
    {acts acts' : List Act} {l : List Meta} (h : SettlesAll env m m1 w swig wallet moved paid acts l acts') : ∀ {acts2 : List Act}, All2 (WaitsAct env.slot t) acts acts2 →
    ∃ acts2', SettlesAll { env with slot := t } m m1 w swig wallet moved paid acts2 l acts2' := by
  induction h with
  | nil => intro acts2 _; exact ⟨acts2, .nil⟩
  | skip h1 h2 h3 _ ih =>
    intro acts2 hb
    obtain ⟨e, k⟩ := ih hb
    exact ⟨e, .skip h1 h2 h3 k⟩
  | closed h1 h2 h3 h4 _ ih =>
    intro acts2 hb
    obtain ⟨e, k⟩ := ih hb
    exact ⟨e, .closed h1 ((has_wait hb).mpr h2) h3 h4 k⟩
  | @kept acts mid acts' a l h1 h2 h3 h4 h5 h6 h7 _ ih =>
    intro acts2 hb
    obtain ⟨mid2, g1, g2⟩ : ∃ mid2, ((moved.token a = 0 ∧ mid2 = acts2) ∨
        (moved.token a ≠ 0 ∧ TokensSettled (sl (m1 a.key).data 0 32) (paid a) acts2 mid2 (moved.token a) t)) ∧ All2 (WaitsAct env.slot t) mid mid2 := by
      rcases h7 with ⟨h7, rfl⟩ | ⟨h7, h8⟩
      · exact ⟨acts2, .inl ⟨h7, rfl⟩, hb⟩
      · obtain ⟨mid2, k1, k2⟩ := h8.wait hs ht hb
        exact ⟨mid2, .inr ⟨h7, k1⟩, k2⟩
    obtain ⟨e, k⟩ := ih g2
    exact ⟨e, .kept h1 h2 h3 h4 h5 h6 g1 k⟩
  | @stake acts mid acts' a l h1 h2 h3 _ ih =>
    intro acts2 hb
    obtain ⟨mid2, g1, g2⟩ : ∃ mid2, ((moved.stake a = 0 ∧ mid2 = acts2) ∨ (moved.stake a ≠ 0 ∧ StakeSettled acts2 mid2 (moved.stake a) t)) ∧
        All2 (WaitsAct env.slot t) mid mid2 := by
      rcases h3 with ⟨h3, rfl⟩ | ⟨h3, h4⟩
      · exact ⟨acts2, .inl ⟨h3, rfl⟩, hb⟩
      · obtain ⟨mid2, k1, k2⟩ := h4.wait hs ht hb
        exact ⟨mid2, .inr ⟨h3, k1⟩, k2⟩
    obtain ⟨e, k⟩ := ih g2
    exact ⟨e, .stake h1 h2 g1 k⟩
  | @scope acts mid acts' a l s0 p i j h1 h2 h3 h4 h5 h6 h7 h8 _ ih =>
    intro acts2 hb
    obtain ⟨p2, q1, q2, q3⟩ := payload?_wait hb h2
    obtain ⟨mid2, g1, g2⟩ : ∃ mid2, ((moved.scope a s0 = 0 ∧ mid2 = acts2) ∨ (moved.scope a s0 ≠ 0 ∧ ∃ lim lim',
        Takes acts2 mid2 lim lim' (moved.scope a s0) t ∧ lim.header.1 = P.programScope ∧ lim.key = a.key)) ∧ All2 (WaitsAct env.slot t) mid mid2 := by
      rcases h8 with ⟨h8, rfl⟩ | ⟨h8, lim, lim', h9, h10, h11⟩
      · exact ⟨acts2, .inl ⟨h8, rfl⟩, hb⟩
      · obtain ⟨mid2, ⟨lim2, lim2', k1, k2, k3⟩, k4⟩ := TakesOf.wait (t1 := P.programScope) (t2 := P.programScope) (key := a.key) hs ht
          ⟨lim, lim', h9, h11, .inl h10⟩ hb
        exact ⟨mid2, .inr ⟨h8, lim2, lim2', k1, k3.elim id And.left, k2⟩, k4⟩
    obtain ⟨e, k⟩ := ih g2
    exact ⟨e, .scope h1 q1 (h3.trans q2.symm) (h4.trans q3.symm) h5 h6 h7 g1 k⟩

theorem LimitsAllowAll.waitTo {m m1 : Mem} {w : Wallet} {swig wallet : Meta} {rest : List Meta} {seeds : List Bytes} {acts acts2 : List Act} {ixs : List Inner}
    (hs : env.slot < 2 ^ 64) (ht : t < 2 ^ 64) (hb : All2 (WaitsAct env.slot t) acts acts2)
    (hp : ∀ k, payload? acts2 P.programScope k = payload? acts P.programScope k) (h : LimitsAllowAll env cpi m m1 w swig wallet rest seeds acts ixs) :
    LimitsAllowAll { env with slot := t } cpi m m1 w swig wallet rest seeds acts2 ixs := by
  refine ⟨fun i hi ha => ?_, by rw [execAll_slot]; exact h.runs, h.rent, h.first, ?_⟩
  · obtain ⟨x, hx, hy⟩ := h.calls i hi ha
    obtain ⟨y, hy', hr⟩ := hb.right_of hx
    have : y = x := hr.same (by rcases hy with h | h | h <;> simp [h])
    subst this
    exact ⟨y, hy', hy⟩
  obtain ⟨mid, acts', h1, h2⟩ := h.settled
  rw [lostEach_slot]
  have em : movedBy { env with slot := t } cpi (swig :: wallet :: rest) wallet.key seeds m acts2 ixs = movedBy env cpi (swig :: wallet :: rest) wallet.key seeds m acts ixs := by
    unfold movedBy
    simp only [statesEach_slot, hp]
  rw [em]
  rcases h1 with ⟨h1, rfl⟩ | ⟨h1, h3⟩
  · obtain ⟨e, k⟩ := h2.wait hs ht hb
    exact ⟨_, e, .inl ⟨h1, rfl⟩, k⟩
  · obtain ⟨mid2, k1, k2⟩ := h3.wait hs ht hb
    obtain ⟨e, k⟩ := h2.wait hs ht k2
    exact ⟨mid2, e, .inr ⟨h1, k1⟩, k⟩

theorem LimitsAllowAll.wait {m m1 : Mem} {w : Wallet} {swig wallet : Meta} {rest : List Meta} {seeds : List Bytes} {acts : List Act} {ixs : List Inner}
    (hs : env.slot ≤ t) (ht : t < 2 ^ 64) (hi : InTime env.slot acts) (h : LimitsAllowAll env cpi m m1 w swig wallet rest seeds acts ixs) :
    LimitsAllowAll { env with slot := t } cpi m m1 w swig wallet rest seeds acts ixs :=
  h.waitTo (Nat.lt_of_le_of_lt hs ht) ht (hi.waits hs ht) fun _ => rfl

/-- A credential that does not age accepts what it accepted. -/
theorem Speaks.wait {m : Mem} {w : Wallet} {id : Nat} {payload data : Bytes} {r : Role} (ha : Ageless r t) (h : Speaks env m metas w id payload data r) :
    Speaks { env with slot := t } m metas w id payload data r := by
  obtain ⟨h1, x, h2⟩ := h
  refine ⟨h1, ?_⟩
  unfold authRole at h2 ⊢
  by_cases hb : sessionBased r.authType
  · have hle : t ≤ sessionExpiry r.authType r.auth := by
      rcases ha with e | e | e
      · rw [e] at hb; exact absurd hb (by decide)
      · rw [e] at hb; exact absurd hb (by decide)
      · exact e.2
    rw [if_pos hb] at h2 ⊢
    obtain ⟨u, k1, k2⟩ := bind_ok_iff.mp h2
    refine ⟨x, bind_ok_iff.mpr ⟨u, ?_, k2⟩⟩
    unfold authenticateSession at k1 ⊢
    rw [if_neg (by simp [hb])] at k1 ⊢
    obtain ⟨u1, k3, k4⟩ := bind_ok_iff.mp k1
    refine bind_ok_iff.mpr ⟨u1, k3, ?_⟩
    have : ¬ ({ env with slot := t } : Env).slot > sessionExpiry r.authType r.auth := by
      show ¬ t > _
      omega
    rw [if_neg this]
    split at k4
    · cases k4
    · exact k4
  · rw [if_neg hb] at h2 ⊢
    refine ⟨x, ?_⟩
    unfold authenticate at h2 ⊢
    rcases ha with e | e | e
    · rw [if_pos (.inl e)] at h2 ⊢
      exact h2
    · rw [e] at h2 ⊢
      rw [if_neg (by decide), if_neg (by decide), if_neg (by decide)] at h2 ⊢
      exact h2
    · exact absurd e.1 hb

end

end Verif
