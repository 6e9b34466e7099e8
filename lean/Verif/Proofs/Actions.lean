import Verif.Proofs.Layout
import Verif.Model.Update

/-! Lemmas about action lists: lookup, validation of submitted lists, copying and filtering. -/

namespace Verif

/-! ## Lookup -/

theorem permission_ok {t : Nat} (h : t ≤ 26) : permission t = .ok t := by
  unfold permission; rw [if_pos h]

theorem permission_ok_iff {t u : Nat} : permission t = .ok u ↔ t ≤ 26 ∧ u = t := by
  unfold permission; split
  · simp_all [eq_comm]
  · simp; omega

theorem acts_step (pre post : Bytes) (a : Act) (as : List Act) :
    pre ++ (encActs pre.length (a :: as) ++ post) =
      (pre ++ encAct (pre.length + a.size) a) ++
        (encActs (pre ++ encAct (pre.length + a.size) a).length as ++ post) := by
  simp [encActs]

theorem acts_step' (pre post : Bytes) (a : Act) (as : List Act) :
    pre ++ (encActs pre.length (a :: as) ++ post) =
      pre ++ (rawAct (natLE 4 (pre.length + a.size)) a ++ (encActs (pre.length + a.size) as ++ post)) := by
  simp [encActs, encAct_eq_rawAct]

theorem act_fields (pre : Bytes) (a : Act) (as : List Act) (ha : a.WF)
    (hs : pre.length + a.size < 2 ^ 32) :
    aType (pre ++ encActs pre.length (a :: as)) pre.length = a.ty ∧
    aLen (pre ++ encActs pre.length (a :: as)) pre.length = a.data.length ∧
    aBoundary (pre ++ encActs pre.length (a :: as)) pre.length = pre.length + a.size ∧
    sl (pre ++ encActs pre.length (a :: as)) (pre.length + 8) (pre.length + 8 + a.data.length) = a.data := by
  have hb := ha.bounds
  have := rawAct_fields pre (encActs (pre.length + a.size) as ++ []) (natLE 4 (pre.length + a.size)) a (by simp)
    (by omega) (by omega)
  rw [← acts_step', List.append_nil, leNat_natLE_of_lt (by simpa using hs)] at this
  exact this

/-- Whether the lookup loop stops at an action. -/
def stopsAt (ty : Nat) (key : Bytes) (a : Act) : Prop :=
  a.ty = ty ∧ (repeatable ty = true → matchData ty a.data key = .ok true)

instance (ty : Nat) (key : Bytes) (a : Act) : Decidable (stopsAt ty key a) := inferInstanceAs (Decidable (_ ∧ _))

theorem getActionGo_enc (ty : Nat) (key : Bytes) : ∀ (as : List Act) (pre : Bytes) (fuel : Nat),
    (∀ a ∈ as, a.WF) → pre.length + actsSize as < 2 ^ 32 → as.length ≤ fuel →
    (∀ a ∈ as, a.ty = ty → repeatable ty = true → ∃ b, matchData ty a.data key = .ok b) →
    (∃ a before after, as = before ++ a :: after ∧ stopsAt ty key a ∧ (∀ x ∈ before, ¬ stopsAt ty key x) ∧
      getActionGo ty key (pre ++ encActs pre.length as) fuel pre.length =
        .ok (some (pre.length + actsSize before + 8)))
    ∨ ((∀ x ∈ as, ¬ stopsAt ty key x) ∧
      getActionGo ty key (pre ++ encActs pre.length as) fuel pre.length = .ok none) := by
  intro as
  induction as with
  | nil =>
    intro pre fuel _ _ _ _
    right
    refine ⟨by simp, ?_⟩
    cases fuel <;> simp [getActionGo, encActs]
  | cons a as ih =>
    intro pre fuel hwf hsz hf hm
    have ha := hwf a (by simp)
    have hb := ha.bounds
    simp only [actsSize_cons] at hsz
    obtain ⟨f1, f2, f3, f4⟩ := act_fields pre a as ha (by omega)
    obtain ⟨fuel, rfl⟩ : ∃ k, fuel = k + 1 := ⟨fuel - 1, by simp at hf; omega⟩
    have hlen : (pre ++ encActs pre.length (a :: as)).length = pre.length + (a.size + actsSize as) := by simp
    have hs : a.size = 8 + a.data.length := rfl
    have hrec : ¬ stopsAt ty key a →
        (∃ a' before after, a :: as = before ++ a' :: after ∧ stopsAt ty key a' ∧ (∀ x ∈ before, ¬ stopsAt ty key x) ∧
          getActionGo ty key (pre ++ encActs pre.length (a :: as)) fuel (pre.length + a.size) =
            .ok (some (pre.length + actsSize before + 8)))
        ∨ ((∀ x ∈ a :: as, ¬ stopsAt ty key x) ∧
          getActionGo ty key (pre ++ encActs pre.length (a :: as)) fuel (pre.length + a.size) = .ok none) := by
      intro hns
      have e : (pre ++ encAct (pre.length + a.size) a).length = pre.length + a.size := by simp
      have hstep : pre ++ encActs pre.length (a :: as) = (pre ++ encAct (pre.length + a.size) a) ++
          encActs (pre ++ encAct (pre.length + a.size) a).length as := by
        have := acts_step pre [] a as
        simpa using this
      rw [e] at hstep
      rcases ih (pre ++ encAct (pre.length + a.size) a) fuel (fun x hx => hwf x (by simp [hx]))
        (by simp; omega) (by simp at hf; omega) (fun x hx => hm x (by simp [hx])) with
        ⟨a', before, after, g1, g2, g3, g4⟩ | ⟨g1, g2⟩
      · left
        refine ⟨a', a :: before, after, by simp [g1], g2, ?_, ?_⟩
        · intro x hx; simp at hx; rcases hx with rfl | hx
          · exact hns
          · exact g3 x hx
        · rw [e] at g4; rw [hstep, g4]; simp; omega
      · right
        refine ⟨?_, by rw [e] at g2; rw [hstep, g2]⟩
        intro x hx; simp at hx; rcases hx with rfl | hx
        · exact hns
        · exact g1 x hx
    simp only [getActionGo, f1, f3, hlen]
    rw [if_pos (by omega), if_neg (by omega), permission_ok (by omega)]
    simp only [ok_bind]
    by_cases hty : a.ty = ty
    · rw [if_pos hty]
      have hal : (actionLen ty).getD 0 = a.data.length := by rw [← hty, ha]; rfl
      rw [hal, if_neg (by omega)]
      by_cases hrep : repeatable ty = false
      · rw [if_pos hrep]
        left
        exact ⟨a, [], as, rfl, ⟨hty, by simp [hrep]⟩, by simp, by simp⟩
      · rw [if_neg hrep, f4]
        have hrep' : repeatable ty = true := by simpa using hrep
        obtain ⟨b, hbm⟩ := hm a (by simp) hty hrep'
        rw [hbm]
        simp only [ok_bind]
        cases b with
        | true =>
          left
          exact ⟨a, [], as, rfl, ⟨hty, fun _ => hbm⟩, by simp, by simp⟩
        | false =>
          have hns : ¬ stopsAt ty key a := by
            intro h; have := h.2 hrep'; rw [hbm] at this; simp at this
          simpa using hrec hns
    · rw [if_neg hty]
      exact hrec (fun h => hty h.1)

theorem beq_decide' (x y : Bytes) : (x == y) = decide (x = y) := by
  rw [Bool.eq_iff_iff]; simp

theorem beq_decide (x y : Bytes) : (x == y) = decide (y = x) := by
  rw [beq_decide']; exact decide_eq_decide.mpr ⟨Eq.symm, Eq.symm⟩

theorem sl_zero (b : Bytes) (j : Nat) : sl b 0 j = b.take j := by
  simp [sl]

/-- On a stored payload, matching a key of the right length compares it with the key part of the payload. -/
theorem matchData_key {ty : Nat} {a : Act} {key : Bytes} (hrep : repeatable ty = true)
    (hk : key.length = keyLen ty) : matchData ty a.data key = .ok (decide (keyOf ty a.data = key)) := by
  have h16 : ty ∈ [3, 4, 5, 6, 9, 16, 17, 18, 19, 21, 23, 24, 25, 26] := by
    unfold repeatable at hrep
    split at hrep <;> first | decide | exact absurd hrep (by decide)
  have g1 : ∀ d : Bytes, key.length = 32 →
      (do let k ← slice key 0 32; .ok (k == sl d 0 32) : R Bool) = .ok (decide (d.take 32 = key)) := by
    intro d h
    rw [slice_ok (by omega) (by omega)]
    simp only [ok_bind]
    rw [sl_zero, sl_zero, List.take_of_length_le (by omega), beq_decide]
  have g2 : ∀ d : Bytes, ∀ n, key.length = n →
      (.ok (decide (n ≤ key.length) && sl key 0 n == d) : R Bool) = .ok (decide (d = key)) := by
    intro d n h
    rw [sl_zero, List.take_of_length_le (by omega), beq_decide]
    simp [h]
  have g3 : ∀ d : Bytes, key.length = 4 →
      (.ok (key.length == 4 && sl d 0 4 == key) : R Bool) = .ok (decide (d.take 4 = key)) := by
    intro d h
    rw [sl_zero, beq_decide']; simp [h]
  have g4 : ∀ d : Bytes, key.length = 32 →
      (if key = [] then .ok (sl d 0 32 == zeros 32)
        else if key.length = 32 then .ok (sl d 0 32 == key) else .ok false : R Bool) =
          .ok (decide (d.take 32 = key)) := by
    intro d h
    rw [if_neg (by intro h'; rw [h'] at h; simp at h), if_pos h, sl_zero, beq_decide']
  simp only [List.mem_cons, List.not_mem_nil, or_false] at h16
  rcases h16 with rfl | rfl | rfl | rfl | rfl | rfl | rfl | rfl | rfl | rfl | rfl | rfl | rfl | rfl
  · exact g1 a.data hk
  · exact g2 (sl a.data 80 112) 32 hk
  · exact g1 a.data hk
  · exact g1 a.data hk
  · exact g4 a.data hk
  · exact g2 (sl a.data 0 32) 32 hk
  · exact g2 (sl a.data 0 32) 32 hk
  · exact g2 (sl a.data 0 64) 64 hk
  · exact g2 (sl a.data 0 64) 64 hk
  · exact g3 a.data hk
  · exact g3 a.data hk
  · exact g3 a.data hk
  · exact g3 a.data hk
  · exact g3 a.data hk

theorem stopsAt_iff {ty : Nat} {key : Bytes} (hk : repeatable ty = true → key.length = keyLen ty) (a : Act) :
    stopsAt ty key a ↔ a.grants ty key := by
  unfold stopsAt Act.grants
  refine and_congr_right fun _ => ?_
  constructor
  · intro h hr
    have := h hr
    rw [matchData_key hr (hk hr)] at this
    simpa using this
  · intro h hr
    rw [matchData_key hr (hk hr)]
    simpa using h hr

/-- Lookup in the stored actions of a role: the first action with the permission, if any. -/
theorem getActionGo_grants (ty : Nat) (key : Bytes) (as : List Act) (hwf : ∀ a ∈ as, a.WF)
    (hsz : actsSize as < 2 ^ 32) (hk : repeatable ty = true → key.length = keyLen ty) :
    (∃ a before after, as = before ++ a :: after ∧ a.grants ty key ∧ (∀ x ∈ before, ¬ x.grants ty key) ∧
      getActionGo ty key (encActs 0 as) (encActs 0 as).length 0 = .ok (some (actsSize before + 8)))
    ∨ ((∀ x ∈ as, ¬ x.grants ty key) ∧ getActionGo ty key (encActs 0 as) (encActs 0 as).length 0 = .ok none) := by
  have hfuel : as.length ≤ (encActs 0 as).length := by
    have := length_le_actsSize as; simp; omega
  have := getActionGo_enc ty key as [] (encActs 0 as).length hwf (by simpa using hsz) hfuel
    (fun a _ hty hr => ⟨_, matchData_key hr (hk hr)⟩)
  simpa [stopsAt_iff hk] using this

theorem find?_split {α : Type} {p : α → Prop} [DecidablePred p] {l before after : List α} {a : α}
    (h : l = before ++ a :: after) (ha : p a) (hb : ∀ x ∈ before, ¬ p x) : l.find? (fun x => p x) = some a := by
  rw [h, List.find?_append]
  have : before.find? (fun x => decide (p x)) = none := by
    rw [List.find?_eq_none]; intro x hx; simp [hb x hx]
  rw [this]; simp [ha]

theorem find?_none {α : Type} {p : α → Prop} [DecidablePred p] {l : List α} (hb : ∀ x ∈ l, ¬ p x) :
    l.find? (fun x => p x) = none := by
  rw [List.find?_eq_none]; intro x hx; simp [hb x hx]

/-- Payload of a stored action. -/
theorem sl_encActs_mid (as before after : List Act) (a : Act) (h : as = before ++ a :: after) :
    sl (encActs 0 as) (actsSize before + 8) (actsSize before + 8 + a.data.length) = a.data := by
  have e : encActs 0 as = (encActs 0 before ++ natLE 2 a.ty ++ natLE 2 a.data.length ++
      natLE 4 (0 + actsSize before + a.size)) ++ (a.data ++ encActs (0 + actsSize before + a.size) after) := by
    rw [h, encActs_append]; simp [encActs, encAct]
  rw [e]
  exact sl_mid _ _ _ (by simp) (by simp)

theorem getAction_enc (ty : Nat) (key : Bytes) (as : List Act) (hwf : ∀ a ∈ as, a.WF) (hne : 1 ≤ as.length)
    (hsz : actsSize as < 2 ^ 32) (hk : repeatable ty = true → key.length = keyLen ty) :
    getAction ty key (encActs 0 as) = .ok ((as.find? (fun a => a.grants ty key)).map Act.data) := by
  have h8 := length_le_actsSize as
  unfold getAction
  rw [if_neg (by simp; omega)]
  rcases getActionGo_grants ty key as hwf hsz hk with ⟨a, before, after, g1, g2, g3, g4⟩ | ⟨g1, g2⟩
  · rw [g4, find?_split g1 g2 g3]
    simp only [ok_bind]
    have ha : a.WF := hwf a (by rw [g1]; simp)
    have hal : (actionLen ty).getD 0 = a.data.length := by rw [← g2.1, ha]; rfl
    rw [hal, sl_encActs_mid as before after a g1]
    rfl
  · rw [g2, find?_none g1]; rfl

/-! ## Submitted action lists -/

/-- First record of a byte string that is long enough. -/
def headAct (b : Bytes) : Act := ⟨aType b 0, sl b 8 (8 + aLen b 0)⟩

theorem rd_eq (b : Bytes) (i k : Nat) : rd b i k = leNat (sl b i (i + k)) := rfl

theorem aType_lt (b : Bytes) (i : Nat) : aType b i < 2 ^ 16 := by
  have := rd_lt b i 2; unfold aType; simpa using this

theorem aLen_lt (b : Bytes) (i : Nat) : aLen b i < 2 ^ 16 := by
  have := rd_lt b (i + 2) 2; unfold aLen; simpa using this

theorem take_drop_split (b : Bytes) (i : Nat) : b = b.take i ++ b.drop i := (List.take_append_drop i b).symm

theorem natLE_rd {b : Bytes} {i k : Nat} (h : i + k ≤ b.length) : natLE k (rd b i k) = sl b i (i + k) := by
  unfold rd
  have := natLE_leNat (sl b i (i + k))
  rw [sl_length_of_le h] at this
  simpa using this

theorem sl_append_sl (b : Bytes) {i j k : Nat} (hij : i ≤ j) (hjk : j ≤ k) : sl b i j ++ sl b j k = sl b i k := by
  unfold sl
  have e : b.drop j = (b.drop i).drop (j - i) := by rw [List.drop_drop]; congr 1; omega
  have e2 : k - i = (j - i) + (k - j) := by omega
  rw [e, e2, List.take_add]

theorem head_split {b : Bytes} (h8 : 8 ≤ b.length) (hl : 8 + aLen b 0 ≤ b.length) :
    b = rawAct (sl b 4 8) (headAct b) ++ b.drop (8 + aLen b 0) := by
  have hlen : (sl b 8 (8 + aLen b 0)).length = aLen b 0 := by rw [sl_length_of_le hl]; omega
  have e : rawAct (sl b 4 8) (headAct b) = sl b 0 (8 + aLen b 0) := by
    unfold rawAct headAct
    simp only [hlen]
    have e1 : natLE 2 (aType b 0) = sl b 0 2 := natLE_rd (by omega)
    have e2 : natLE 2 (aLen b 0) = sl b 2 4 := natLE_rd (by omega)
    rw [e1, e2, sl_append_sl b (by omega) (by omega), sl_append_sl b (by omega) (by omega),
      sl_append_sl b (by omega) (by omega)]
  rw [e, sl_zero]
  exact take_drop_split b _

theorem headAct_len {b : Bytes} (hl : 8 + aLen b 0 ≤ b.length) : (headAct b).data.length = aLen b 0 := by
  show (sl b 8 (8 + aLen b 0)).length = _
  rw [sl_length_of_le hl]; omega

/-- Fields at the start of a submission. -/
theorem raw_head (next d : Bytes) (a : Act) (hn : next.length = 4) (ht : a.ty < 2 ^ 16) (hl : a.data.length < 2 ^ 16) :
    aType (rawAct next a ++ d) 0 = a.ty ∧ aLen (rawAct next a ++ d) 0 = a.data.length ∧
    headAct (rawAct next a ++ d) = a ∧ (rawAct next a ++ d).drop (8 + a.data.length) = d ∧
    (rawAct next a ++ d).length = 8 + a.data.length + d.length := by
  obtain ⟨h1, h2, _, h4⟩ := rawAct_fields [] d next a hn ht hl
  simp only [List.nil_append, List.length_nil] at h1 h2 h4
  have hlen : (rawAct next a).length = 8 + a.data.length := rawAct_length next a hn
  refine ⟨h1, h2, ?_, ?_, by simp [hlen]⟩
  · unfold headAct
    rw [h1, h2]
    simp only [Nat.zero_add] at h4
    rw [h4]
  · rw [← hlen, List.drop_left]

theorem Submits.ne_nil {d : Bytes} {a : Act} {as : List Act} (h : Submits d (a :: as)) : 8 ≤ d.length := by
  cases h with
  | cons _ next d' _ hn ht hl hs => simp [rawAct_length _ _ hn, Act.size]; omega

theorem Submits.length {d : Bytes} {as : List Act} (h : Submits d as) : d.length = actsSize as := by
  induction h with
  | nil => rfl
  | cons a next d as hn _ _ _ ih => simp [rawAct_length _ _ hn, ih]

theorem Submits.append {d e : Bytes} {as bs : List Act} (h : Submits d as) (h' : Submits e bs) :
    Submits (d ++ e) (as ++ bs) := by
  induction h with
  | nil => simpa using h'
  | cons a next d as hn ht hl _ ih => simpa using Submits.cons a next (d ++ e) (as ++ bs) hn ht hl ih

theorem Submits.encActs {as : List Act} (h : ∀ a ∈ as, a.WF) (off : Nat) : Submits (encActs off as) as := by
  induction as generalizing off with
  | nil => exact .nil
  | cons a as ih =>
    have hb := (h a (by simp)).bounds
    exact Submits.cons a (natLE 4 (off + a.size)) _ as (by simp) (by omega) (by omega)
      (ih (fun x hx => h x (by simp [hx])) _)

/-- A submission determines the list of actions. -/
theorem Submits.inj {d : Bytes} {as bs : List Act} (h : Submits d as) (h' : Submits d bs) : as = bs := by
  induction h generalizing bs with
  | nil =>
    cases bs with
    | nil => rfl
    | cons b bs => have := h'.ne_nil; simp at this
  | cons a next d as hn ht hl hs ih =>
    obtain ⟨h1, h2, h3, h4, h5⟩ := raw_head next d a hn ht hl
    generalize hx : rawAct next a ++ d = x at *
    cases h' with
    | nil => simp at h5; omega
    | cons b next' d' bs hn' ht' hl' hs' =>
      obtain ⟨k1, k2, k3, k4, k5⟩ := raw_head next' d' b hn' ht' hl'
      have hab : a = b := by rw [← h3, k3]
      subst hab
      have hd : d = d' := by rw [← h4, k4]
      subst hd
      rw [ih hs']

end Verif
