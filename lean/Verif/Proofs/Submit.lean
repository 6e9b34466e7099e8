import Mathlib.Data.List.Nodup
import Verif.Proofs.Actions

/-! Validation, copying and filtering of action lists. -/

namespace Verif

theorem validRecurring32_iff (d : Bytes) : validRecurring32 d = .ok true ↔
    d.length = 32 ∧ sl d 24 32 = sl d 0 8 ∧ sl d 16 24 = zeros 8 := by
  unfold validRecurring32
  constructor
  · intro h
    obtain ⟨x, h1, h⟩ := bind_ok_iff.mp h
    obtain ⟨y, h2, h⟩ := bind_ok_iff.mp h
    obtain ⟨z, h3, h⟩ := bind_ok_iff.mp h
    obtain ⟨_, _, rfl⟩ := slice_eq_ok h1
    obtain ⟨_, _, rfl⟩ := slice_eq_ok h2
    obtain ⟨_, _, rfl⟩ := slice_eq_ok h3
    simp at h
    exact ⟨h.2, h.1.1, h.1.2⟩
  · rintro ⟨h1, h2, h3⟩
    rw [slice_ok (by omega) (by omega), slice_ok (by omega) (by omega), slice_ok (by omega) (by omega)]
    simp [h1, h2, h3]

theorem validTokenRecurring_iff (d : Bytes) : validTokenRecurring d = .ok true ↔
    d.length = 64 ∧ sl d 48 56 = sl d 40 48 ∧ sl d 56 64 = zeros 8 := by
  unfold validTokenRecurring
  constructor
  · intro h
    obtain ⟨x, h1, h⟩ := bind_ok_iff.mp h
    obtain ⟨y, h2, h⟩ := bind_ok_iff.mp h
    obtain ⟨z, h3, h⟩ := bind_ok_iff.mp h
    obtain ⟨_, _, rfl⟩ := slice_eq_ok h1
    obtain ⟨_, _, rfl⟩ := slice_eq_ok h2
    obtain ⟨_, _, rfl⟩ := slice_eq_ok h3
    simp at h
    exact ⟨h.2, h.1.1, h.1.2⟩
  · rintro ⟨h1, h2, h3⟩
    rw [slice_ok (by omega) (by omega), slice_ok (by omega) (by omega), slice_ok (by omega) (by omega)]
    simp [h1, h2, h3]

theorem validateLayout_iff (ty : Nat) (d : Bytes) : validateLayout ty d = .ok true ↔ Act.Fresh ⟨ty, d⟩ := by
  unfold validateLayout Act.Fresh Act.WF
  simp only [P.solRecurringLimit, P.stakeRecurringLimit, P.tokenRecurringLimit, P.solRecurringDestinationLimit,
    P.tokenRecurringDestinationLimit, P.subAccount]
  have e : ∀ n, (some n = some d.length) ↔ d.length = n := fun n =>
    ⟨fun h => by injection h with h; exact h.symm, fun h => by rw [h]⟩
  by_cases h1 : ty = 2 ∨ ty = 11
  · rw [if_pos h1, validRecurring32_iff]
    rcases h1 with rfl | rfl <;> simp [actionLen, e]
  rw [if_neg h1]
  by_cases h2 : ty = 6
  · rw [if_pos h2, validTokenRecurring_iff]
    subst h2; simp [actionLen, e]
  rw [if_neg h2]
  by_cases h3 : ty = 17
  · rw [if_pos h3]
    subst h3; simp [actionLen, e, and_assoc]
  rw [if_neg h3]
  by_cases h4 : ty = 19
  · rw [if_pos h4]
    subst h4; simp [actionLen, e, and_assoc]
  rw [if_neg h4]
  by_cases h5 : ty = 9
  · rw [if_pos h5]
    subst h5; simp [actionLen, e]
  rw [if_neg h5]
  simp only [h1, h2, h3, h4, h5, false_implies, and_true]
  cases h : actionLen ty with
  | none => simp
  | some n => simp [e]

/-- Validation of a submission: it parses into a list of fresh actions whose number is the returned count. -/
theorem calcActionsGo_iff : ∀ (fuel : Nat) (b : Bytes) (count n : Nat), b.length ≤ fuel → count ≤ 255 →
    (calcActionsGo fuel b count = .ok n ↔
      ∃ as, Submits b as ∧ (∀ a ∈ as, a.Fresh) ∧ n = count + as.length ∧ n ≤ 255) := by
  intro fuel
  induction fuel with
  | zero =>
    intro b count n hf hc
    have hb : b = [] := List.length_eq_zero_iff.mp (by omega)
    subst hb
    simp only [calcActionsGo]
    constructor
    · intro h; simp at h; subst h; exact ⟨[], .nil, by simp, by simp, hc⟩
    · rintro ⟨as, hs, _, hn, _⟩
      cases as with
      | nil => simp [hn]
      | cons a as => have := hs.ne_nil; simp at this
  | succ fuel ih =>
    intro b count n hf hc
    simp only [calcActionsGo]
    by_cases hb : b = []
    · rw [if_pos hb]
      subst hb
      constructor
      · intro h; simp at h; subst h; exact ⟨[], .nil, by simp, by simp, hc⟩
      · rintro ⟨as, hs, _, hn, _⟩
        cases as with
        | nil => simp [hn]
        | cons a as => have := hs.ne_nil; simp at this
    rw [if_neg hb]
    by_cases h8 : b.length < 8
    · rw [if_pos h8]
      constructor
      · intro h; simp at h
      · rintro ⟨as, hs, _⟩
        cases hs with
        | nil => simp at hb
        | cons a next d as hn => simp [rawAct_length _ _ hn, Act.size] at h8; omega
    rw [if_neg h8]
    constructor
    · intro h
      split at h
      · simp at h
      · rename_i hl
        obtain ⟨ty, hp, h⟩ := bind_ok_iff.mp h
        obtain ⟨hty, rfl⟩ := permission_ok_iff.mp hp
        obtain ⟨ok, hv, h⟩ := bind_ok_iff.mp h
        split at h
        · simp at h
        · rename_i hok
          have hok : ok = true := by simpa using hok
          subst hok
          split at h
          · simp at h
          · rename_i hcnt
            have hlen : (b.drop (8 + aLen b 0)).length ≤ fuel := by simp; omega
            obtain ⟨as, hs, hfr, hn, hle⟩ := (ih _ _ _ hlen (by omega)).mp h
            refine ⟨headAct b :: as, ?_, ?_, by simp; omega, hle⟩
            · have hd := head_split (b := b) (by omega) (by omega)
              have hsub := Submits.cons (headAct b) (sl b 4 8) _ as (by rw [sl_length_of_le (by omega)])
                (aType_lt b 0) (by rw [headAct_len (by omega)]; exact aLen_lt b 0) hs
              rwa [← hd] at hsub
            · intro a ha
              simp at ha
              rcases ha with rfl | ha
              · exact (validateLayout_iff _ _).mp hv
              · exact hfr a ha
    · rintro ⟨as, hs, hfr, hn, hle⟩
      cases hs with
      | nil => simp at hb
      | cons a next d as hn' ht hl hs' =>
        obtain ⟨k1, k2, k3, k4, k5⟩ := raw_head next d a hn' ht hl
        have hfa := hfr a (by simp)
        have hb := hfa.1.bounds
        have hv := (validateLayout_iff a.ty a.data).mpr hfa
        simp only [k1, k2]
        rw [if_neg (by omega), permission_ok (by omega)]
        simp only [ok_bind]
        have hsl : sl (rawAct next a ++ d) 8 (8 + a.data.length) = a.data := by
          have := congrArg Act.data k3
          simp only [headAct, k2] at this
          exact this
        rw [hsl, hv, k4]
        simp only [ok_bind]
        simp only [List.length_cons] at hn
        rw [if_neg (by simp), if_neg (by omega)]
        refine (ih _ _ _ (by omega) (by omega)).mpr ⟨as, hs', fun x hx => hfr x (by simp [hx]), by omega, hle⟩

theorem calcActions_iff (b : Bytes) (n : Nat) : calcActions b = .ok n ↔
    ∃ as, Submits b as ∧ (∀ a ∈ as, a.Fresh) ∧ n = as.length ∧ 1 ≤ n ∧ n ≤ 255 := by
  unfold calcActions
  constructor
  · intro h
    obtain ⟨m, h1, h⟩ := bind_ok_iff.mp h
    split at h
    · simp at h
    · cases h
      obtain ⟨as, hs, hf, hn, hle⟩ := (calcActionsGo_iff _ _ _ _ (Nat.le_refl _) (by omega)).mp h1
      exact ⟨as, hs, hf, by omega, by omega, hle⟩
  · rintro ⟨as, hs, hf, hn, h1, hle⟩
    rw [(calcActionsGo_iff _ b 0 n (Nat.le_refl _) (by omega)).mpr ⟨as, hs, hf, by omega, hle⟩]
    simp only [ok_bind]
    rw [if_neg (by omega)]

/-! ## Duplicate V2 grants -/

theorem v2DedupKey_eq {a : Act} (h : a.WF) : v2DedupKey a.ty a.data = a.v2Key := by
  unfold v2DedupKey Act.v2Key
  simp only [P.subAccountV2Create, P.subAccountV2All, P.subAccountV2Sign, P.subAccountV2Withdraw, P.subAccountV2Toggle]
  by_cases h1 : a.ty = 22
  · simp [h1]
  · rw [if_neg h1, if_neg h1]
    by_cases h2 : a.ty = 23 ∨ a.ty = 24 ∨ a.ty = 25 ∨ a.ty = 26
    · have : a.data.length = 8 := by
        unfold Act.WF at h
        rcases h2 with e | e | e | e <;> rw [e] at h <;> simp only [actionLen, Option.some.injEq] at h <;> omega
      rw [if_pos h2, if_pos (by omega), if_pos (by omega)]
      simp [rd, sl_zero]
    · rw [if_neg h2, if_neg (by omega)]

theorem v2Key_lt {a : Act} {t i : Nat} (h : a.v2Key = some (t, i)) : i < 2 ^ 32 := by
  unfold Act.v2Key at h
  split at h
  · simp at h; omega
  · split at h
    · simp at h
      have := leNat_lt (a.data.take 4)
      have h4 : (a.data.take 4).length ≤ 4 := by simp; omega
      have : (256 : Nat) ^ (a.data.take 4).length ≤ 256 ^ 4 := Nat.pow_le_pow_right (by omega) h4
      have e : (256 : Nat) ^ 4 = 2 ^ 32 := by decide
      omega
    · simp at h

def packKey (k : Nat × Nat) : Nat := k.1 * 2 ^ 32 + k.2

theorem dedupKeysGo_submits : ∀ (as : List Act) (b : Bytes) (fuel : Nat), Submits b as → (∀ a ∈ as, a.WF) →
    b.length ≤ fuel → dedupKeysGo fuel b = .ok ((as.filterMap Act.v2Key).map packKey) := by
  intro as
  induction as with
  | nil =>
    intro b fuel h _ _
    cases h
    cases fuel <;> simp [dedupKeysGo]
  | cons a as ih =>
    intro b fuel h hwf hf
    cases h with
    | cons _ next d _ hn ht hl hs =>
      obtain ⟨k1, k2, k3, k4, k5⟩ := raw_head next d a hn ht hl
      have hb := (hwf a (by simp)).bounds
      obtain ⟨fuel, rfl⟩ : ∃ k, fuel = k + 1 := ⟨fuel - 1, by omega⟩
      simp only [dedupKeysGo, k1, k2]
      rw [if_pos (by omega), if_neg (by omega), permission_ok (by omega), k4,
        ih d fuel hs (fun x hx => hwf x (by simp [hx])) (by omega)]
      simp only [ok_bind]
      have hsl : sl (rawAct next a ++ d) 8 (8 + a.data.length) = a.data := by
        have := congrArg Act.data k3
        simp only [headAct, k2] at this
        exact this
      rw [hsl, v2DedupKey_eq (hwf a (by simp))]
      cases h : a.v2Key with
      | none => simp [h]
      | some k => simp [h, packKey]

theorem nodup_pack (ks : List (Nat × Nat)) (h : ∀ k ∈ ks, k.2 < 2 ^ 32) : (ks.map packKey).Nodup ↔ ks.Nodup := by
  constructor
  · exact fun h => List.Nodup.of_map _ h
  · intro hn
    refine List.Nodup.map_on ?_ hn
    intro x hx y hy hxy
    have := h x hx
    have := h y hy
    unfold packKey at hxy
    ext <;> omega

theorem rejectDupV2_iff {b : Bytes} {as : List Act} (hs : Submits b as) (hwf : ∀ a ∈ as, a.WF) :
    rejectDupV2 b = .ok () ↔ NoV2Dup as := by
  unfold rejectDupV2
  rw [dedupKeysGo_submits as b _ hs hwf (Nat.le_refl _)]
  simp only [ok_bind]
  have hp := nodup_pack (as.filterMap Act.v2Key) (by
    intro k hk
    obtain ⟨a, _, ha⟩ := List.mem_filterMap.mp hk
    exact v2Key_lt (t := k.1) (by rw [ha]))
  unfold NoV2Dup
  rw [← hp]
  split <;> simp_all

/-! ## Writing actions -/

theorem write_mid (pre mid post v : Bytes) {i : Nat} (hi : i = pre.length) (hl : v.length = mid.length) :
    write (pre ++ (mid ++ post)) i v = .ok (pre ++ (v ++ post)) := by
  rw [write_ok (by simp; omega), put_mid' pre mid post v hi hl]

/-- The three writes that store one action record. -/
theorem write_act (pre junk hdr data : Bytes) (next : Nat) (hh : hdr.length = 8) (hj : 8 + data.length ≤ junk.length) :
    (do
      let buf ← write (pre ++ junk) pre.length hdr
      let buf ← write buf (pre.length + 4) (natLE 4 next)
      write buf (pre.length + 8) data) =
    .ok (pre ++ (hdr.take 4 ++ natLE 4 next ++ data ++ junk.drop (8 + data.length))) := by
  have e0 : junk = junk.take 8 ++ junk.drop 8 := take_drop_split _ _
  have e1 : junk.drop 8 = (junk.drop 8).take data.length ++ (junk.drop 8).drop data.length := take_drop_split _ _
  have w1 : write (pre ++ junk) pre.length hdr = .ok (pre ++ (hdr ++ junk.drop 8)) := by
    rw [e0]; rw [write_mid pre (junk.take 8) (junk.drop 8) hdr rfl (by simp; omega)]
    simp [← e0]
  rw [w1]
  simp only [ok_bind]
  have eh : hdr = hdr.take 4 ++ hdr.drop 4 := take_drop_split _ _
  have w2 : write (pre ++ (hdr ++ junk.drop 8)) (pre.length + 4) (natLE 4 next) =
      .ok ((pre ++ hdr.take 4) ++ (natLE 4 next ++ junk.drop 8)) := by
    have : pre ++ (hdr ++ junk.drop 8) = (pre ++ hdr.take 4) ++ (hdr.drop 4 ++ junk.drop 8) := by
      rw [List.append_assoc, ← List.append_assoc (hdr.take 4), ← eh]
    rw [this]
    exact write_mid _ _ _ _ (by simp; omega) (by simp; omega)
  rw [w2]
  simp only [ok_bind]
  have : (pre ++ hdr.take 4) ++ (natLE 4 next ++ junk.drop 8) =
      (pre ++ hdr.take 4 ++ natLE 4 next) ++ ((junk.drop 8).take data.length ++ (junk.drop 8).drop data.length) := by
    rw [← e1]; simp
  rw [this, write_mid _ _ _ _ (by simp; omega) (by simp; omega)]
  simp [Nat.add_comm]

theorem raw_take4 (next d : Bytes) (a : Act) :
    (sl (rawAct next a ++ d) 0 8).take 4 = natLE 2 a.ty ++ natLE 2 a.data.length := by
  rw [sl_zero, List.take_take]
  have : rawAct next a ++ d = (natLE 2 a.ty ++ natLE 2 a.data.length) ++ (next ++ a.data ++ d) := by simp [rawAct]
  rw [this, List.take_left']
  simp

theorem copyActionsGo_submits (start : Nat) : ∀ (as : List Act) (acts : Bytes) (fuel : Nat) (pre junk : Bytes),
    Submits acts as → (∀ a ∈ as, a.Fresh) → acts.length ≤ fuel → start ≤ pre.length → actsSize as ≤ junk.length →
    copyActionsGo start fuel acts pre.length (pre ++ junk) =
      .ok (pre ++ (encActs (pre.length - start) as ++ junk.drop (actsSize as))) := by
  intro as
  induction as with
  | nil =>
    intro acts fuel pre junk h _ _ _ _
    cases h
    cases fuel <;> simp [copyActionsGo, encActs]
  | cons a as ih =>
    intro acts fuel pre junk h hfr hf hst hj
    cases h with
    | cons _ next d _ hn ht hl hs =>
      obtain ⟨k1, k2, k3, k4, k5⟩ := raw_head next d a hn ht hl
      have hfa := hfr a (by simp)
      have hb := hfa.1.bounds
      have hv := (validateLayout_iff a.ty a.data).mpr hfa
      obtain ⟨fuel, rfl⟩ : ∃ k, fuel = k + 1 := ⟨fuel - 1, by omega⟩
      have hsl : sl (rawAct next a ++ d) 8 (8 + a.data.length) = a.data := by
        have := congrArg Act.data k3
        simp only [headAct, k2] at this
        exact this
      have has : a.size = 8 + a.data.length := rfl
      simp only [actsSize_cons] at hj
      simp only [copyActionsGo, k1, k2]
      rw [if_neg (by intro h; rw [h] at k5; simp at k5; omega), if_neg (by omega), if_neg (by omega),
        permission_ok (by omega), hsl, k4]
      simp only [ok_bind]
      rw [hv]
      simp only [ok_bind]
      rw [if_neg (by simp)]
      have hw := write_act pre junk (sl (rawAct next a ++ d) 0 8) a.data
        ((pre.length - start) + (8 + a.data.length)) (by rw [sl_length_of_le (by omega)]) (by omega)
      rw [raw_take4] at hw
      have hgoal : (do
          let buf ← write (pre ++ junk) pre.length (sl (rawAct next a ++ d) 0 8)
          let buf ← write buf (pre.length + 4) (natLE 4 ((pre.length - start) + (8 + a.data.length)))
          let buf ← write buf (pre.length + 8) a.data
          copyActionsGo start fuel d (pre.length + (8 + a.data.length)) buf) =
          (do
            let buf ← (do
              let buf ← write (pre ++ junk) pre.length (sl (rawAct next a ++ d) 0 8)
              let buf ← write buf (pre.length + 4) (natLE 4 ((pre.length - start) + (8 + a.data.length)))
              write buf (pre.length + 8) a.data)
            copyActionsGo start fuel d (pre.length + (8 + a.data.length)) buf) := by
        simp only [bind_assoc]
      rw [hgoal, hw]
      simp only [ok_bind]
      have e : pre ++ (natLE 2 a.ty ++ natLE 2 a.data.length ++ natLE 4 (pre.length - start + (8 + a.data.length)) ++
          a.data ++ junk.drop (8 + a.data.length)) =
          (pre ++ encAct (pre.length - start + a.size) a) ++ junk.drop (8 + a.data.length) := by
        simp [encAct, has]
      have el : pre.length + (8 + a.data.length) = (pre ++ encAct (pre.length - start + a.size) a).length := by
        simp [has]
      rw [e, el, ih d fuel _ _ hs (fun x hx => hfr x (by simp [hx])) (by omega) (by simp; omega) (by simp; omega)]
      have e2 : (pre ++ encAct (pre.length - start + a.size) a).length - start = pre.length - start + a.size := by
        simp; omega
      rw [e2]
      simp [encActs, has, Nat.add_assoc]

theorem writeActionsGo_submits (start : Nat) : ∀ (as : List Act) (apre acts : Bytes) (pre junk : Bytes),
    Submits acts as → (∀ a ∈ as, a.Fresh) → start ≤ pre.length → actsSize as ≤ junk.length →
    writeActionsGo (apre ++ acts) start as.length apre.length pre.length (pre ++ junk) =
      .ok (pre ++ (encActs (pre.length - start) as ++ junk.drop (actsSize as))) := by
  intro as
  induction as with
  | nil =>
    intro apre acts pre junk h _ _ _
    cases h
    simp [writeActionsGo, encActs]
  | cons a as ih =>
    intro apre acts pre junk h hfr hst hj
    cases h with
    | cons _ next d _ hn ht hl hs =>
      obtain ⟨k1, k2, k3, k4, k5⟩ := raw_head next d a hn ht hl
      have hfa := hfr a (by simp)
      have hb := hfa.1.bounds
      have hv := (validateLayout_iff a.ty a.data).mpr hfa
      have hsl : sl (rawAct next a ++ d) 8 (8 + a.data.length) = a.data := by
        have := congrArg Act.data k3
        simp only [headAct, k2] at this
        exact this
      have has : a.size = 8 + a.data.length := rfl
      simp only [actsSize_cons] at hj
      have hlenx : (apre ++ (rawAct next a ++ d)).length = apre.length + (8 + a.data.length + d.length) := by
        simp [k5]
      have s1 : slice (apre ++ (rawAct next a ++ d)) apre.length (apre.length + 8) = .ok (sl (rawAct next a ++ d) 0 8) := by
        rw [slice_ok (by omega) (by omega)]
        have := sl_append3 apre (rawAct next a ++ d) [] 0 8 (by omega) (by omega)
        simpa using this
      have f1 : aLen (sl (rawAct next a ++ d) 0 8) 0 = a.data.length := by
        rw [← k2]; unfold aLen rd; rw [sl_sl _ _ _ _ _ (by omega)]
      have f2 : aType (sl (rawAct next a ++ d) 0 8) 0 = a.ty := by
        rw [← k1]; unfold aType rd; rw [sl_sl _ _ _ _ _ (by omega)]
      have s2 : slice (apre ++ (rawAct next a ++ d)) (apre.length + 8) (apre.length + 8 + a.data.length) =
          .ok a.data := by
        rw [slice_ok (by omega) (by omega)]
        have := sl_append3 apre (rawAct next a ++ d) [] 8 (8 + a.data.length) (by omega) (by omega)
        rw [hsl] at this
        simpa [Nat.add_assoc] using this
      simp only [List.length_cons, writeActionsGo]
      rw [s1]
      simp only [ok_bind, f1, f2]
      rw [s2]
      simp only [ok_bind]
      rw [permission_ok (by omega)]
      simp only [ok_bind]
      rw [hv]
      simp only [ok_bind]
      rw [if_neg (by simp)]
      have hw := write_act pre junk (sl (rawAct next a ++ d) 0 8) a.data
        ((pre.length - start) + 8 + a.data.length) (by rw [sl_length_of_le (by omega)]) (by omega)
      rw [raw_take4] at hw
      have hgoal : ∀ (f : Bytes → R Bytes), (do
          let buf ← write (pre ++ junk) pre.length (sl (rawAct next a ++ d) 0 8)
          let buf ← write buf (pre.length + 4) (natLE 4 ((pre.length - start) + 8 + a.data.length))
          let buf ← write buf (pre.length + 8) a.data
          f buf) =
          (do
            let buf ← (do
              let buf ← write (pre ++ junk) pre.length (sl (rawAct next a ++ d) 0 8)
              let buf ← write buf (pre.length + 4) (natLE 4 ((pre.length - start) + 8 + a.data.length))
              write buf (pre.length + 8) a.data)
            f buf) := by
        intro f; simp only [bind_assoc]
      rw [hgoal, hw]
      simp only [ok_bind]
      have e : pre ++ (natLE 2 a.ty ++ natLE 2 a.data.length ++ natLE 4 (pre.length - start + 8 + a.data.length) ++
          a.data ++ junk.drop (8 + a.data.length)) =
          (pre ++ encAct (pre.length - start + a.size) a) ++ junk.drop (8 + a.data.length) := by
        simp [encAct, has, Nat.add_assoc]
      have el : pre.length + 8 + a.data.length = (pre ++ encAct (pre.length - start + a.size) a).length := by
        simp [has]; omega
      have ea : apre ++ (rawAct next a ++ d) = (apre ++ rawAct next a) ++ d := by simp
      have eal : apre.length + 8 + a.data.length = (apre ++ rawAct next a).length := by
        simp [rawAct_length _ _ hn, has]; omega
      rw [e, el, ea, eal, ih _ d _ _ hs (fun x hx => hfr x (by simp [hx])) (by simp; omega) (by simp; omega)]
      have e2 : (pre ++ encAct (pre.length - start + a.size) a).length - start = pre.length - start + a.size := by
        simp; omega
      rw [e2]
      simp [encActs, has, Nat.add_assoc]

end Verif
