import Verif.Model.Cli
import Verif.Proofs.Bytes

/-!
# Lemmas about texts of keys
-/

namespace Verif.Cli

/-! ## UTF-8 -/

theorem utf8_append (a b : Text) : utf8 (a ++ b) = utf8 a ++ utf8 b := by simp [utf8]

theorem utf8_inj {a b : Text} (h : utf8 a = utf8 b) : a = b := by
  have he : a.utf8Encode = b.utf8Encode := by
    simp only [List.utf8Encode]
    exact congrArg List.toByteArray h
  have ha := @List.utf8Decode?_utf8Encode a
  rw [he, @List.utf8Decode?_utf8Encode b] at ha
  have := Option.some.inj ha
  exact (congrArg Array.toList this).symm

theorem utf8_length (a : Text) : a.length ≤ (utf8 a).length := by
  induction a with
  | nil => simp
  | cons c t ih =>
    have h1 : 0 < (String.utf8EncodeChar c).length := by
      rw [String.length_utf8EncodeChar]
      exact Char.utf8Size_pos c
    simp only [utf8, List.flatMap_cons, List.length_append, List.length_cons] at ih ⊢
    omega

theorem utf8_replicate (n : Nat) : utf8 (List.replicate n '0') = List.replicate n 48 := by
  induction n with
  | zero => rfl
  | succ n ih =>
    rw [List.replicate_succ, List.replicate_succ]
    have : utf8 ('0' :: List.replicate n '0') = 48 :: utf8 (List.replicate n '0') := by
      simp only [utf8, List.flatMap_cons]
      rfl
    rw [this, ih]

theorem ascii58 : ∀ c ∈ base58Alphabet, (String.utf8EncodeChar c).length = 1 := by decide +kernel

theorem utf8_base58 {t : Text} (h : ∀ c ∈ t, c ∈ base58Alphabet) : (utf8 t).length = t.length := by
  induction t with
  | nil => rfl
  | cons c t ih =>
    have h1 := ascii58 c (h c (by simp))
    have h2 := ih fun c hc => h c (by simp [hc])
    simp only [utf8, List.flatMap_cons, List.length_append, List.length_cons] at h2 ⊢
    omega

/-! ## Base 58 -/

theorem idx58 : ∀ c ∈ base58Alphabet, base58Alphabet.idxOf c < 58 := by decide +kernel

theorem minBytes_length {k : Nat} : ∀ {f n : Nat}, n < 256 ^ k → (minBytes f n).length ≤ k := by
  induction k with
  | zero =>
    intro f n h
    have : n = 0 := by simpa using h
    subst this
    cases f <;> simp [minBytes]
  | succ k ih =>
    intro f n h
    cases f with
    | zero => simp [minBytes]
    | succ f =>
      simp only [minBytes]
      split
      · simp
      · have : n / 256 < 256 ^ k := by
          rw [Nat.div_lt_iff_lt_mul (by omega)]
          rw [Nat.pow_succ] at h
          exact h
        have := ih (f := f) this
        simp only [List.length_cons]
        omega

theorem fold58_lt {t : Text} (h : ∀ c ∈ t, c ∈ base58Alphabet) :
    ∀ acc, t.foldl (fun acc c => acc * 58 + base58Alphabet.idxOf c) acc < (acc + 1) * 58 ^ t.length := by
  induction t with
  | nil => intro acc; simp
  | cons c t ih =>
    intro acc
    have h1 := idx58 c (h c (by simp))
    have h2 := ih (fun c hc => h c (by simp [hc])) (acc * 58 + base58Alphabet.idxOf c)
    simp only [List.foldl_cons, List.length_cons]
    refine Nat.lt_of_lt_of_le h2 ?_
    rw [Nat.pow_succ, Nat.mul_comm (58 ^ t.length) 58, ← Nat.mul_assoc]
    refine Nat.mul_le_mul_right _ ?_
    omega

theorem value58_lt {t : Text} (h : ∀ c ∈ t, c ∈ base58Alphabet) : value58 t < 58 ^ t.length := by
  have := fold58_lt h 0
  simpa [value58] using this

theorem decode58_some {t : Text} {k : Bytes} (h : decode58 t = some k) : (∀ c ∈ t, c ∈ base58Alphabet) ∧
    k = zeros (t.takeWhile (· == '1')).length ++ (minBytes t.length (value58 t)).reverse := by
  unfold decode58 at h
  split at h
  · rename_i ha
    refine ⟨fun c hc => ?_, (Option.some.inj h).symm⟩
    have := (List.all_eq_true.mp ha) c hc
    unfold digit58 at this
    split at this
    · assumption
    · cases this
  · cases h

/-- The text of an address is never the address itself. -/
theorem pubkey_not_text {t : Text} {k : Key} (h : pubkey t = some k) : utf8 t ≠ k := by
  unfold pubkey at h
  split at h
  · simp only [Option.bind_eq_some_iff] at h
    obtain ⟨k', h1, h2⟩ := h
    split at h2
    · rename_i hlen
      cases h2
      obtain ⟨ha, hk⟩ := decode58_some h1
      intro he
      have hl : t.length = 32 := by rw [← utf8_base58 ha, he, hlen]
      cases t with
      | nil => cases hl
      | cons c t =>
        by_cases hc : c = '1'
        · subst hc
          rw [hk] at he
          have e1 : utf8 ('1' :: t) = 49 :: utf8 t := by
            simp only [utf8, List.flatMap_cons]
            rfl
          rw [e1, List.takeWhile_cons_of_pos (by rfl)] at he
          simp only [List.length_cons, zeros, List.replicate_succ, List.cons_append] at he
          exact absurd (List.cons.inj he).1 (by decide)
        · have e1 : ((c :: t).takeWhile (· == '1')) = [] := List.takeWhile_cons_of_neg (by simpa using hc)
          rw [e1] at hk
          have h3 : value58 (c :: t) < 256 ^ 31 := by
            refine Nat.lt_of_lt_of_le (value58_lt ha) ?_
            rw [hl]
            decide
          have h4 := minBytes_length (f := (c :: t).length) h3
          have h5 := congrArg List.length hk
          simp [zeros] at h5
          simp only [List.length_cons] at h4
          omega
    · cases h2
  · cases h

/-! ## Writing and reading base 58 -/

theorem minBytes_leNat : ∀ {l : Bytes} {f : Nat}, l.length ≤ f → (∀ h : l ≠ [], l.getLast h ≠ 0) → minBytes f (leNat l) = l := by
  intro l
  induction l with
  | nil => intro f _ _; cases f <;> simp [minBytes, leNat]
  | cons x xs ih =>
    intro f hf hlast
    cases f with
    | zero => simp at hf
    | succ f =>
      have hpos : leNat (x :: xs) ≠ 0 := by
        clear ih hf
        induction xs generalizing x with
        | nil =>
          have := hlast (by simp)
          simp only [List.getLast_singleton] at this
          simp only [leNat]
          intro h
          refine this ?_
          rw [← UInt8.toNat_inj]
          simp
          omega
        | cons y ys ih2 =>
          have := ih2 y (fun h => by have := hlast (by simp); rwa [List.getLast_cons h] at this)
          simp only [leNat] at this ⊢
          omega
      have h1 : UInt8.ofNat (leNat (x :: xs)) = x := by
        rw [← UInt8.toNat_inj]
        simp only [leNat, UInt8.toNat_ofNat']
        have := x.toNat_lt
        omega
      have h2 : leNat (x :: xs) / 256 = leNat xs := by
        simp only [leNat]
        have := x.toNat_lt
        omega
      simp only [minBytes, if_neg hpos, h1, h2]
      rw [ih (by simpa using hf)]
      intro h
      have := hlast (by simp)
      rwa [List.getLast_cons h] at this

theorem alphabet58 : ∀ d < 58, base58Alphabet.getD d '1' ∈ base58Alphabet ∧ base58Alphabet.idxOf (base58Alphabet.getD d '1') = d ∧
    (base58Alphabet.getD d '1' = '1' → d = 0) := by decide +kernel

theorem digits58_mem {c : Char} : ∀ {f n : Nat}, c ∈ digits58 f n → c ∈ base58Alphabet := by
  intro f
  induction f with
  | zero => intro n h; cases h
  | succ f ih =>
    intro n h
    simp only [digits58] at h
    split at h
    · cases h
    · rcases List.mem_cons.mp h with rfl | h
      · exact (alphabet58 _ (Nat.mod_lt _ (by omega))).1
      · exact ih h

theorem digits58_length {k : Nat} : ∀ {f n : Nat}, n < 58 ^ k → (digits58 f n).length ≤ k := by
  induction k with
  | zero =>
    intro f n h
    have : n = 0 := by simpa using h
    subst this
    cases f <;> simp [digits58]
  | succ k ih =>
    intro f n h
    cases f with
    | zero => simp [digits58]
    | succ f =>
      simp only [digits58]
      split
      · simp
      · have : n / 58 < 58 ^ k := by
          rw [Nat.div_lt_iff_lt_mul (by omega)]
          rw [Nat.pow_succ] at h
          exact h
        have := ih (f := f) this
        simp only [List.length_cons]
        omega

theorem digits58_value : ∀ {f n : Nat}, n < 58 ^ f → value58 (digits58 f n).reverse = n := by
  intro f
  induction f with
  | zero =>
    intro n h
    have : n = 0 := by simpa using h
    subst this
    rfl
  | succ f ih =>
    intro n h
    simp only [digits58]
    split
    · rename_i h0; subst h0; rfl
    · have h1 : n / 58 < 58 ^ f := by
        rw [Nat.div_lt_iff_lt_mul (by omega)]
        rw [Nat.pow_succ] at h
        exact h
      have h2 := ih h1
      simp only [value58] at h2 ⊢
      rw [List.reverse_cons, List.foldl_append, h2]
      simp only [List.foldl_cons, List.foldl_nil]
      rw [(alphabet58 _ (Nat.mod_lt n (by omega))).2.1]
      omega

theorem digits58_last : ∀ {f n : Nat}, n < 58 ^ f → ∀ h : digits58 f n ≠ [], (digits58 f n).getLast h ≠ '1' := by
  intro f
  induction f with
  | zero => intro n _ h; exact absurd rfl h
  | succ f ih =>
    intro n hn h
    have h1 : n / 58 < 58 ^ f := by
      rw [Nat.div_lt_iff_lt_mul (by omega)]
      rw [Nat.pow_succ] at hn
      exact hn
    by_cases h0 : n = 0
    · subst h0; exact absurd rfl h
    · have e : digits58 (f + 1) n = base58Alphabet.getD (n % 58) '1' :: digits58 f (n / 58) := by simp only [digits58, if_neg h0]
      have key : ∀ l (hl : l ≠ []), l = base58Alphabet.getD (n % 58) '1' :: digits58 f (n / 58) → l.getLast hl ≠ '1' := by
        intro l hl el
        subst el
        by_cases hr : digits58 f (n / 58) = []
        · have hz : n / 58 = 0 := by
            have := digits58_value h1
            rw [hr] at this
            exact this.symm
          have : (base58Alphabet.getD (n % 58) '1' :: digits58 f (n / 58)).getLast hl = base58Alphabet.getD (n % 58) '1' := by
            have : ∀ l (hl : base58Alphabet.getD (n % 58) '1' :: l ≠ []), l = [] →
                (base58Alphabet.getD (n % 58) '1' :: l).getLast hl = base58Alphabet.getD (n % 58) '1' := by
              intro l hl h; subst h; rfl
            exact this _ hl hr
          rw [this]
          intro hc
          have := (alphabet58 _ (Nat.mod_lt n (by omega))).2.2 hc
          omega
        · rw [List.getLast_cons hr]
          exact ih h1 hr
      exact key _ h e

theorem fold58_ones (z : Nat) (acc : Nat) (ha : acc = 0) :
    (List.replicate z '1').foldl (fun acc c => acc * 58 + base58Alphabet.idxOf c) acc = 0 := by
  induction z generalizing acc with
  | zero => exact ha
  | succ z ih =>
    rw [List.replicate_succ, List.foldl_cons]
    refine ih _ ?_
    subst ha
    rfl

theorem value58_ones (z : Nat) (t : Text) : value58 (List.replicate z '1' ++ t) = value58 t := by
  simp only [value58, List.foldl_append]
  rw [fold58_ones z 0 rfl]

theorem leNat_zeros (l : Bytes) (z : Nat) : leNat (l ++ zeros z) = leNat l := by
  induction l with
  | nil =>
    induction z with
    | zero => rfl
    | succ z ih =>
      simp only [zeros, List.replicate_succ, List.nil_append, leNat] at ih ⊢
      rw [ih]
      rfl
  | cons x xs ih =>
    simp only [List.cons_append, leNat]
    rw [ih]

theorem takeWhile_rep {α : Type} (p : α → Bool) (x : α) (hx : p x = true) (n : Nat) (t : List α) (ht : ∀ h : t ≠ [], p (t.head h) = false) :
    (List.replicate n x ++ t).takeWhile p = List.replicate n x := by
  induction n with
  | zero =>
    cases t with
    | nil => rfl
    | cons y ys =>
      have := ht (by simp)
      simp only [List.head_cons] at this
      simp [this]
  | succ n ih => rw [List.replicate_succ, List.cons_append, List.takeWhile_cons_of_pos hx, ih]

theorem lead (b : Bytes) : ∃ z r, b = zeros z ++ r ∧ (b.takeWhile (· == 0)).length = z ∧ ∀ h : r ≠ [], r.head h ≠ 0 := by
  induction b with
  | nil => exact ⟨0, [], rfl, rfl, fun h => absurd rfl h⟩
  | cons x xs ih =>
    by_cases hx : x = 0
    · obtain ⟨z, r, h1, h2, h3⟩ := ih
      refine ⟨z + 1, r, ?_, ?_, h3⟩
      · rw [hx, h1]; rfl
      · rw [List.takeWhile_cons_of_pos (by simpa using hx), List.length_cons, h2]
    · refine ⟨0, x :: xs, rfl, ?_, fun _ => hx⟩
      rw [List.takeWhile_cons_of_neg (by simpa using hx)]
      rfl

theorem pow_gap : ∀ z < 33, 256 ^ (32 - z) ≤ 58 ^ (44 - z) := by decide +kernel

/-- An address is read back from its text. -/
theorem pubkey_encode58 {k : Key} (hk : k.length = 32) : pubkey (encode58 k) = some k := by
  obtain ⟨z, r, h1, h2, h3⟩ := lead k
  have hzr : z + r.length = 32 := by rw [← hk, h1]; simp [zeros]
  have hN : leNat k.reverse = leNat r.reverse := by
    rw [h1, List.reverse_append]
    have : (zeros z).reverse = zeros z := by simp [zeros]
    rw [this, leNat_zeros]
  have hlt : leNat r.reverse < 256 ^ (32 - z) := by
    have := leNat_lt r.reverse
    rw [List.length_reverse] at this
    rwa [show r.length = 32 - z by omega] at this
  have hlt2 : leNat r.reverse < 58 ^ (44 - z) := Nat.lt_of_lt_of_le hlt (pow_gap z (by omega))
  have hlt3 : leNat r.reverse < 58 ^ 64 := Nat.lt_of_lt_of_le hlt2 (Nat.pow_le_pow_right (by omega) (by omega))
  have he : encode58 k = List.replicate z '1' ++ (digits58 64 (leNat r.reverse)).reverse := by
    simp only [encode58, h2, hN, hk]
  have hlen := digits58_length (f := 64) hlt2
  have hv : value58 (encode58 k) = leNat r.reverse := by rw [he, value58_ones, digits58_value hlt3]
  have hl : (encode58 k).length = z + (digits58 64 (leNat r.reverse)).length := by rw [he]; simp
  have htw : ((encode58 k).takeWhile (· == '1')).length = z := by
    rw [he, takeWhile_rep _ _ rfl]
    · simp
    · intro h
      have hne : digits58 64 (leNat r.reverse) ≠ [] := fun e => h (by rw [e]; rfl)
      rw [List.head_reverse]
      simpa using digits58_last hlt3 hne
  have hmin : minBytes (encode58 k).length (leNat r.reverse) = r.reverse := by
    refine minBytes_leNat ?_ ?_
    · -- the text is at least as long
      rw [List.length_reverse, hl]
      rcases Nat.lt_or_ge (z + (digits58 64 (leNat r.reverse)).length) r.length with hc | hc
      · exfalso
        have hr : r ≠ [] := by intro e; rw [e] at hc; simp at hc
        have hb : leNat r.reverse < 58 ^ (digits58 64 (leNat r.reverse)).length := by
          have := value58_lt (t := (digits58 64 (leNat r.reverse)).reverse) (fun c hc => digits58_mem (List.mem_reverse.mp hc))
          rwa [digits58_value hlt3, List.length_reverse] at this
        have hs := minBytes_leNat (l := r.reverse) (f := r.length) (by simp) (by
          intro h
          rw [List.getLast_reverse]
          exact h3 hr)
        have hb2 : leNat r.reverse < 256 ^ (r.length - 1) := by
          refine Nat.lt_of_lt_of_le hb (Nat.le_trans (Nat.pow_le_pow_right (by omega) (show _ ≤ r.length - 1 by omega)) ?_)
          exact Nat.pow_le_pow_left (by omega) _
        have := minBytes_length (f := r.length) hb2
        rw [hs, List.length_reverse] at this
        omega
      · exact hc
    · intro h
      rw [List.getLast_reverse]
      exact h3 (by intro e; rw [e] at h; simp at h)
  have hall : ((encode58 k).all fun c => (digit58 c).isSome) = true := by
    rw [List.all_eq_true]
    intro c hc
    have : c ∈ base58Alphabet := by
      rw [he] at hc
      rcases List.mem_append.mp hc with hc | hc
      · rw [(List.mem_replicate.mp hc).2]; decide +kernel
      · exact digits58_mem (List.mem_reverse.mp hc)
    simp [digit58, this]
  unfold pubkey
  rw [if_pos (by rw [hl]; omega)]
  unfold decode58
  rw [if_pos hall, htw, hv, hmin, List.reverse_reverse, ← h1]
  simp [hk]

theorem pubkey_length {t : Text} {k : Key} (h : pubkey t = some k) : k.length = 32 := by
  unfold pubkey at h
  split at h
  · simp only [Option.bind_eq_some_iff] at h
    obtain ⟨k', h1, h2⟩ := h
    split at h2
    · cases h2; assumption
    · cases h2
  · cases h

theorem minBytes_value : ∀ {f n : Nat}, n < 256 ^ f → leNat (minBytes f n) = n := by
  intro f
  induction f with
  | zero =>
    intro n h
    have : n = 0 := by simpa using h
    subst this
    rfl
  | succ f ih =>
    intro n h
    simp only [minBytes]
    split
    · rename_i h0; subst h0; rfl
    · have h1 : n / 256 < 256 ^ f := by
        rw [Nat.div_lt_iff_lt_mul (by omega)]
        rw [Nat.pow_succ] at h
        exact h
      simp only [leNat]
      rw [ih h1, UInt8.toNat_ofNat']
      omega

theorem minBytes_last : ∀ {f n : Nat}, n < 256 ^ f → ∀ h : minBytes f n ≠ [], (minBytes f n).getLast h ≠ 0 := by
  intro f
  induction f with
  | zero => intro n _ h; exact absurd rfl h
  | succ f ih =>
    intro n hn h
    have h1 : n / 256 < 256 ^ f := by
      rw [Nat.div_lt_iff_lt_mul (by omega)]
      rw [Nat.pow_succ] at hn
      exact hn
    by_cases h0 : n = 0
    · subst h0; exact absurd rfl h
    · have e : minBytes (f + 1) n = UInt8.ofNat n :: minBytes f (n / 256) := by simp only [minBytes, if_neg h0]
      have key : ∀ l (hl : l ≠ []), l = UInt8.ofNat n :: minBytes f (n / 256) → l.getLast hl ≠ 0 := by
        intro l hl el
        subst el
        by_cases hr : minBytes f (n / 256) = []
        · have hz : n / 256 = 0 := by
            have := minBytes_value h1
            rw [hr] at this
            exact this.symm
          have : (UInt8.ofNat n :: minBytes f (n / 256)).getLast hl = UInt8.ofNat n := by
            have : ∀ l (hl : UInt8.ofNat n :: l ≠ []), l = [] → (UInt8.ofNat n :: l).getLast hl = UInt8.ofNat n := by
              intro l hl h; subst h; rfl
            exact this _ hl hr
          rw [this]
          intro hc
          have := congrArg UInt8.toNat hc
          simp only [UInt8.toNat_ofNat'] at this
          have : n % 256 = 0 := this
          omega
        · rw [List.getLast_cons hr]
          exact ih h1 hr
      exact key _ h e

theorem idx_get58 : ∀ c ∈ base58Alphabet, base58Alphabet.getD (base58Alphabet.idxOf c) '1' = c := by decide +kernel

theorem digits58_text : ∀ {t : Text} {f : Nat}, t.length ≤ f → (∀ c ∈ t, c ∈ base58Alphabet) → (∀ h : t ≠ [], t.getLast h ≠ '1') →
    digits58 f (value58 t.reverse) = t := by
  intro t
  induction t with
  | nil => intro f _ _ _; cases f <;> simp [digits58, value58]
  | cons c t ih =>
    intro f hf hm hl
    cases f with
    | zero => simp at hf
    | succ f =>
      have hc := hm c (by simp)
      have hi := idx58 c hc
      have hv : value58 (c :: t).reverse = value58 t.reverse * 58 + base58Alphabet.idxOf c := by
        simp [value58, List.foldl_append]
      have h2 := ih (f := f) (by simpa using hf) (fun c h => hm c (by simp [h])) (fun h => by
        have := hl (by simp); rwa [List.getLast_cons h] at this)
      have hne : value58 (c :: t).reverse ≠ 0 := by
        rw [hv]
        intro h0
        have h3 : value58 t.reverse = 0 := by omega
        have h4 : base58Alphabet.idxOf c = 0 := by omega
        rw [h3] at h2
        have ht : t = [] := by rw [← h2]; cases f <;> rfl
        subst ht
        have := hl (by simp)
        simp only [List.getLast_singleton] at this
        refine this ?_
        have := idx_get58 c hc
        rw [h4] at this
        exact this.symm
      simp only [digits58, if_neg hne]
      have e1 : value58 (c :: t).reverse % 58 = base58Alphabet.idxOf c := by rw [hv]; omega
      have e2 : value58 (c :: t).reverse / 58 = value58 t.reverse := by rw [hv]; omega
      rw [e1, e2, idx_get58 c hc, h2]

theorem lead1 (t : Text) : ∃ z r, t = List.replicate z '1' ++ r ∧ (t.takeWhile (· == '1')).length = z ∧ ∀ h : r ≠ [], r.head h ≠ '1' := by
  induction t with
  | nil => exact ⟨0, [], rfl, rfl, fun h => absurd rfl h⟩
  | cons x xs ih =>
    by_cases hx : x = '1'
    · obtain ⟨z, r, h1, h2, h3⟩ := ih
      refine ⟨z + 1, r, ?_, ?_, h3⟩
      · rw [hx, h1]; rfl
      · rw [List.takeWhile_cons_of_pos (by simpa using hx), List.length_cons, h2]
    · refine ⟨0, x :: xs, rfl, ?_, fun _ => hx⟩
      rw [List.takeWhile_cons_of_neg (by simpa using hx)]
      rfl

theorem pubkey_some {t : Text} {k : Key} (h : pubkey t = some k) : t.length ≤ 44 ∧ decode58 t = some k ∧ k.length = 32 := by
  unfold pubkey at h
  split at h
  · rename_i hl
    simp only [Option.bind_eq_some_iff] at h
    obtain ⟨k', h1, h2⟩ := h
    split at h2
    · cases h2; exact ⟨hl, h1, by assumption⟩
    · cases h2
  · cases h

/-- An address has one text. -/
theorem encode58_pubkey {t : Text} {k : Key} (h : pubkey t = some k) : t = encode58 k := by
  obtain ⟨hlen, h1, hk⟩ := pubkey_some h
  obtain ⟨ha, hk2⟩ := decode58_some h1
  obtain ⟨z, r, e1, e2, e3⟩ := lead1 t
  have hv : value58 t = value58 r := by rw [e1, value58_ones]
  have hlt : value58 t < 256 ^ t.length :=
    Nat.lt_of_lt_of_le (value58_lt ha) (Nat.pow_le_pow_left (by omega) _)
  have hr : ∀ c ∈ r, c ∈ base58Alphabet := fun c hc => ha c (by rw [e1]; exact List.mem_append_right _ hc)
  rw [e2] at hk2
  have hz : (k.takeWhile (· == 0)).length = z := by
    rw [hk2, zeros, takeWhile_rep _ _ rfl]
    · simp
    · intro h
      have hne : minBytes t.length (value58 t) ≠ [] := fun e => h (by rw [e]; rfl)
      rw [List.head_reverse]
      simpa using minBytes_last hlt hne
  have hn : leNat k.reverse = value58 r := by
    rw [hk2, List.reverse_append, List.reverse_reverse]
    have : (zeros z).reverse = zeros z := by simp [zeros]
    rw [this, leNat_zeros, minBytes_value hlt, hv]
  have hd : digits58 (2 * k.length) (leNat k.reverse) = r.reverse := by
    rw [hn]
    have := digits58_text (t := r.reverse) (f := 2 * k.length) (by
      rw [List.length_reverse, hk]
      have : r.length ≤ t.length := by rw [e1]; simp
      omega) (fun c hc => hr c (List.mem_reverse.mp hc)) (fun h => by
        rw [List.getLast_reverse]
        exact e3 (by intro e; rw [e] at h; simp at h))
    rwa [List.reverse_reverse] at this
  unfold encode58
  rw [hz, hd, List.reverse_reverse]
  exact e1

/-! ## Hexadecimal -/

theorem hex16 : ∀ n < 16, hexDigit ("0123456789abcdef".toList.getD n '0') = some n ∧ "0123456789abcdef".toList.getD n '0' ≠ 'x' := by
  decide +kernel

theorem hexText_cons (x : UInt8) (b : Bytes) : hexText (x :: b) =
    "0123456789abcdef".toList.getD (x.toNat / 16) '0' :: "0123456789abcdef".toList.getD (x.toNat % 16) '0' :: hexText b := rfl

theorem hexDecode_text (b : Bytes) : hexDecode (hexText b) = some b := by
  induction b with
  | nil => rfl
  | cons x b ih =>
    have hx := x.toNat_lt
    rw [hexText_cons, hexDecode, (hex16 _ (by omega)).1, (hex16 (x.toNat % 16) (by omega)).1, ih]
    have : UInt8.ofNat (16 * (x.toNat / 16) + x.toNat % 16) = x := by
      rw [← UInt8.toNat_inj]
      simp only [UInt8.toNat_ofNat']
      omega
    simp only [Option.bind_eq_bind, Option.bind_some, this]

theorem trim_text (b : Bytes) : trim0x (hexText b) = hexText b := by
  cases b with
  | nil => rfl
  | cons x b =>
    rw [hexText_cons]
    have h := (hex16 (x.toNat % 16) (by omega)).2
    revert h
    generalize "0123456789abcdef".toList.getD (x.toNat % 16) '0' = c
    generalize "0123456789abcdef".toList.getD (x.toNat / 16) '0' = d
    intro h
    unfold trim0x
    split
    · rename_i e
      simp only [List.cons.injEq] at e
      exact absurd e.2.1 h
    · rfl

theorem hexDecode_length : ∀ {t : Text} {b : Bytes}, hexDecode t = some b → t.length = 2 * b.length
  | [], b, h => by cases h; rfl
  | [_], b, h => by cases h
  | x :: y :: t, b, h => by
    simp only [hexDecode, Option.bind_eq_bind, Option.bind_eq_some_iff] at h
    obtain ⟨_, _, _, _, r, h3, h4⟩ := h
    have := hexDecode_length h3
    cases h4
    simp only [List.length_cons]
    omega

theorem trim_length : ∀ (t : Text), (trim0x t).length ≤ t.length := by
  intro t
  fun_induction trim0x t with
  | case1 t ih => simp only [List.length_cons]; omega
  | case2 t _ => exact Nat.le_refl _

end Verif.Cli
