import Verif.Model.WebAuthn

/-! UTF-8: `utf8Valid` accepts exactly the encodings of texts. -/

namespace Verif

theorem char_of {v : Nat} (h : v < 0xd800 ∨ (0xdfff < v ∧ v < 0x110000)) : ∃ c : Char, c.val.toNat = v := by
  refine ⟨⟨UInt32.ofNat v, ?_⟩, ?_⟩
  · have : (UInt32.ofNat v).toNat = v := by simp [UInt32.toNat_ofNat']; omega
    unfold UInt32.isValidChar Nat.isValidChar
    rw [this]; omega
  · simp [UInt32.toNat_ofNat']; omega

theorem char_valid (c : Char) : c.val.toNat < 0xd800 ∨ (0xdfff < c.val.toNat ∧ c.val.toNat < 0x110000) := c.valid

theorem utf8Valid_char (c : Char) (rest : Bytes) : utf8Valid (String.utf8EncodeChar c ++ rest) = utf8Valid rest := by
  have hv := char_valid c
  unfold String.utf8EncodeChar
  generalize c.val.toNat = v at hv ⊢
  dsimp only
  split
  · rw [List.cons_append, List.nil_append, utf8Valid, if_pos (by simp [UInt8.toNat_ofNat']; omega)]
  split
  · have e1 : (UInt8.ofNat (v / 64 % 32 + 192)).toNat = v / 64 % 32 + 192 := by rw [UInt8.toNat_ofNat']; omega
    have e2 : (UInt8.ofNat (v % 64 + 128)).toNat = v % 64 + 128 := by rw [UInt8.toNat_ofNat']; omega
    simp only [List.cons_append, List.nil_append]
    rw [utf8Valid, if_neg (by omega)]
    dsimp only
    rw [if_pos (by omega), e2]
    simp; omega
  split
  · have e1 : (UInt8.ofNat (v / 4096 % 16 + 224)).toNat = v / 4096 % 16 + 224 := by rw [UInt8.toNat_ofNat']; omega
    have e2 : (UInt8.ofNat (v / 64 % 64 + 128)).toNat = v / 64 % 64 + 128 := by rw [UInt8.toNat_ofNat']; omega
    have e3 : (UInt8.ofNat (v % 64 + 128)).toNat = v % 64 + 128 := by rw [UInt8.toNat_ofNat']; omega
    simp only [List.cons_append, List.nil_append]
    rw [utf8Valid, if_neg (by omega)]
    dsimp only
    rw [if_neg (by omega), e1, e2, e3]
    split
    · simp; omega
    split
    · simp; omega
    rw [if_pos (by omega)]
    simp; omega
  · have e1 : (UInt8.ofNat (v / 262144 % 8 + 240)).toNat = v / 262144 % 8 + 240 := by rw [UInt8.toNat_ofNat']; omega
    have e2 : (UInt8.ofNat (v / 4096 % 64 + 128)).toNat = v / 4096 % 64 + 128 := by rw [UInt8.toNat_ofNat']; omega
    have e3 : (UInt8.ofNat (v / 64 % 64 + 128)).toNat = v / 64 % 64 + 128 := by rw [UInt8.toNat_ofNat']; omega
    have e4 : (UInt8.ofNat (v % 64 + 128)).toNat = v % 64 + 128 := by rw [UInt8.toNat_ofNat']; omega
    simp only [List.cons_append, List.nil_append]
    rw [utf8Valid, if_neg (by omega)]
    dsimp only
    rw [if_neg (by omega), if_neg (by omega), if_neg (by omega), if_neg (by omega), e1, e2, e3, e4]
    split
    · simp; omega
    split
    · simp; omega
    rw [if_pos (by omega)]
    simp; omega

theorem enc1 {a : UInt8} (h : a.toNat < 0x80) : ∃ c, String.utf8EncodeChar c = [a] := by
  obtain ⟨c, hc⟩ := char_of (v := a.toNat) (by omega)
  refine ⟨c, ?_⟩
  unfold String.utf8EncodeChar
  rw [hc]
  dsimp only
  rw [if_pos (by omega)]
  simp

theorem u8_eq {a : UInt8} {n : Nat} (h : n = a.toNat) : UInt8.ofNat n = a := by subst h; simp

theorem enc2 {a b : UInt8} (h : 0xC2 ≤ a.toNat ∧ a.toNat ≤ 0xDF) (hb : 0x80 ≤ b.toNat ∧ b.toNat ≤ 0xBF) :
    ∃ c, String.utf8EncodeChar c = [a, b] := by
  obtain ⟨c, hc⟩ := char_of (v := (a.toNat - 192) * 64 + (b.toNat - 128)) (by omega)
  refine ⟨c, ?_⟩
  unfold String.utf8EncodeChar
  rw [hc]
  dsimp only
  rw [if_neg (by omega), if_pos (by omega)]
  rw [u8_eq (a := a) (by omega), u8_eq (a := b) (by omega)]

theorem enc3 {a b c : UInt8} (h : 0xE0 ≤ a.toNat ∧ a.toNat ≤ 0xEF) (hb : 0x80 ≤ b.toNat ∧ b.toNat ≤ 0xBF)
    (hc : 0x80 ≤ c.toNat ∧ c.toNat ≤ 0xBF) (h0 : a.toNat = 0xE0 → 0xA0 ≤ b.toNat) (hd : a.toNat = 0xED → b.toNat ≤ 0x9F) :
    ∃ x, String.utf8EncodeChar x = [a, b, c] := by
  obtain ⟨x, hx⟩ := char_of (v := (a.toNat - 224) * 4096 + (b.toNat - 128) * 64 + (c.toNat - 128)) (by omega)
  refine ⟨x, ?_⟩
  unfold String.utf8EncodeChar
  rw [hx]
  dsimp only
  rw [if_neg (by omega), if_neg (by omega), if_pos (by omega)]
  rw [u8_eq (a := a) (by omega), u8_eq (a := b) (by omega), u8_eq (a := c) (by omega)]

theorem enc4 {a b c d : UInt8} (h : 0xF0 ≤ a.toNat ∧ a.toNat ≤ 0xF4) (hb : 0x80 ≤ b.toNat ∧ b.toNat ≤ 0xBF)
    (hc : 0x80 ≤ c.toNat ∧ c.toNat ≤ 0xBF) (hd : 0x80 ≤ d.toNat ∧ d.toNat ≤ 0xBF) (h0 : a.toNat = 0xF0 → 0x90 ≤ b.toNat)
    (h4 : a.toNat = 0xF4 → b.toNat ≤ 0x8F) : ∃ x, String.utf8EncodeChar x = [a, b, c, d] := by
  obtain ⟨x, hx⟩ := char_of (v := (a.toNat - 240) * 262144 + (b.toNat - 128) * 4096 + (c.toNat - 128) * 64 + (d.toNat - 128)) (by omega)
  refine ⟨x, ?_⟩
  unfold String.utf8EncodeChar
  rw [hx]
  dsimp only
  rw [if_neg (by omega), if_neg (by omega), if_neg (by omega)]
  rw [u8_eq (a := a) (by omega), u8_eq (a := b) (by omega), u8_eq (a := c) (by omega), u8_eq (a := d) (by omega)]

private theorem more {p rest : Bytes} (h1 : ∃ c, String.utf8EncodeChar c = p) (h2 : ∃ t : List Char, rest = t.flatMap String.utf8EncodeChar) :
    ∃ t : List Char, p ++ rest = t.flatMap String.utf8EncodeChar := by
  obtain ⟨c, h1⟩ := h1
  obtain ⟨t, h2⟩ := h2
  exact ⟨c :: t, by simp [h1, h2]⟩

theorem utf8Valid_text (b : Bytes) (h : utf8Valid b = true) : ∃ t : List Char, b = t.flatMap String.utf8EncodeChar := by
  fun_induction utf8Valid b with
  | case1 => exact ⟨[], rfl⟩
  | case2 a rest h1 ih => exact more (enc1 h1) (ih h)
  | case3 =>
    simp +zetaDelta only [Bool.and_eq_true, decide_eq_true_eq] at h
    exact more (enc2 (by assumption) h.1) (by rename_i ih; exact ih h.2)
  | case4 =>
    rename_i ih
    simp +zetaDelta only [Bool.and_eq_true, decide_eq_true_eq] at h
    exact more (enc3 (by omega) (by omega) h.1.2 (by omega) (by omega)) (ih h.2)
  | case5 =>
    rename_i ih
    simp +zetaDelta only [Bool.and_eq_true, decide_eq_true_eq] at h
    exact more (enc3 (by omega) (by omega) h.1.2 (by omega) (by omega)) (ih h.2)
  | case6 =>
    rename_i ih
    simp +zetaDelta only [Bool.and_eq_true, decide_eq_true_eq] at h
    exact more (enc3 (by omega) h.1.1 h.1.2 (by omega) (by omega)) (ih h.2)
  | case7 =>
    rename_i ih
    simp +zetaDelta only [Bool.and_eq_true, decide_eq_true_eq] at h
    exact more (enc4 (by omega) (by omega) h.1.1.2 h.1.2 (by omega) (by omega)) (ih h.2)
  | case8 =>
    rename_i ih
    simp +zetaDelta only [Bool.and_eq_true, decide_eq_true_eq] at h
    exact more (enc4 (by omega) h.1.1.1 h.1.1.2 h.1.2 (by omega) (by omega)) (ih h.2)
  | case9 =>
    rename_i ih
    simp +zetaDelta only [Bool.and_eq_true, decide_eq_true_eq] at h
    exact more (enc4 (by omega) (by omega) h.1.1.2 h.1.2 (by omega) (by omega)) (ih h.2)
  | _ => cases h

end Verif
