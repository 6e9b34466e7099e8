import Verif.Model.WebAuthn
import Verif.Spec.Text
import Verif.Proofs.Bytes
import Verif.Proofs.Utf8

/-!
# C32: text encodings

`baseEncode` (Verif/Spec/Text.lean) is RFC 4648 read off the bit string; `hexEncode`, `b64Encode` model the code.
-/

namespace Verif

/-- ASCII code of a character. -/
def charByte (c : Char) : UInt8 := UInt8.ofNat c.toNat

private theorem bitString_cons (b : UInt8) (bs : Bytes) :
    bitString (b :: bs) = (b.toNat / 128 % 2 == 1) :: (b.toNat / 64 % 2 == 1) :: (b.toNat / 32 % 2 == 1) ::
      (b.toNat / 16 % 2 == 1) :: (b.toNat / 8 % 2 == 1) :: (b.toNat / 4 % 2 == 1) :: (b.toNat / 2 % 2 == 1) ::
      (b.toNat % 2 == 1) :: bitString bs := by
  simp [bitString, List.range, List.range.loop]

private theorem bitVal (n : Nat) : (if (n % 2 == 1) = true then 1 else 0) = n % 2 := by
  have : n % 2 = 0 ∨ n % 2 = 1 := by omega
  rcases this with h | h <;> simp [h]

private theorem hexChar_eq : ∀ i, i < 16 → hexChar i = charByte (hexAlphabet.getD i '?') := by decide

set_option maxRecDepth 4000 in
private theorem b64Char_eq : ∀ i, i < 64 → b64Char i = charByte (base64urlAlphabet.getD i '?') := by decide

private theorem val4 (n : Nat) (h : n < 256) :
    2 * (2 * (2 * (n / 128 % 2) + n / 64 % 2) + n / 32 % 2) + n / 16 % 2 = n / 16 := by omega

private theorem val4' (n : Nat) : 2 * (2 * (2 * (n / 8 % 2) + n / 4 % 2) + n / 2 % 2) + n % 2 = n % 16 := by omega

private theorem val6a (n : Nat) (h : n < 256) : 2 * (2 * (2 * (2 * (2 * (n / 128 % 2) + n / 64 % 2) + n / 32 % 2) +
    n / 16 % 2) + n / 8 % 2) + n / 4 % 2 = n / 4 := by omega

private theorem val6b (n m : Nat) (h : m < 256) : 2 * (2 * (2 * (2 * (2 * (n / 2 % 2) + n % 2) + m / 128 % 2) +
    m / 64 % 2) + m / 32 % 2) + m / 16 % 2 = n % 4 * 16 + m / 16 := by omega

private theorem val6c (n m : Nat) (h : m < 256) : 2 * (2 * (2 * (2 * (2 * (n / 8 % 2) + n / 4 % 2) + n / 2 % 2) +
    n % 2) + m / 128 % 2) + m / 64 % 2 = n % 16 * 4 + m / 64 := by omega

private theorem val6d (n : Nat) : 2 * (2 * (2 * (2 * (2 * (n / 32 % 2) + n / 16 % 2) + n / 8 % 2) +
    n / 4 % 2) + n / 2 % 2) + n % 2 = n % 64 := by omega

private theorem val2 (n : Nat) : (2 * (n / 2 % 2) + n % 2) * 16 = n % 4 * 16 := by omega

private theorem val4s (n : Nat) : (2 * (2 * (2 * (n / 8 % 2) + n / 4 % 2) + n / 2 % 2) + n % 2) * 4 = n % 16 * 4 := by omega

private theorem byte_lt (b : UInt8) : b.toNat < 256 := by simpa using b.toNat_lt

/-- Extra fuel does not matter. -/
private theorem groups_fuel (w : Nat) (hw : 0 < w) : ∀ (n m : Nat) (l : List Bool), l.length ≤ n → l.length ≤ m →
    groups w n l = groups w m l := by
  intro n
  induction n with
  | zero =>
    intro m l h _
    have : l = [] := List.eq_nil_of_length_eq_zero (by omega)
    subst this
    cases m <;> rfl
  | succ n ih =>
    intro m l hn hm
    cases l with
    | nil => cases m <;> rfl
    | cons b bs =>
      cases m with
      | zero => simp at hm
      | succ m =>
        simp only [groups]
        rw [ih m _ (by simp at *; omega) (by simp at *; omega)]

private theorem groups_append (w : Nat) (hw : 0 < w) (g rest : List Bool) (hg : g.length = w) :
    groups w (g ++ rest).length (g ++ rest) = g :: groups w rest.length rest := by
  cases g with
  | nil => simp at hg; omega
  | cons x xs =>
    simp only [List.cons_append, List.length_cons, groups]
    have h1 : (x :: (xs ++ rest)).take w = x :: xs := by
      rw [← List.cons_append, ← hg]; exact List.take_left
    have h2 : (x :: (xs ++ rest)).drop w = rest := by
      rw [← List.cons_append, ← hg]; exact List.drop_left
    rw [h1, h2, groups_fuel w hw _ rest.length rest (by simp) (by omega)]

/-- Hexadecimal encoding is the RFC 4648 base-16 encoding (lower case). -/
theorem C32_hex_standard (b : Bytes) : hexEncode b = (baseEncode 4 hexAlphabet b).map charByte := by
  induction b with
  | nil => rfl
  | cons x xs ih =>
    have hx := byte_lt x
    unfold baseEncode at *
    rw [bitString_cons]
    have e1 := groups_append 4 (by omega) [(x.toNat / 128 % 2 == 1), (x.toNat / 64 % 2 == 1), (x.toNat / 32 % 2 == 1),
      (x.toNat / 16 % 2 == 1)] ([(x.toNat / 8 % 2 == 1), (x.toNat / 4 % 2 == 1), (x.toNat / 2 % 2 == 1), (x.toNat % 2 == 1)]
      ++ bitString xs) rfl
    have e2 := groups_append 4 (by omega) [(x.toNat / 8 % 2 == 1), (x.toNat / 4 % 2 == 1), (x.toNat / 2 % 2 == 1), (x.toNat % 2 == 1)]
      (bitString xs) rfl
    rw [e2] at e1
    simp only [List.cons_append, List.nil_append] at e1
    rw [e1]
    simp only [List.map_cons, hexEncode, ih, groupValue, List.foldl, bitVal, List.length_cons, List.length_nil, Nat.reduceAdd,
      Nat.sub_self, Nat.pow_zero, Nat.mul_one, Nat.mul_zero, Nat.zero_add]
    rw [hexChar_eq _ (by omega), hexChar_eq _ (by omega)]
    rw [val4 _ hx, val4' _]

/-- Unpadded base64url encoding is the RFC 4648 base64url encoding. -/
theorem C32_base64url_standard (b : Bytes) : b64Encode b = (baseEncode 6 base64urlAlphabet b).map charByte := by
  induction b using b64Encode.induct with
  | case1 x y z rest ih =>
    have hx := byte_lt x
    have hy := byte_lt y
    have hz := byte_lt z
    unfold baseEncode at *
    rw [bitString_cons, bitString_cons, bitString_cons]
    have e1 := groups_append 6 (by omega) [(x.toNat / 128 % 2 == 1), (x.toNat / 64 % 2 == 1), (x.toNat / 32 % 2 == 1),
      (x.toNat / 16 % 2 == 1), (x.toNat / 8 % 2 == 1), (x.toNat / 4 % 2 == 1)] ([(x.toNat / 2 % 2 == 1), (x.toNat % 2 == 1),
      (y.toNat / 128 % 2 == 1), (y.toNat / 64 % 2 == 1), (y.toNat / 32 % 2 == 1), (y.toNat / 16 % 2 == 1)] ++
      ([(y.toNat / 8 % 2 == 1), (y.toNat / 4 % 2 == 1), (y.toNat / 2 % 2 == 1), (y.toNat % 2 == 1),
      (z.toNat / 128 % 2 == 1), (z.toNat / 64 % 2 == 1)] ++ ([(z.toNat / 32 % 2 == 1), (z.toNat / 16 % 2 == 1), (z.toNat / 8 % 2 == 1),
      (z.toNat / 4 % 2 == 1), (z.toNat / 2 % 2 == 1), (z.toNat % 2 == 1)] ++ bitString rest))) rfl
    have e2 := groups_append 6 (by omega) [(x.toNat / 2 % 2 == 1), (x.toNat % 2 == 1),
      (y.toNat / 128 % 2 == 1), (y.toNat / 64 % 2 == 1), (y.toNat / 32 % 2 == 1), (y.toNat / 16 % 2 == 1)]
      ([(y.toNat / 8 % 2 == 1), (y.toNat / 4 % 2 == 1), (y.toNat / 2 % 2 == 1), (y.toNat % 2 == 1),
      (z.toNat / 128 % 2 == 1), (z.toNat / 64 % 2 == 1)] ++ ([(z.toNat / 32 % 2 == 1), (z.toNat / 16 % 2 == 1), (z.toNat / 8 % 2 == 1),
      (z.toNat / 4 % 2 == 1), (z.toNat / 2 % 2 == 1), (z.toNat % 2 == 1)] ++ bitString rest)) rfl
    have e3 := groups_append 6 (by omega) [(y.toNat / 8 % 2 == 1), (y.toNat / 4 % 2 == 1), (y.toNat / 2 % 2 == 1), (y.toNat % 2 == 1),
      (z.toNat / 128 % 2 == 1), (z.toNat / 64 % 2 == 1)] ([(z.toNat / 32 % 2 == 1), (z.toNat / 16 % 2 == 1), (z.toNat / 8 % 2 == 1),
      (z.toNat / 4 % 2 == 1), (z.toNat / 2 % 2 == 1), (z.toNat % 2 == 1)] ++ bitString rest) rfl
    have e4 := groups_append 6 (by omega) [(z.toNat / 32 % 2 == 1), (z.toNat / 16 % 2 == 1), (z.toNat / 8 % 2 == 1),
      (z.toNat / 4 % 2 == 1), (z.toNat / 2 % 2 == 1), (z.toNat % 2 == 1)] (bitString rest) rfl
    rw [e2, e3, e4] at e1
    simp only [List.cons_append, List.nil_append] at e1
    rw [e1]
    simp only [List.map_cons, b64Encode, ih, groupValue, List.foldl, bitVal, List.length_cons, List.length_nil, Nat.reduceAdd,
      Nat.sub_self, Nat.pow_zero, Nat.mul_one, Nat.mul_zero, Nat.zero_add]
    rw [b64Char_eq _ (by omega), b64Char_eq _ (by omega), b64Char_eq _ (by omega), b64Char_eq _ (by omega),
      val6a _ hx, val6b _ _ hy, val6c _ _ hz, val6d]
  | case2 x y =>
    have hx := byte_lt x
    have hy := byte_lt y
    unfold baseEncode
    rw [bitString_cons, bitString_cons]
    simp only [bitString, List.flatMap_nil, List.length_cons, List.length_nil, Nat.reduceAdd, groups, List.take, List.drop,
      List.map_cons, List.map_nil, b64Encode, groupValue, List.foldl, bitVal,
      Nat.sub_self, Nat.pow_zero, Nat.mul_one, Nat.mul_zero, Nat.zero_add, Nat.reduceSub, Nat.reducePow]
    rw [b64Char_eq _ (by omega), b64Char_eq _ (by omega), b64Char_eq _ (by omega), val6a _ hx, val6b _ _ hy, val4s]
  | case3 x =>
    have hx := byte_lt x
    unfold baseEncode
    rw [bitString_cons]
    simp only [bitString, List.flatMap_nil, List.length_cons, List.length_nil, Nat.reduceAdd, groups, List.take, List.drop,
      List.map_cons, List.map_nil, b64Encode, groupValue, List.foldl, bitVal,
      Nat.sub_self, Nat.pow_zero, Nat.mul_one, Nat.mul_zero, Nat.zero_add, Nat.reduceSub, Nat.reducePow]
    rw [b64Char_eq _ (by omega), b64Char_eq _ (by omega), val6a _ hx, val2]
  | case4 => rfl

private theorem hexChar_inj : ∀ i, i < 16 → ∀ j, j < 16 → hexChar i = hexChar j → i = j := by decide

set_option maxRecDepth 20000 in
private theorem b64Char_inj : ∀ i, i < 64 → ∀ j, j < 64 → b64Char i = b64Char j → i = j := by decide

/-- Two byte strings with the same hexadecimal text are equal; the text is twice as long. -/
theorem C32_hex_injective (a b : Bytes) : (hexEncode a = hexEncode b → a = b) ∧ (hexEncode a).length = 2 * a.length := by
  constructor
  · induction a generalizing b with
    | nil => cases b <;> simp [hexEncode]
    | cons x xs ih =>
      cases b with
      | nil => simp [hexEncode]
      | cons y ys =>
        intro h
        simp only [hexEncode, List.cons.injEq] at h
        have hx := byte_lt x
        have hy := byte_lt y
        have h1 := hexChar_inj _ (by omega) _ (by omega) h.1
        have h2 := hexChar_inj _ (by omega) _ (by omega) h.2.1
        rw [ih ys h.2.2]
        congr 1
        apply UInt8.toNat_inj.mp
        omega
  · induction a with
    | nil => rfl
    | cons x xs ih => simp only [hexEncode, List.length_cons, ih]; omega

private theorem b64_length (a : Bytes) : (b64Encode a).length = (8 * a.length + 5) / 6 := by
  induction a using b64Encode.induct with
  | case1 x y z rest ih => simp only [b64Encode, List.length_cons, ih]; omega
  | case2 => simp [b64Encode]
  | case3 => simp [b64Encode]
  | case4 => rfl

/-- Two byte strings with the same base64url text are equal (so a challenge text determines the challenge); the text has
`ceil(8 n / 6)` characters. -/
theorem C32_base64url_injective (a b : Bytes) :
    (b64Encode a = b64Encode b → a = b) ∧ (b64Encode a).length = (8 * a.length + 5) / 6 := by
  refine ⟨?_, b64_length a⟩
  induction a using b64Encode.induct generalizing b with
  | case1 x y z rest ih =>
    intro h
    have hl : (8 * (rest.length + 3) + 5) / 6 = (8 * b.length + 5) / 6 := by
      have := congrArg List.length h
      rw [b64_length, b64_length] at this
      simpa [Nat.add_assoc] using this
    match b, hl, h with
    | x' :: y' :: z' :: rest', _, h =>
      simp only [b64Encode, List.cons.injEq] at h
      have hx := byte_lt x
      have hy := byte_lt y
      have hz := byte_lt z
      have hx' := byte_lt x'
      have hy' := byte_lt y'
      have hz' := byte_lt z'
      have h1 := b64Char_inj _ (by omega) _ (by omega) h.1
      have h2 := b64Char_inj _ (by omega) _ (by omega) h.2.1
      have h3 := b64Char_inj _ (by omega) _ (by omega) h.2.2.1
      have h4 := b64Char_inj _ (by omega) _ (by omega) h.2.2.2.1
      rw [ih rest' h.2.2.2.2]
      congr 1
      · apply UInt8.toNat_inj.mp; omega
      · congr 1
        · apply UInt8.toNat_inj.mp; omega
        · congr 1; apply UInt8.toNat_inj.mp; omega
    | [_, _], hl, _ => simp at hl; omega
    | [_], hl, _ => simp at hl; omega
    | [], hl, _ => simp at hl; omega
  | case2 x y =>
    intro h
    have hl := congrArg List.length h
    rw [b64_length, b64_length] at hl
    match b, hl, h with
    | [x', y'], _, h =>
      simp only [b64Encode, List.cons.injEq] at h
      have hx := byte_lt x
      have hy := byte_lt y
      have hx' := byte_lt x'
      have hy' := byte_lt y'
      have h1 := b64Char_inj _ (by omega) _ (by omega) h.1
      have h2 := b64Char_inj _ (by omega) _ (by omega) h.2.1
      have h3 := b64Char_inj _ (by omega) _ (by omega) h.2.2.1
      congr 1
      · apply UInt8.toNat_inj.mp; omega
      · congr 1; apply UInt8.toNat_inj.mp; omega
    | _ :: _ :: _ :: _, hl, _ => simp at hl; omega
    | [_], hl, _ => simp at hl
    | [], hl, _ => simp at hl
  | case3 x =>
    intro h
    have hl := congrArg List.length h
    rw [b64_length, b64_length] at hl
    match b, hl, h with
    | [x'], _, h =>
      simp only [b64Encode, List.cons.injEq] at h
      have hx := byte_lt x
      have hx' := byte_lt x'
      have h1 := b64Char_inj _ (by omega) _ (by omega) h.1
      have h2 := b64Char_inj _ (by omega) _ (by omega) h.2.1
      congr 1
      apply UInt8.toNat_inj.mp; omega
    | _ :: _ :: _ :: _, hl, _ => simp at hl; omega
    | [_, _], hl, _ => simp at hl
    | [], hl, _ => simp at hl
  | case4 =>
    intro h
    have hl := congrArg List.length h
    rw [b64_length, b64_length] at hl
    match b, hl with
    | [], _ => rfl
    | _ :: _, hl => simp at hl; omega

/-- RFC 4648 test vectors: "f", "fo", "foobar", and two bytes that need `-` and `_`. -/
example : b64Encode [102] = ascii "Zg" ∧ b64Encode [102, 111] = ascii "Zm8" ∧
    b64Encode [102, 111, 111, 98, 97, 114] = ascii "Zm9vYmFy" ∧ b64Encode [251, 255] = ascii "-_8" ∧
    hexEncode [0, 171, 255] = ascii "00abff" := by decide

/-- The origin of rebuilt client data: accepted exactly when it is the UTF-8 encoding of some text. -/
theorem C32_utf8 (b : Bytes) : utf8Valid b = true ↔ ∃ text : List Char, b = text.flatMap String.utf8EncodeChar := by
  constructor
  · exact utf8Valid_text b
  · rintro ⟨text, rfl⟩
    induction text with
    | nil => rfl
    | cons c text ih => rw [List.flatMap_cons, utf8Valid_char]; exact ih

/-- With field keys the program knows, the signed client data can be rebuilt exactly if the origin is a text. -/
theorem C32_origin (order origin challenge : Bytes) (ho : ∀ k ∈ order, k.toNat ≤ 4) :
    (∃ json, reconstructJson order origin challenge = .ok json) ↔ ∃ text : List Char, origin = text.flatMap String.utf8EncodeChar := by
  rw [← C32_utf8]
  constructor
  · rintro ⟨json, h⟩
    unfold reconstructJson at h
    split at h
    · assumption
    · cases h
  · intro h
    have : ∃ fs, jsonFields (b64Encode challenge) origin order = .ok fs := by
      clear h
      induction order with
      | nil => exact ⟨[], rfl⟩
      | cons k ks ih =>
        obtain ⟨fs, e⟩ := ih fun x hx => ho x (List.mem_cons_of_mem _ hx)
        have hk : k = 0 ∨ k = 1 ∨ k = 2 ∨ k = 3 ∨ k = 4 := by
          have := ho k (List.mem_cons_self ..)
          simp only [← UInt8.toNat_inj]
          simp
          omega
        have hf : ∃ f, jsonField (b64Encode challenge) origin k = .ok f := by
          rcases hk with rfl | rfl | rfl | rfl | rfl <;> exact ⟨_, rfl⟩
        obtain ⟨f, hf⟩ := hf
        exact ⟨f ++ fs, by simp only [jsonFields, hf, e]; rfl⟩
    obtain ⟨fs, e⟩ := this
    exact ⟨_, by unfold reconstructJson; rw [if_pos h, e]; rfl⟩

/-- A text with characters of one to four bytes; an overlong encoding and a surrogate are refused. -/
example : utf8Valid (['a', 'é', '€', '😀'].flatMap String.utf8EncodeChar) = true := by decide +kernel
example : utf8Valid [0xE0, 0x80, 0xAF] = false ∧ utf8Valid [0xED, 0xA0, 0x80] = false := by decide
example : (reconstructJson [1, 2, 3] (ascii "https://a.example") (zeros 32)).isOk = true := by decide +kernel

end Verif
