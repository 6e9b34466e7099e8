import Verif.Spec.Compact
import Verif.Proofs.Bytes

/-! Lemmas about the compact instruction format. -/

namespace Verif

theorem All2.length_eq {α β : Type} {R : α → β → Prop} {as : List α} {bs : List β} (h : All2 R as bs) :
    as.length = bs.length := by
  induction h <;> simp [*]

theorem drop_of_drop {b x y : Bytes} {c : Nat} (h : b.drop c = x ++ y) : b.drop (c + x.length) = y := by
  rw [← List.drop_drop, h, List.drop_left]

theorem lt_of_drop {b x : Bytes} {c : Nat} (h : b.drop c = x) (hx : x ≠ []) : c + x.length = b.length := by
  have := congrArg List.length h
  rw [List.length_drop] at this
  have : x.length ≠ 0 := by simpa using hx
  omega

theorem getD_of_drop {b y : Bytes} {c : Nat} {x : UInt8} (h : b.drop c = x :: y) : b.getD c 0 = x := by
  have e : b[c]? = some x := by
    have := congrArg (·[0]?) h
    simpa using this
  simp [List.getD, e]

theorem drop_getD {b : Bytes} {c : Nat} (h : c < b.length) : b.drop c = b.getD c 0 :: b.drop (c + 1) := by
  rw [List.drop_eq_getElem_cons h]
  simp [List.getD, h]

theorem readU8_drop {b y : Bytes} {c : Nat} {x : UInt8} (h : b.drop c = x :: y) : readU8 b c = .ok (x.toNat, c + 1) := by
  have := lt_of_drop h (by simp)
  unfold readU8
  rw [if_neg (by simp at this; omega), getD_of_drop h]

theorem readU8_ok {b : Bytes} {c n c' : Nat} (h : readU8 b c = .ok (n, c')) :
    c' = c + 1 ∧ ∃ x : UInt8, x.toNat = n ∧ b.drop c = x :: b.drop (c + 1) := by
  unfold readU8 at h
  split at h
  · cases h
  · rename_i hc
    cases h
    exact ⟨rfl, _, rfl, drop_getD (by omega)⟩

theorem sl_drop {b x y : Bytes} {c : Nat} (h : b.drop c = x ++ y) : sl b c (c + x.length) = x := by
  unfold sl
  rw [h]
  simp

theorem readU16_drop {b y : Bytes} {c n : Nat} (hn : n < 2 ^ 16) (h : b.drop c = natLE 2 n ++ y) :
    readU16 b c = .ok (n, c + 2) := by
  have := congrArg List.length h
  rw [List.length_drop] at this
  simp at this
  unfold readU16
  rw [if_neg (by omega)]
  have : sl b c (c + 2) = natLE 2 n := by
    have := sl_drop h
    rwa [natLE_length] at this
  unfold rd
  rw [this, leNat_natLE_of_lt (by simpa using hn)]

theorem readU16_ok {b : Bytes} {c n c' : Nat} (h : readU16 b c = .ok (n, c')) :
    c' = c + 2 ∧ n < 2 ^ 16 ∧ b.drop c = natLE 2 n ++ b.drop (c + 2) := by
  unfold readU16 at h
  split at h
  · cases h
  · rename_i hc
    cases h
    refine ⟨rfl, rd_lt b c 2, ?_⟩
    have hl : (sl b c (c + 2)).length = 2 := by rw [sl_length_of_le (by omega)]; omega
    have := natLE_leNat (sl b c (c + 2))
    rw [hl] at this
    unfold rd
    rw [this]
    unfold sl
    rw [← List.drop_drop, Nat.add_sub_cancel_left]
    exact (List.take_append_drop _ _).symm

theorem readSlice_drop {b x y : Bytes} {c : Nat} (h : b.drop c = x ++ y) (hc : c ≤ b.length) :
    readSlice b c x.length = .ok (x, c + x.length) := by
  have := congrArg List.length h
  rw [List.length_drop] at this
  simp at this
  unfold readSlice
  rw [if_neg (by omega), sl_drop h]

theorem readSlice_ok {b x : Bytes} {c n c' : Nat} (h : readSlice b c n = .ok (x, c')) :
    c' = c + n ∧ x.length = n ∧ b.drop c = x ++ b.drop (c + n) := by
  unfold readSlice at h
  split at h
  · cases h
  · rename_i hc
    cases h
    refine ⟨rfl, by rw [sl_length_of_le (by omega)]; omega, ?_⟩
    unfold sl
    rw [← List.drop_drop, Nat.add_sub_cancel_left]
    exact (List.take_append_drop _ _).symm

theorem getOr_ok_iff {α : Type} {l : List α} {i : Nat} {e : Err} {a : α} : getOr l i e = .ok a ↔ l[i]? = some a := by
  unfold getOr
  cases l[i]? <;> simp

theorem passes_innerMeta {metas : List Meta} {signer : Key} {restricted : List Key} {x : UInt8} {o : Meta}
    (h : metas[x.toNat]? = some o) : Passes metas signer restricted x (innerMeta signer restricted o) := by
  refine ⟨o, h, rfl, rfl, ?_⟩
  simp [innerMeta]

theorem Passes.eq {metas : List Meta} {signer : Key} {restricted : List Key} {x : UInt8} {a : Meta}
    (h : Passes metas signer restricted x a) : ∃ o, metas[x.toNat]? = some o ∧ a = innerMeta signer restricted o := by
  obtain ⟨o, h1, h2, h3, h4⟩ := h
  refine ⟨o, h1, ?_⟩
  cases a with
  | mk k s w =>
    simp only at h2 h3 h4
    subst h2; subst h3
    unfold innerMeta
    congr 1
    have : (s = true) ↔ (((o.key == signer || o.signer) && !restricted.contains o.key) = true) := by
      rw [h4]; simp
    exact Bool.eq_iff_iff.mpr this

section
variable {metas : List Meta} {signer : Key} {restricted : List Key} {b : Bytes}

theorem innerAccountsGo_drop : ∀ (xs : List UInt8) (as : List Meta) (i c : Nat) (y : Bytes),
    All2 (Passes metas signer restricted) xs as → i + xs.length ≤ 254 → b.drop c = xs ++ y →
    innerAccountsGo metas signer restricted b xs.length i c = .ok (xs.map (·.toNat), as, c + xs.length) := by
  intro xs
  induction xs with
  | nil => intro as i c y h _ _; cases h; rfl
  | cons x xs ih =>
    intro as i c y h hi hd
    cases h with
    | cons hp hr =>
      obtain ⟨o, ho, rfl⟩ := hp.eq
      simp only [List.length_cons] at hi
      simp only [List.length_cons, innerAccountsGo]
      rw [readU8_drop hd]
      simp only [ok_bind]
      rw [getOr_ok_iff.mpr ho]
      simp only [ok_bind]
      rw [if_neg (by omega), ih _ (i + 1) (c + 1) y hr (by omega) (drop_of_drop (x := [x]) hd)]
      simp only [ok_bind, List.map_cons]
      rw [show c + 1 + xs.length = c + (xs.length + 1) from by omega]

theorem innerAccountsGo_ok : ∀ (n i c c' : Nat) (is : List Nat) (as : List Meta), i ≤ 254 →
    innerAccountsGo metas signer restricted b n i c = .ok (is, as, c') →
    i + n ≤ 254 ∧ c' = c + n ∧ ∃ xs : List UInt8, xs.length = n ∧ is = xs.map (·.toNat) ∧
      All2 (Passes metas signer restricted) xs as ∧ b.drop c = xs ++ b.drop (c + n) := by
  intro n
  induction n with
  | zero =>
    intro i c c' is as hi h
    cases h
    exact ⟨by omega, rfl, [], rfl, rfl, .nil, by simp⟩
  | succ n ih =>
    intro i c c' is as hi h
    simp only [innerAccountsGo] at h
    obtain ⟨⟨idx, c1⟩, h1, h⟩ := bind_ok_iff.mp h
    obtain ⟨a, h2, h⟩ := bind_ok_iff.mp h
    split at h
    · cases h
    · rename_i h3
      obtain ⟨⟨is', as', c2⟩, h4, h⟩ := bind_ok_iff.mp h
      cases h
      obtain ⟨rfl, x, hx, hd⟩ := readU8_ok h1
      obtain ⟨k1, k2, xs, k3, k4, k5, k6⟩ := ih (i + 1) (c + 1) _ is' as' (by omega) h4
      refine ⟨by omega, by dsimp only; omega, x :: xs, by simp [k3], by simp [k4, hx], ?_, ?_⟩
      · refine .cons (passes_innerMeta ?_) k5
        rw [hx]; exact getOr_ok_iff.mp h2
      · rw [hd, k6, List.cons_append, show c + 1 + n = c + (n + 1) from by omega]

theorem parseNext_drop {c : Nat} {ci : CompactIx} {i : Inner} {y : Bytes} (hf : ci.Fits) (hd : Denotes metas signer restricted ci i)
    (h : b.drop c = ci.bytes ++ y) : parseNext metas signer restricted b c = .ok (i, c + ci.bytes.length) := by
  obtain ⟨o, ho, hp⟩ := hd.program
  have hn : (UInt8.ofNat ci.accounts.length).toNat = ci.accounts.length := by
    have := hf.1
    simp; omega
  unfold CompactIx.bytes at h
  simp only [List.append_assoc, List.cons_append, List.nil_append] at h
  have h1 := drop_of_drop (x := [_]) h
  have h2 := drop_of_drop (x := [_]) h1
  have h3 := drop_of_drop h2
  have h4 := drop_of_drop h3
  simp only [parseNext]
  rw [readU8_drop h]
  simp only [ok_bind]
  rw [getOr_ok_iff.mpr ho]
  simp only [ok_bind]
  simp only [List.length_cons, List.length_nil, Nat.zero_add] at h1 h2 h3 h4
  rw [readU8_drop h1]
  simp only [ok_bind, hn]
  rw [innerAccountsGo_drop _ _ 0 _ _ hd.accounts (by have := hf.1; omega) h2]
  simp only [ok_bind]
  rw [readU16_drop hf.2 h3]
  simp only [ok_bind]
  rw [natLE_length] at h4
  rw [readSlice_drop h4 (by
    have := congrArg List.length h3
    simp only [List.length_drop, List.length_append, natLE_length] at this
    omega)]
  simp only [ok_bind]
  refine congrArg Except.ok (Prod.ext ?_ ?_)
  · cases i with
    | mk pr is as dt us =>
      have e1 := hd.indexes
      have e2 := hd.data
      have e3 := hd.usesSigner
      simp only at hp e1 e2 e3
      subst hp e1 e2
      simp only [Inner.mk.injEq, true_and]
      refine Bool.eq_iff_iff.mpr (e3.trans ?_).symm
      simp [and_comm]
  · simp [CompactIx.bytes]; omega

theorem parseNext_ok {c c' : Nat} {i : Inner} (h : parseNext metas signer restricted b c = .ok (i, c')) :
    ∃ ci : CompactIx, ci.Fits ∧ Denotes metas signer restricted ci i ∧ c' = c + ci.bytes.length ∧
      b.drop c = ci.bytes ++ b.drop c' := by
  simp only [parseNext] at h
  obtain ⟨⟨p, c1⟩, h1, h⟩ := bind_ok_iff.mp h
  obtain ⟨o, h2, h⟩ := bind_ok_iff.mp h
  obtain ⟨⟨n, c2⟩, h3, h⟩ := bind_ok_iff.mp h
  obtain ⟨⟨is, as, c3⟩, h4, h⟩ := bind_ok_iff.mp h
  obtain ⟨⟨len, c4⟩, h5, h⟩ := bind_ok_iff.mp h
  obtain ⟨⟨d, c5⟩, h6, h⟩ := bind_ok_iff.mp h
  cases h
  obtain ⟨rfl, x, hx, d1⟩ := readU8_ok h1
  obtain ⟨rfl, y, hy, d2⟩ := readU8_ok h3
  obtain ⟨k1, rfl, xs, k3, k4, k5, d3⟩ := innerAccountsGo_ok _ _ _ _ _ _ (by omega) h4
  obtain ⟨rfl, k6, d4⟩ := readU16_ok h5
  obtain ⟨rfl, k7, d5⟩ := readSlice_ok h6
  have hy' : UInt8.ofNat xs.length = y := by
    rw [k3, ← hy]; simp
  refine ⟨⟨x, xs, d⟩, ⟨by simp only; omega, by simp only; omega⟩, ⟨⟨o, ?_, rfl⟩, k4, k5, rfl, ?_⟩, ?_, ?_⟩
  · simp only; rw [hx]; exact getOr_ok_iff.mp h2
  · simp [and_comm]
  · simp [CompactIx.bytes, k3, k7]; omega
  · rw [d1, d2, d3, d4, d5]
    simp only [CompactIx.bytes, hy', k7, List.append_assoc, List.cons_append, List.nil_append]

theorem decodeGo_drop : ∀ (cs : List CompactIx) (is : List Inner) (c : Nat) (y : Bytes),
    (∀ ci ∈ cs, ci.Fits) → All2 (Denotes metas signer restricted) cs is → b.drop c = cs.flatMap CompactIx.bytes ++ y →
    decodeGo metas signer restricted b cs.length c = .ok is := by
  intro cs
  induction cs with
  | nil => intro is c y _ h _; cases h; rfl
  | cons ci cs ih =>
    intro is c y hf h hd
    cases h with
    | cons h1 h2 =>
      simp only [List.flatMap_cons, List.append_assoc] at hd
      simp only [List.length_cons, decodeGo]
      rw [parseNext_drop (hf ci (by simp)) h1 hd]
      simp only [ok_bind]
      rw [ih _ _ y (fun d hd' => hf d (by simp [hd'])) h2 (drop_of_drop hd)]
      rfl

theorem decodeGo_ok : ∀ (n c : Nat) (is : List Inner), decodeGo metas signer restricted b n c = .ok is →
    ∃ (cs : List CompactIx) (y : Bytes), cs.length = n ∧ (∀ ci ∈ cs, ci.Fits) ∧ All2 (Denotes metas signer restricted) cs is ∧
      b.drop c = cs.flatMap CompactIx.bytes ++ y := by
  intro n
  induction n with
  | zero => intro c is h; cases h; exact ⟨[], b.drop c, rfl, by simp, .nil, by simp⟩
  | succ n ih =>
    intro c is h
    simp only [decodeGo] at h
    obtain ⟨⟨i, c1⟩, h1, h⟩ := bind_ok_iff.mp h
    obtain ⟨rest, h2, h⟩ := bind_ok_iff.mp h
    cases h
    obtain ⟨ci, k1, k2, k3, k4⟩ := parseNext_ok h1
    obtain ⟨cs, y, j1, j2, j3, j4⟩ := ih c1 rest h2
    refine ⟨ci :: cs, y, by simp [j1], ?_, .cons k2 j3, ?_⟩
    · intro d hd
      rcases List.mem_cons.mp hd with rfl | hd
      · exact k1
      · exact j2 d hd
    · rw [k4, j4]; simp

/-- The decoder returns `is` exactly when the payload starts with the encoding of compact instructions that denote `is`. -/
theorem decodeIxs_iff (is : List Inner) : decodeIxs metas signer restricted b = .ok is ↔
    ∃ (cs : List CompactIx) (y : Bytes), cs.length ≤ 255 ∧ (∀ ci ∈ cs, ci.Fits) ∧ b = compactBytes cs ++ y ∧
      All2 (Denotes metas signer restricted) cs is := by
  constructor
  · intro h
    unfold decodeIxs at h
    split at h
    · cases h
    · rename_i hb
      obtain ⟨cs, y, h1, h2, h3, h4⟩ := decodeGo_ok _ _ _ h
      have hlt := UInt8.toNat_lt (b.getD 0 0)
      refine ⟨cs, y, by omega, h2, ?_, h3⟩
      cases b with
      | nil => exact absurd rfl hb
      | cons x xs =>
        simp only [List.drop_succ_cons, List.drop_zero] at h4
        have : UInt8.ofNat cs.length = x := by rw [h1]; simp
        simp only [compactBytes, this, List.cons_append, h4]
  · rintro ⟨cs, y, h1, h2, rfl, h3⟩
    unfold decodeIxs
    rw [if_neg (by simp [compactBytes])]
    have : ((compactBytes cs ++ y).getD 0 0).toNat = cs.length := by
      simp [compactBytes]; omega
    rw [this]
    exact decodeGo_drop cs is 1 y h2 h3 (by simp [compactBytes])

end

end Verif
