import Verif.Model.Basic

/-! Helper lemmas about byte strings, little-endian integers and slices. -/

namespace Verif

@[simp] theorem natLE_length (k n : Nat) : (natLE k n).length = k := by
  induction k generalizing n with
  | zero => rfl
  | succ k ih => simp [natLE, ih]

theorem leNat_natLE (k n : Nat) : leNat (natLE k n) = n % 256 ^ k := by
  induction k generalizing n with
  | zero => simp [natLE, leNat, Nat.mod_one]
  | succ k ih =>
    simp only [natLE, leNat, ih]
    have h1 : (UInt8.ofNat n).toNat = n % 256 := by simp
    rw [h1, Nat.pow_succ, Nat.mul_comm (256 ^ k) 256, Nat.mod_mul]

theorem leNat_natLE_of_lt {k n : Nat} (h : n < 256 ^ k) : leNat (natLE k n) = n := by
  rw [leNat_natLE, Nat.mod_eq_of_lt h]

theorem leNat_lt (b : Bytes) : leNat b < 256 ^ b.length := by
  induction b with
  | nil => simp [leNat]
  | cons x xs ih =>
    simp only [leNat, List.length_cons, Nat.pow_succ]
    have := x.toNat_lt
    have h2 : x.toNat < 256 := by simpa using this
    omega

theorem natLE_leNat (b : Bytes) : natLE b.length (leNat b) = b := by
  induction b with
  | nil => rfl
  | cons x xs ih =>
    simp only [leNat, List.length_cons, natLE]
    have h2 : x.toNat < 256 := by simpa using x.toNat_lt
    have h3 : (x.toNat + 256 * leNat xs) / 256 = leNat xs := by omega
    rw [h3, ih]
    congr 1
    apply UInt8.toNat_inj.mp
    simp

theorem leNat_inj {a b : Bytes} (hl : a.length = b.length) (h : leNat a = leNat b) : a = b := by
  rw [← natLE_leNat a, ← natLE_leNat b, hl, h]

theorem natLE_inj {k m n : Nat} (hm : m < 256 ^ k) (hn : n < 256 ^ k) (h : natLE k m = natLE k n) :
    m = n := by
  rw [← leNat_natLE_of_lt hm, ← leNat_natLE_of_lt hn, h]

@[simp] theorem zeros_length (n : Nat) : (zeros n).length = n := by simp [zeros]

theorem leNat_zeros (n : Nat) : leNat (zeros n) = 0 := by
  induction n with
  | zero => rfl
  | succ n ih => simp only [zeros, List.replicate_succ, leNat] at *; rw [ih]; rfl

/-! ### slices of concatenations -/

theorem sl_length (b : Bytes) (i j : Nat) : (sl b i j).length = min (j - i) (b.length - i) := by
  simp [sl]

theorem sl_length_of_le {b : Bytes} {i j : Nat} (h : j ≤ b.length) :
    (sl b i j).length = j - i := by
  simp [sl]; omega

theorem sl_full (b : Bytes) : sl b 0 b.length = b := by simp [sl]

/-- Reading inside the middle part of `pre ++ mid ++ post`. -/
theorem sl_append3 (pre mid post : Bytes) (i j : Nat) (hij : i ≤ j) (h : j ≤ mid.length) :
    sl (pre ++ (mid ++ post)) (pre.length + i) (pre.length + j) = sl mid i j := by
  unfold sl
  rw [List.drop_append]
  have h1 : List.drop (pre.length + i) pre = [] := List.drop_eq_nil_of_le (by omega)
  rw [h1, List.nil_append]
  have h2 : pre.length + i - pre.length = i := by omega
  have h3 : pre.length + j - (pre.length + i) = j - i := by omega
  rw [h2, h3, List.drop_append_of_le_length (by omega), List.take_append_of_le_length]
  simp; omega

theorem sl_mid (pre mid post : Bytes) {i j : Nat} (hi : i = pre.length)
    (hj : j = pre.length + mid.length) : sl (pre ++ (mid ++ post)) i j = mid := by
  subst hi hj
  have := sl_append3 pre mid post 0 mid.length (by omega) (by omega)
  simpa [sl_full] using this

theorem sl_left (a b : Bytes) (i j : Nat) (h : j ≤ a.length) : sl (a ++ b) i j = sl a i j := by
  by_cases hij : i ≤ j
  · have := sl_append3 [] a b i j hij h
    simpa using this
  · have : j - i = 0 := by omega
    simp [sl, this]

theorem sl_right (a b : Bytes) (i j : Nat) (h : a.length ≤ i) :
    sl (a ++ b) i j = sl b (i - a.length) (j - a.length) := by
  unfold sl
  rw [List.drop_append, List.drop_eq_nil_of_le h, List.nil_append]
  congr 1
  omega

theorem sl_sl (b : Bytes) (i j k l : Nat) (h : l ≤ j - i) :
    sl (sl b i j) k l = sl b (i + k) (i + l) := by
  unfold sl
  rw [List.drop_take, List.drop_drop, List.take_take]
  congr 1
  omega

theorem rd_append3 (pre mid post : Bytes) (i k : Nat) (h : i + k ≤ mid.length) :
    rd (pre ++ (mid ++ post)) (pre.length + i) k = rd mid i k := by
  unfold rd
  rw [Nat.add_assoc, sl_append3 _ _ _ _ _ (by omega) h]

theorem rd_lt (b : Bytes) (i k : Nat) : rd b i k < 256 ^ k := by
  unfold rd
  refine Nat.lt_of_lt_of_le (leNat_lt _) ?_
  apply Nat.pow_le_pow_right (by omega)
  rw [sl_length]; omega

theorem put_mid (pre mid post v : Bytes) (hl : v.length = mid.length) :
    put (pre ++ (mid ++ post)) pre.length v = pre ++ (v ++ post) := by
  unfold put
  rw [List.take_left, ← List.drop_drop, List.drop_left, hl, List.drop_left, List.append_assoc]

theorem put_mid' (pre mid post v : Bytes) {i : Nat} (hi : i = pre.length) (hl : v.length = mid.length) :
    put (pre ++ (mid ++ post)) i v = pre ++ (v ++ post) := by
  subst hi; exact put_mid _ _ _ _ hl

theorem put_length {b v : Bytes} {i : Nat} (h : i + v.length ≤ b.length) :
    (put b i v).length = b.length := by
  simp [put]; omega

theorem put_append3 (pre mid post v : Bytes) (i : Nat) (h : i + v.length ≤ mid.length) :
    put (pre ++ (mid ++ post)) (pre.length + i) v = pre ++ (put mid i v ++ post) := by
  unfold put
  rw [List.take_append, List.take_of_length_le (by omega : pre.length ≤ pre.length + i)]
  have e1 : pre.length + i - pre.length = i := by omega
  rw [e1, List.take_append_of_le_length (by omega), Nat.add_assoc, ← List.drop_drop, List.drop_left,
    List.drop_append_of_le_length h]
  simp [List.append_assoc]

theorem write_ok {b v : Bytes} {i : Nat} (h : i + v.length ≤ b.length) :
    write b i v = .ok (put b i v) := by simp [write, h]

theorem slice_ok {b : Bytes} {i j : Nat} (h1 : i ≤ j) (h2 : j ≤ b.length) :
    slice b i j = .ok (sl b i j) := by simp [slice, h1, h2]

theorem slice_eq_ok {b r : Bytes} {i j : Nat} (h : slice b i j = .ok r) :
    i ≤ j ∧ j ≤ b.length ∧ r = sl b i j := by
  unfold slice at h
  split at h
  · rename_i hc; cases h; exact ⟨hc.1, hc.2, rfl⟩
  · cases h

theorem write_eq_ok {b v r : Bytes} {i : Nat} (h : write b i v = .ok r) :
    i + v.length ≤ b.length ∧ r = put b i v := by
  unfold write at h
  split at h
  · rename_i hc; cases h; exact ⟨hc, rfl⟩
  · cases h

/-! ### Except plumbing -/

theorem bind_ok_iff {α β : Type} {x : R α} {f : α → R β} {b : β} :
    (x >>= f) = .ok b ↔ ∃ a, x = .ok a ∧ f a = .ok b := by
  cases x with
  | error e => simp [Bind.bind, Except.bind]
  | ok a => simp [Bind.bind, Except.bind]

theorem map_ok_iff {α β : Type} {x : R α} {f : α → β} {b : β} :
    (f <$> x) = .ok b ↔ ∃ a, x = .ok a ∧ f a = b := by
  cases x with
  | error e => simp [Functor.map, Except.map]
  | ok a => simp [Functor.map, Except.map]

@[simp] theorem ok_bind {α β : Type} (a : α) (f : α → R β) : ((Except.ok a : R α) >>= f) = f a := rfl

@[simp] theorem error_bind {α β : Type} (e : Err) (f : α → R β) :
    ((Except.error e : R α) >>= f) = .error e := rfl

@[simp] theorem pure_eq_ok {α : Type} (a : α) : (pure a : R α) = .ok a := rfl

@[simp] theorem require_ok_iff {c : Prop} [Decidable c] {e : Err} {u : Unit} :
    require c e = .ok u ↔ c := by
  unfold require; split <;> simp [*]

theorem require_of {c : Prop} [Decidable c] {e : Err} (h : c) : require c e = .ok () := by
  simp [require, h]

end Verif
