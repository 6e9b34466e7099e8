import Verif.Spec.Layout
import Verif.Proofs.Bytes
import Verif.Model.Records

/-! # Layout lemmas -/

namespace Verif

def sizes (fs : List Field) : Nat := (fs.map Field.size).sum

theorem sizes_cons (f : Field) (fs : List Field) : sizes (f :: fs) = f.size + sizes fs := by simp [sizes]

theorem le_roundUp {n a : Nat} (h : 1 ≤ a) : n ≤ roundUp n a := by
  unfold roundUp
  have h1 := Nat.div_add_mod (n + a - 1) a
  have h2 := Nat.mod_lt (n + a - 1) (by omega : a > 0)
  rw [Nat.mul_comm] at h1
  omega

theorem le_endFrom {fs : List Field} (hv : ∀ f ∈ fs, 1 ≤ f.align) (n : Nat) : n + sizes fs ≤ endFrom n fs := by
  induction fs generalizing n with
  | nil => simp [sizes, endFrom]
  | cons f fs ih =>
    have h1 := le_roundUp (n := n) (hv f (by simp))
    have h2 := ih (fun g hg => hv g (by simp [hg])) (roundUp n f.align + f.size)
    rw [sizes_cons]
    simp only [endFrom]
    omega

theorem offsets_length (fs : List Field) (n : Nat) : (offsetsFrom n fs).length = fs.length := by
  induction fs generalizing n with
  | nil => rfl
  | cons f fs ih => simp [offsetsFrom, ih]

/-- Fields lie between the start and the end. -/
theorem offset_bounds {fs : List Field} (hv : ∀ f ∈ fs, 1 ≤ f.align) (n i : Nat) (hi : i < fs.length) :
    n ≤ (offsetsFrom n fs).getD i 0 ∧ (offsetsFrom n fs).getD i 0 + (fs.getD i ⟨0, 1⟩).size ≤ endFrom n fs := by
  induction fs generalizing n i with
  | nil => simp at hi
  | cons f fs ih =>
    have h1 := le_roundUp (n := n) (hv f (by simp))
    have hv' : ∀ g ∈ fs, 1 ≤ g.align := fun g hg => hv g (by simp [hg])
    cases i with
    | zero =>
      have h2 := le_endFrom hv' (roundUp n f.align + f.size)
      simp only [offsetsFrom, endFrom, List.getD_cons_zero]
      omega
    | succ i =>
      have h2 := ih hv' (roundUp n f.align + f.size) i (by simpa using hi)
      simp only [offsetsFrom, endFrom, List.getD_cons_succ]
      omega

/-- Without a gap every offset is the sum of the sizes before. -/
theorem offset_tight {fs : List Field} (hv : ∀ f ∈ fs, 1 ≤ f.align) (n i : Nat) (hi : i < fs.length) (he : endFrom n fs = n + sizes fs) :
    (offsetsFrom n fs).getD i 0 = n + sizes (fs.take i) := by
  induction fs generalizing n i with
  | nil => simp at hi
  | cons f fs ih =>
    have h1 := le_roundUp (n := n) (hv f (by simp))
    have hv' : ∀ g ∈ fs, 1 ≤ g.align := fun g hg => hv g (by simp [hg])
    have h2 := le_endFrom hv' (roundUp n f.align + f.size)
    rw [sizes_cons] at he
    simp only [endFrom] at he
    have h3 : roundUp n f.align = n := by omega
    cases i with
    | zero => simp [offsetsFrom, sizes, h3]
    | succ i =>
      have h4 := ih hv' (n + f.size) i (by simpa using hi) (by rw [h3] at he; omega)
      simp only [offsetsFrom, List.getD_cons_succ, List.take_succ_cons, sizes_cons, h3]
      omega

/-- A gap leaves a byte that belongs to no field. -/
theorem gap {fs : List Field} (hv : ∀ f ∈ fs, 1 ≤ f.align) (n : Nat) (he : n + sizes fs < endFrom n fs) :
    ∃ k, n ≤ k ∧ k < endFrom n fs ∧ ∀ i, i < fs.length →
      ¬ ((offsetsFrom n fs).getD i 0 ≤ k ∧ k < (offsetsFrom n fs).getD i 0 + (fs.getD i ⟨0, 1⟩).size) := by
  induction fs generalizing n with
  | nil => simp [endFrom, sizes] at he
  | cons f fs ih =>
    have h1 := le_roundUp (n := n) (hv f (by simp))
    have hv' : ∀ g ∈ fs, 1 ≤ g.align := fun g hg => hv g (by simp [hg])
    by_cases h3 : roundUp n f.align = n
    · rw [sizes_cons] at he
      simp only [endFrom] at he
      rw [h3] at he
      obtain ⟨k, hk, hlt, hno⟩ := ih hv' (n + f.size) (by omega)
      refine ⟨k, by omega, by simp only [endFrom]; rw [h3]; exact hlt, fun i hi => ?_⟩
      cases i with
      | zero => simp only [offsetsFrom, List.getD_cons_zero, h3]; omega
      | succ i =>
        have := hno i (by simpa using hi)
        simpa only [offsetsFrom, List.getD_cons_succ, h3] using this
    · have h2 := le_endFrom hv' (roundUp n f.align + f.size)
      refine ⟨n, Nat.le_refl _, by simp only [endFrom]; omega, fun i hi => ?_⟩
      cases i with
      | zero => simp only [offsetsFrom, List.getD_cons_zero]; omega
      | succ i =>
        have := (offset_bounds hv' (roundUp n f.align + f.size) i (by simpa using hi)).1
        simp only [offsetsFrom, List.getD_cons_succ]
        omega

/-- Without a gap every byte lies in a field. -/
theorem covered (fs : List Field) (k : Nat) (hk : k < sizes fs) :
    ∃ i, i < fs.length ∧ sizes (fs.take i) ≤ k ∧ k < sizes (fs.take i) + (fs.getD i ⟨0, 1⟩).size := by
  induction fs generalizing k with
  | nil => simp [sizes] at hk
  | cons f fs ih =>
    rw [sizes_cons] at hk
    by_cases h : k < f.size
    · exact ⟨0, by simp, by simp [sizes], by simpa [sizes] using h⟩
    · obtain ⟨i, hi, h1, h2⟩ := ih (k - f.size) (by omega)
      refine ⟨i + 1, by simpa using hi, ?_, ?_⟩
      · rw [List.take_succ_cons, sizes_cons]; omega
      · rw [List.take_succ_cons, sizes_cons, List.getD_cons_succ]; omega

theorem foldl_max_le (l : List Nat) (a : Nat) : a ≤ l.foldl max a := by
  induction l generalizing a with
  | nil => simp
  | cons x l ih =>
    simp only [List.foldl_cons]
    exact Nat.le_trans (Nat.le_max_left a x) (ih (max a x))

theorem Record.Valid.alignment {r : Record} (h : r.Valid) : 1 ≤ r.alignment := Nat.le_trans h.1 (foldl_max_le _ _)

theorem Record.NoPadding.tight {r : Record} (hv : r.Valid) (h : r.NoPadding) : endFrom 0 r.fields = 0 + sizes r.fields := by
  have h1 := le_endFrom hv.2 0
  have h2 := le_roundUp (n := endFrom 0 r.fields) hv.alignment
  have h3 : roundUp (endFrom 0 r.fields) r.alignment = sizes r.fields := h
  omega

/-- Values of the fields, one after the other. -/
theorem sl_flatten {fs : List Field} {vs : List Bytes} (hs : vs.map List.length = fs.map Field.size) (i : Nat) (hi : i < fs.length) (rest : Bytes) :
    sl (vs.flatten ++ rest) (sizes (fs.take i)) (sizes (fs.take i) + (fs.getD i ⟨0, 1⟩).size) = vs.getD i [] := by
  induction fs generalizing vs i with
  | nil => simp at hi
  | cons f fs ih =>
    match vs, hs with
    | v :: vs, hs =>
      simp only [List.map_cons, List.cons.injEq] at hs
      cases i with
      | zero => simp [sizes, sl, ← hs.1]
      | succ i =>
        have h1 := ih hs.2 i (by simpa using hi)
        rw [List.take_succ_cons, sizes_cons, List.getD_cons_succ, List.getD_cons_succ, List.flatten_cons, List.append_assoc,
          sl_right _ _ _ _ (by omega), ← h1]
        congr 1 <;> omega

theorem numAt_eq (b : Bytes) {s : Span} (i k : Nat) (h : s = (i, k)) : numAt b s = rd b i k := by subst h; rfl

theorem bytesAt_eq (b : Bytes) {s : Span} (i k : Nat) (h : s = (i, k)) : bytesAt b s = sl b i (i + k) := by subst h; rfl

theorem numAt_one (b : Bytes) {s : Span} (i : Nat) (h : s = (i, 1)) : numAt b s = (b.getD i 0).toNat := by
  subst h
  simp only [numAt, bytesAt, sl]
  rw [show i + 1 - i = 1 by omega, List.getD_eq_getElem?_getD]
  rcases Nat.lt_or_ge i b.length with h | h
  · have : List.take 1 (List.drop i b) = [b[i]] := by rw [List.drop_eq_getElem_cons h]; rfl
    rw [this]
    simp [leNat, List.getElem?_eq_getElem h]
  · simp [List.drop_eq_nil_of_le h, leNat, h]

end Verif
