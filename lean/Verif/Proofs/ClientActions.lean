import Verif.Spec.Client
import Verif.Spec.Charges
import Verif.Proofs.Submit
import Verif.Proofs.Sysvar

/-! Lemmas about actions written by the client library. -/

namespace Verif.Client

theorem Action.bytes_length {a : Action} (h : a.InRange) : a.bytes.length = a.header.2 := by
  cases a <;> simp only [Action.InRange] at h <;> simp [Action.bytes, Action.header, h]

theorem Action.wf {a : Action} (h : a.InRange) : a.toAct.WF := by
  unfold Act.WF Action.toAct
  simp only [Action.bytes_length h]
  cases a <;> rfl

theorem Action.ty_lt (a : Action) : a.header.1 < 2 ^ 16 := by cases a <;> (simp only [Action.header]; decide)
theorem Action.len_lt (a : Action) : a.header.2 < 2 ^ 16 := by cases a <;> simp [Action.header]

theorem Submits.append {d e : Bytes} {as bs : List Act} (h : Submits d as) (h' : Submits e bs) : Submits (d ++ e) (as ++ bs) := by
  induction h with
  | nil => simpa using h'
  | cons a next d as h1 h2 h3 _ ih =>
    rw [List.append_assoc, List.cons_append]
    exact .cons a next _ _ h1 h2 h3 ih

theorem foldl_submits : ∀ (as : List Action) (buf : Bytes) (bs : List Act), (∀ a ∈ as, a.InRange) → Submits buf bs →
    Submits (as.foldl Action.write buf) (bs ++ as.map Action.toAct)
  | [], buf, bs, _, hb => by simpa using hb
  | a :: as, buf, bs, h, hb => by
    have ha := h a (by simp)
    have hl := Action.bytes_length ha
    have h1 := Submits.cons a.toAct (natLE 4 (buf.length + 8 + a.header.2)) [] [] (by simp) a.ty_lt
      (by simp only [Action.toAct, hl]; exact a.len_lt) .nil
    have h2 : Submits (Action.write buf a) (bs ++ [a.toAct]) := by
      have := Submits.append hb h1
      simpa [rawAct, Action.toAct, hl, Action.write, List.append_assoc] using this
    have := foldl_submits as _ _ (fun x hx => h x (by simp [hx])) h2
    simpa [List.append_assoc] using this

theorem writeActions_submits (as : List Action) (h : ∀ a ∈ as, a.InRange) : Submits (writeActions as) (as.map Action.toAct) := by
  have := foldl_submits as [] [] h .nil
  rwa [List.nil_append] at this

/-! Reading fields of concatenations. -/

theorem rd_skip (p q : Bytes) (i k : Nat) (h : p.length ≤ i) : rd (p ++ q) i k = rd q (i - p.length) k := by
  unfold rd
  rw [sl_right _ _ _ _ h]
  congr 2
  omega

theorem rd_here (k n : Nat) (q : Bytes) (h : n < 256 ^ k) : rd (natLE k n ++ q) 0 k = n := by
  simpa using rd_full k n h [] q (i := 0) rfl

theorem rd_only (k n : Nat) (h : n < 256 ^ k) : rd (natLE k n) 0 k = n := by
  simpa using rd_full k n h [] [] (i := 0) rfl

theorem sl_skip (p q : Bytes) (i j : Nat) (h : p.length ≤ i) : sl (p ++ q) i j = sl q (i - p.length) (j - p.length) :=
  sl_right _ _ _ _ h

theorem sl_here (p q : Bytes) (j : Nat) (h : p.length = j) : sl (p ++ q) 0 j = p := by
  subst h; rw [sl_left _ _ _ _ (Nat.le_refl _), sl_full]

theorem sl_only (p : Bytes) (j : Nat) (h : p.length = j) : sl p 0 j = p := by subst h; exact sl_full p

theorem wsub64_eq {a b : Nat} (hb : b < 2 ^ 64) : wsub64 a b = (a + 2 ^ 64 - b) % 2 ^ 64 := by
  unfold wsub64
  rw [Nat.mod_eq_of_lt hb]
  congr 1
  omega

/-- Charging the stored bytes of an action is spending under the action. -/
theorem charge_spend {a : Action} (h : a.InRange) {n slot : Nat} (d : Bytes) :
    chargeFn a.header.1 n slot a.bytes = .ok d ↔ ∃ a', a.spend n slot = some a' ∧ d = a'.bytes := by
  cases a with
  | solLimit x =>
    change (SolLimit.run ⟨rd (natLE 8 x) 0 8⟩ n >>= fun l => .ok (natLE 8 l.amount)) = _ ↔ _
    rw [rd_only 8 x (by simpa [Action.InRange] using h)]
    simp only [SolLimit.run, Action.spend]
    by_cases hn : n ≤ x
    · rw [if_neg (by omega), if_pos hn]
      simp [Action.bytes, eq_comm]
    · rw [if_pos (by omega), if_neg hn]; simp
  | stakeLimit x =>
    change (StakeLimit.run ⟨rd (natLE 8 x) 0 8⟩ n >>= fun l => .ok (natLE 8 l.amount)) = _ ↔ _
    rw [rd_only 8 x (by simpa [Action.InRange] using h)]
    simp only [StakeLimit.run, Action.spend]
    by_cases hn : n ≤ x
    · rw [if_neg (by omega), if_pos hn]
      simp [Action.bytes, eq_comm]
    · rw [if_pos (by omega), if_neg hn]; simp
  | tokenLimit m x =>
    obtain ⟨h1, h2⟩ := h
    change (TokenLimit.run ⟨sl (m ++ natLE 8 x) 0 32, rd (m ++ natLE 8 x) 32 8⟩ n >>= fun l => .ok (l.mint ++ natLE 8 l.current)) = _ ↔ _
    rw [sl_here _ _ _ h1, rd_skip _ _ _ _ (by omega), h1, rd_only 8 x (by simpa using h2)]
    simp only [TokenLimit.run, Action.spend]
    by_cases hn : n ≤ x
    · rw [if_neg (by omega), if_pos hn]
      simp [Action.bytes, eq_comm]
    · rw [if_pos (by omega), if_neg hn]; simp
  | solDestinationLimit m x =>
    obtain ⟨h1, h2⟩ := h
    change (SolDestinationLimit.run ⟨sl (m ++ natLE 8 x) 0 32, rd (m ++ natLE 8 x) 32 8⟩ n >>= fun l =>
      .ok (l.destination ++ natLE 8 l.amount)) = _ ↔ _
    rw [sl_here _ _ _ h1, rd_skip _ _ _ _ (by omega), h1, rd_only 8 x (by simpa using h2)]
    simp only [SolDestinationLimit.run, Action.spend]
    by_cases hn : n ≤ x
    · rw [if_neg (by omega), if_pos hn]
      simp [Action.bytes, eq_comm]
    · rw [if_pos (by omega), if_neg hn]; simp
  | tokenDestinationLimit m t x =>
    obtain ⟨h1, h2, h3⟩ := h
    have e1 : sl (m ++ t ++ natLE 8 x) 0 32 = m := by rw [List.append_assoc, sl_here _ _ _ h1]
    have e2 : sl (m ++ t ++ natLE 8 x) 32 64 = t := by
      rw [List.append_assoc, sl_skip _ _ _ _ (by omega), h1, sl_here _ _ _ (by omega)]
    have e3 : rd (m ++ t ++ natLE 8 x) 64 8 = x := by
      rw [rd_skip _ _ _ _ (by simp [h1, h2])]
      simp only [List.length_append, h1, h2]
      exact rd_only 8 x (by simpa using h3)
    change (TokenDestinationLimit.run ⟨sl (m ++ t ++ natLE 8 x) 0 32, sl (m ++ t ++ natLE 8 x) 32 64, rd (m ++ t ++ natLE 8 x) 64 8⟩ n
      >>= fun l => .ok (l.mint ++ l.destination ++ natLE 8 l.amount)) = _ ↔ _
    rw [e1, e2, e3]
    simp only [TokenDestinationLimit.run, Action.spend]
    by_cases hn : n ≤ x
    · rw [if_neg (by omega), if_pos hn]
      simp [Action.bytes, eq_comm]
    · rw [if_pos (by omega), if_neg hn]; simp
  | solRecurringLimit f w r c =>
    obtain ⟨h1, h2, h3, h4⟩ := h
    generalize hD : (Action.solRecurringLimit f w r c).bytes = D
    have hD' : D = natLE 8 f ++ (natLE 8 w ++ (natLE 8 r ++ natLE 8 c)) := by rw [← hD]; simp [Action.bytes]
    have e1 : rd D 0 8 = f := by rw [hD']; exact rd_here 8 f _ (by simpa using h1)
    have e2 : rd D 8 8 = w := by rw [hD', rd_skip _ _ _ _ (by simp)]; exact rd_here 8 w _ (by simpa using h2)
    have e3 : rd D 16 8 = r := by
      rw [hD', rd_skip _ _ _ _ (by simp), rd_skip _ _ _ _ (by simp)]; simpa using rd_here 8 r _ (by simpa using h3)
    have e4 : rd D 24 8 = c := by
      rw [hD', rd_skip _ _ _ _ (by simp), rd_skip _ _ _ _ (by simp), rd_skip _ _ _ _ (by simp)]
      simpa using rd_only 8 c (by simpa using h4)
    change (SolRecurringLimit.run ⟨rd D 0 8, rd D 8 8, rd D 16 8, rd D 24 8⟩ n slot >>= fun l =>
      .ok (natLE 8 l.recurringAmount ++ natLE 8 l.window ++ natLE 8 l.lastReset ++ natLE 8 l.currentAmount)) = _ ↔ _
    rw [e1, e2, e3, e4]
    simp only [SolRecurringLimit.run, SolRecurringLimit.refill]
    by_cases hr : slot - r > w ∧ n ≤ f
    · have hx : refilled f w r c n slot = (f, slot / w * w) := if_pos hr
      rw [if_pos hr]
      simp only [Action.spend, hx]
      by_cases hw : w = 0
      · rw [if_pos hw, error_bind, error_bind, if_neg (by omega)]; simp
      · rw [if_neg hw, ok_bind, if_neg (by simp only; omega), if_pos ⟨hr.2, by omega⟩]
        simp [Action.bytes, eq_comm]
    · have hx : refilled f w r c n slot = (c, r) := if_neg hr
      rw [if_neg hr, ok_bind]
      simp only [Action.spend, hx]
      by_cases hn : n ≤ c
      · rw [if_neg (by omega), if_pos ⟨hn, by omega⟩]
        simp [Action.bytes, eq_comm]
      · rw [if_pos (by omega), if_neg (by omega)]; simp
  | stakeRecurringLimit f w r c =>
    obtain ⟨h1, h2, h3, h4⟩ := h
    generalize hD : (Action.stakeRecurringLimit f w r c).bytes = D
    have hD' : D = natLE 8 f ++ (natLE 8 w ++ (natLE 8 r ++ natLE 8 c)) := by rw [← hD]; simp [Action.bytes]
    have e1 : rd D 0 8 = f := by rw [hD']; exact rd_here 8 f _ (by simpa using h1)
    have e2 : rd D 8 8 = w := by rw [hD', rd_skip _ _ _ _ (by simp)]; exact rd_here 8 w _ (by simpa using h2)
    have e3 : rd D 16 8 = r := by
      rw [hD', rd_skip _ _ _ _ (by simp), rd_skip _ _ _ _ (by simp)]; simpa using rd_here 8 r _ (by simpa using h3)
    have e4 : rd D 24 8 = c := by
      rw [hD', rd_skip _ _ _ _ (by simp), rd_skip _ _ _ _ (by simp), rd_skip _ _ _ _ (by simp)]
      simpa using rd_only 8 c (by simpa using h4)
    change (StakeRecurringLimit.run ⟨rd D 0 8, rd D 8 8, rd D 16 8, rd D 24 8⟩ n slot >>= fun l =>
      .ok (natLE 8 l.recurringAmount ++ natLE 8 l.window ++ natLE 8 l.lastReset ++ natLE 8 l.currentAmount)) = _ ↔ _
    rw [e1, e2, e3, e4]
    simp only [StakeRecurringLimit.run, StakeRecurringLimit.refill]
    by_cases hr : slot - r > w ∧ n ≤ f
    · have hx : refilled f w r c n slot = (f, slot / w * w) := if_pos hr
      rw [if_pos hr]
      simp only [Action.spend, hx]
      by_cases hw : w = 0
      · rw [if_pos hw, error_bind, error_bind, if_neg (by omega)]; simp
      · rw [if_neg hw, ok_bind, if_neg (by simp only; omega), if_pos ⟨hr.2, by omega⟩]
        simp [Action.bytes, eq_comm]
    · have hx : refilled f w r c n slot = (c, r) := if_neg hr
      rw [if_neg hr, ok_bind]
      simp only [Action.spend, hx]
      by_cases hn : n ≤ c
      · rw [if_neg (by omega), if_pos ⟨hn, by omega⟩]
        simp [Action.bytes, eq_comm]
      · rw [if_pos (by omega), if_neg (by omega)]; simp
  | tokenRecurringLimit m w f c r =>
    obtain ⟨h0, h1, h2, h3, h4⟩ := h
    generalize hD : (Action.tokenRecurringLimit m w f c r).bytes = D
    have hD' : D = m ++ (natLE 8 w ++ (natLE 8 f ++ (natLE 8 c ++ natLE 8 r))) := by rw [← hD]; simp [Action.bytes]
    have e0 : sl D 0 32 = m := by rw [hD']; exact sl_here _ _ _ h0
    have e1 : rd D 32 8 = w := by
      rw [hD', rd_skip _ _ _ _ (by simp [h0])]; simpa [h0] using rd_here 8 w _ (by simpa using h1)
    have e2 : rd D 40 8 = f := by
      rw [hD', rd_skip _ _ _ _ (by simp [h0]), rd_skip _ _ _ _ (by simp [h0])]; simpa [h0] using rd_here 8 f _ (by simpa using h2)
    have e3 : rd D 48 8 = c := by
      rw [hD', rd_skip _ _ _ _ (by simp [h0]), rd_skip _ _ _ _ (by simp [h0]), rd_skip _ _ _ _ (by simp [h0])]
      simpa [h0] using rd_here 8 c _ (by simpa using h3)
    have e4 : rd D 56 8 = r := by
      rw [hD', rd_skip _ _ _ _ (by simp [h0]), rd_skip _ _ _ _ (by simp [h0]), rd_skip _ _ _ _ (by simp [h0]),
        rd_skip _ _ _ _ (by simp [h0])]
      simpa [h0] using rd_only 8 r (by simpa using h4)
    change (TokenRecurringLimit.run ⟨sl D 0 32, rd D 32 8, rd D 40 8, rd D 48 8, rd D 56 8⟩ n slot >>= fun l =>
      .ok (l.mint ++ natLE 8 l.window ++ natLE 8 l.limit ++ natLE 8 l.current ++ natLE 8 l.lastReset)) = _ ↔ _
    rw [e0, e1, e2, e3, e4]
    simp only [TokenRecurringLimit.run, TokenRecurringLimit.refill]
    by_cases hr : slot - r > w ∧ n ≤ f
    · have hx : refilled f w r c n slot = (f, slot / w * w) := if_pos hr
      rw [if_pos hr]
      simp only [Action.spend, hx]
      by_cases hw : w = 0
      · rw [if_pos hw, error_bind, error_bind, if_neg (by omega)]; simp
      · rw [if_neg hw, ok_bind, if_neg (by simp only; omega), if_pos ⟨hr.2, by omega⟩]
        simp [Action.bytes, eq_comm]
    · have hx : refilled f w r c n slot = (c, r) := if_neg hr
      rw [if_neg hr, ok_bind]
      simp only [Action.spend, hx]
      by_cases hn : n ≤ c
      · rw [if_neg (by omega), if_pos ⟨hn, by omega⟩]
        simp [Action.bytes, eq_comm]
      · rw [if_pos (by omega), if_neg (by omega)]; simp
  | solRecurringDestinationLimit m f w r c =>
    obtain ⟨h0, h1, h2, h3, h4⟩ := h
    generalize hD : (Action.solRecurringDestinationLimit m f w r c).bytes = D
    have hD' : D = m ++ (natLE 8 f ++ (natLE 8 w ++ (natLE 8 r ++ natLE 8 c))) := by rw [← hD]; simp [Action.bytes]
    have e0 : sl D 0 32 = m := by rw [hD']; exact sl_here _ _ _ h0
    have e1 : rd D 32 8 = f := by
      rw [hD', rd_skip _ _ _ _ (by simp [h0])]; simpa [h0] using rd_here 8 f _ (by simpa using h1)
    have e2 : rd D 40 8 = w := by
      rw [hD', rd_skip _ _ _ _ (by simp [h0]), rd_skip _ _ _ _ (by simp [h0])]; simpa [h0] using rd_here 8 w _ (by simpa using h2)
    have e3 : rd D 48 8 = r := by
      rw [hD', rd_skip _ _ _ _ (by simp [h0]), rd_skip _ _ _ _ (by simp [h0]), rd_skip _ _ _ _ (by simp [h0])]
      simpa [h0] using rd_here 8 r _ (by simpa using h3)
    have e4 : rd D 56 8 = c := by
      rw [hD', rd_skip _ _ _ _ (by simp [h0]), rd_skip _ _ _ _ (by simp [h0]), rd_skip _ _ _ _ (by simp [h0]),
        rd_skip _ _ _ _ (by simp [h0])]
      simpa [h0] using rd_only 8 c (by simpa using h4)
    change (SolRecurringDestinationLimit.run ⟨sl D 0 32, rd D 32 8, rd D 40 8, rd D 48 8, rd D 56 8⟩ n slot >>= fun l =>
      .ok (l.destination ++ natLE 8 l.recurringAmount ++ natLE 8 l.window ++ natLE 8 l.lastReset ++ natLE 8 l.currentAmount)) = _ ↔ _
    rw [e0, e1, e2, e3, e4]
    simp only [SolRecurringDestinationLimit.run, wsub64_eq h3]
    by_cases hr : (slot + 2 ^ 64 - r) % 2 ^ 64 > w ∧ n ≤ f
    · have hx : refilledDest f w r c n slot = (f, slot) := if_pos hr
      simp only [if_pos hr, Action.spend, hx]
      rw [if_neg (by omega), if_pos hr.2]
      simp [Action.bytes, eq_comm]
    · have hx : refilledDest f w r c n slot = (c, r) := if_neg hr
      simp only [if_neg hr, Action.spend, hx]
      by_cases hn : n ≤ c
      · rw [if_neg (by omega), if_pos hn]
        simp [Action.bytes, eq_comm]
      · rw [if_pos (by omega), if_neg hn]; simp
  | tokenRecurringDestinationLimit m t f w r c =>
    obtain ⟨h0, h0', h1, h2, h3, h4⟩ := h
    generalize hD : (Action.tokenRecurringDestinationLimit m t f w r c).bytes = D
    have hD' : D = m ++ (t ++ (natLE 8 f ++ (natLE 8 w ++ (natLE 8 r ++ natLE 8 c)))) := by rw [← hD]; simp [Action.bytes]
    have e0 : sl D 0 32 = m := by rw [hD']; exact sl_here _ _ _ h0
    have e0' : sl D 32 64 = t := by
      rw [hD', sl_skip _ _ _ _ (by omega), h0]; exact sl_here _ _ _ h0'
    have e1 : rd D 64 8 = f := by
      rw [hD', rd_skip _ _ _ _ (by simp [h0]), rd_skip _ _ _ _ (by simp [h0, h0'])]
      simpa [h0, h0'] using rd_here 8 f _ (by simpa using h1)
    have e2 : rd D 72 8 = w := by
      rw [hD', rd_skip _ _ _ _ (by simp [h0]), rd_skip _ _ _ _ (by simp [h0, h0']), rd_skip _ _ _ _ (by simp [h0, h0'])]
      simpa [h0, h0'] using rd_here 8 w _ (by simpa using h2)
    have e3 : rd D 80 8 = r := by
      rw [hD', rd_skip _ _ _ _ (by simp [h0]), rd_skip _ _ _ _ (by simp [h0, h0']), rd_skip _ _ _ _ (by simp [h0, h0']),
        rd_skip _ _ _ _ (by simp [h0, h0'])]
      simpa [h0, h0'] using rd_here 8 r _ (by simpa using h3)
    have e4 : rd D 88 8 = c := by
      rw [hD', rd_skip _ _ _ _ (by simp [h0]), rd_skip _ _ _ _ (by simp [h0, h0']), rd_skip _ _ _ _ (by simp [h0, h0']),
        rd_skip _ _ _ _ (by simp [h0, h0']), rd_skip _ _ _ _ (by simp [h0, h0'])]
      simpa [h0, h0'] using rd_only 8 c (by simpa using h4)
    change (TokenRecurringDestinationLimit.run ⟨sl D 0 32, sl D 32 64, rd D 64 8, rd D 72 8, rd D 80 8, rd D 88 8⟩ n slot >>= fun l =>
      .ok (l.mint ++ l.destination ++ natLE 8 l.recurringAmount ++ natLE 8 l.window ++ natLE 8 l.lastReset ++
        natLE 8 l.currentAmount)) = _ ↔ _
    rw [e0, e0', e1, e2, e3, e4]
    simp only [TokenRecurringDestinationLimit.run, wsub64_eq h3]
    by_cases hr : (slot + 2 ^ 64 - r) % 2 ^ 64 > w ∧ n ≤ f
    · have hx : refilledDest f w r c n slot = (f, slot) := if_pos hr
      simp only [if_pos hr, Action.spend, hx]
      rw [if_neg (by omega), if_pos hr.2]
      simp [Action.bytes, eq_comm]
    · have hx : refilledDest f w r c n slot = (c, r) := if_neg hr
      simp only [if_neg hr, Action.spend, hx]
      by_cases hn : n ≤ c
      · rw [if_neg (by omega), if_pos hn]
        simp [Action.bytes, eq_comm]
      · rw [if_pos (by omega), if_neg hn]; simp
  | programScope c l w r p t st nt s e =>
    obtain ⟨h1, h2, h3, h4, h5, h6, h7, h8, h9, h10⟩ := h
    generalize hD : (Action.programScope c l w r p t st nt s e).bytes = D
    have hD' : D = natLE 16 c ++ (natLE 16 l ++ (natLE 8 w ++ (natLE 8 r ++ (p ++ (t ++ (natLE 8 st ++ (natLE 8 nt ++ (natLE 8 s ++
        natLE 8 e)))))))) := by
      rw [← hD]; simp [Action.bytes]
    have e1 : rd D 0 16 = c := by rw [hD']; exact rd_here 16 c _ (by simpa using h1)
    have e2 : rd D 16 16 = l := by
      rw [hD', rd_skip _ _ _ _ (by simp)]; simpa using rd_here 16 l _ (by simpa using h2)
    have e3 : rd D 32 8 = w := by
      rw [hD', rd_skip _ _ _ _ (by simp), rd_skip _ _ _ _ (by simp)]; simpa using rd_here 8 w _ (by simpa using h3)
    have e4 : rd D 40 8 = r := by
      rw [hD', rd_skip _ _ _ _ (by simp), rd_skip _ _ _ _ (by simp), rd_skip _ _ _ _ (by simp)]
      simpa using rd_here 8 r _ (by simpa using h4)
    have e5 : rd D 112 8 = st := by
      rw [hD', rd_skip _ _ _ _ (by simp), rd_skip _ _ _ _ (by simp), rd_skip _ _ _ _ (by simp), rd_skip _ _ _ _ (by simp),
        rd_skip _ _ _ _ (by simp [h5]), rd_skip _ _ _ _ (by simp [h5, h6])]
      simpa [h5, h6] using rd_here 8 st _ (by simpa using h7)
    have e6 : sl D 48 144 = p ++ (t ++ (natLE 8 st ++ (natLE 8 nt ++ (natLE 8 s ++ natLE 8 e)))) := by
      rw [hD', sl_skip _ _ _ _ (by simp), sl_skip _ _ _ _ (by simp), sl_skip _ _ _ _ (by simp), sl_skip _ _ _ _ (by simp)]
      simpa using sl_only (p ++ (t ++ (natLE 8 st ++ (natLE 8 nt ++ (natLE 8 s ++ natLE 8 e))))) 96 (by simp [h5, h6])
    change chargeScope n slot D = _ ↔ _
    unfold chargeScope
    rw [e6]
    have hdec : ProgramScope.decode D = ⟨c, l, w, r, sl D 48 80, sl D 80 112, st, rd D 120 8, rd D 128 8, rd D 136 8⟩ := by
      rw [← e1, ← e2, ← e3, ← e4, ← e5]; rfl
    rw [hdec]
    simp only [ProgramScope.run, ProgramScope.refill, satAdd128]
    by_cases t0 : st % 256 = 0
    · rw [if_pos t0]
      simp only [Action.spend, if_pos t0]
      simp [Action.bytes, eq_comm]
    · rw [if_neg t0]
      simp only [Action.spend, if_neg t0]
      by_cases t1 : st % 256 = 1
      · rw [if_pos t1, if_pos t1]
        by_cases hl : min (c + n) (2 ^ 128 - 1) ≤ l
        · simp only [if_neg (Nat.not_lt.mpr hl), if_pos hl, gt_iff_lt]
          simp [Action.bytes, eq_comm]
        · simp only [if_pos (Nat.lt_of_not_le hl), if_neg hl, gt_iff_lt]; simp
      · rw [if_neg t1, if_neg t1]
        by_cases t2 : st % 256 = 2
        · rw [if_pos t2, if_pos t2]
          by_cases hr : slot - r > w
          · rw [if_pos hr, if_pos hr]
            by_cases hw : w = 0
            · rw [if_pos hw, if_pos hw]; simp
            · rw [if_neg hw, if_neg hw, ok_bind]
              by_cases hl : min (0 + n) (2 ^ 128 - 1) ≤ l
              · simp only [if_neg (Nat.not_lt.mpr hl), if_pos hl, gt_iff_lt]
                simp [Action.bytes, eq_comm]
              · simp only [if_pos (Nat.lt_of_not_le hl), if_neg hl, gt_iff_lt]; simp
          · rw [if_neg hr, if_neg hr, ok_bind]
            by_cases hl : min (c + n) (2 ^ 128 - 1) ≤ l
            · simp only [if_neg (Nat.not_lt.mpr hl), if_pos hl, gt_iff_lt]
              simp [Action.bytes, eq_comm]
            · simp only [if_pos (Nat.lt_of_not_le hl), if_neg hl, gt_iff_lt]; simp
        · rw [if_neg t2, if_neg t2]; simp
  | _ =>
    change (Except.error Err.invalidArgument : R Bytes) = _ ↔ _
    simp [Action.spend]

end Verif.Client
