import Verif.Proofs.Scope
import Verif.Proofs.ChargesRec
import Verif.Props.SignTokens
import Verif.Props.Limits
import Verif.Spec.SampleStake

/-!
# C66, C68: program scopes in a signing

A program scope names an account, a balance field in it and a limit.  The charge is right when the acting role is the first one (by id)
with a scope for the account; otherwise the balance before the calls is read with the scope of that other role.
-/

namespace Verif

theorem scope_run_shape {l l' : ProgramScope} {n s : Nat} (h : l.run n s = .ok l') :
    l' = { l with currentAmount := l'.currentAmount, lastReset := l'.lastReset } ∧
    (l.currentAmount < 2 ^ 128 → l'.currentAmount < 2 ^ 128) ∧ (s < 2 ^ 64 → l.lastReset < 2 ^ 64 → l'.lastReset < 2 ^ 64) := by
  have hsat : ∀ a b, satAdd128 a b < 2 ^ 128 := fun a b => by unfold satAdd128; omega
  unfold ProgramScope.run at h
  dsimp only at h
  split at h
  · cases h; exact ⟨rfl, id, fun _ h => h⟩
  · split at h
    · split at h
      · cases h
      · cases h; exact ⟨rfl, fun _ => hsat _ _, fun _ h => h⟩
    · split at h
      · obtain ⟨l1, h1, h⟩ := bind_ok_iff.mp h
        unfold ProgramScope.refill at h1
        split at h
        · cases h
        · cases h
          split at h1
          · split at h1
            · cases h1
            · cases h1
              refine ⟨rfl, fun _ => hsat _ _, fun hs _ => ?_⟩
              exact Nat.lt_of_le_of_lt (Nat.div_mul_le_self _ _) hs
          · cases h1; exact ⟨rfl, fun _ => hsat _ _, fun _ h => h⟩
      · cases h

theorem chargeList_scope {slot : Nat} (hs : slot < 2 ^ 64) {ns : List Nat} {d d' : Bytes} (hl : d.length = 144)
    (h : chargeList P.programScope slot d ns = .ok d') :
    play ProgramScope.charge (.decode d) (ns.map fun n => ⟨n, slot⟩) = (.decode d', ns.map fun n => ⟨n, slot⟩) := by
  refine chargeList_play (len := 144) (fun n d d1 hl h => ?_) hl h
  obtain ⟨l', h1, e⟩ := chargeScope_ok hl (show chargeScope n slot d = .ok d1 from h)
  obtain ⟨s1, s2, s3⟩ := scope_run_shape h1
  have b1 : l'.currentAmount < 2 ^ 128 := s2 (rd_lt d 0 16)
  have b2 : l'.lastReset < 2 ^ 64 := s3 hs (rd_lt d 40 8)
  have hlen : d1.length = 144 := by rw [e]; simp [sl_length]; omega
  refine ⟨?_, hlen⟩
  show (ProgramScope.decode d).run n slot = _
  rw [h1, s1]
  have k0 : sl d1 48 144 = sl d 48 144 := by
    rw [e]
    have : natLE 16 l'.currentAmount ++ (sl d 16 40 ++ (natLE 8 l'.lastReset ++ sl d 48 144)) =
      (natLE 16 l'.currentAmount ++ sl d 16 40 ++ natLE 8 l'.lastReset) ++ (sl d 48 144 ++ []) := by simp
    rw [this]
    exact sl_mid _ _ _ (by simp [sl_length]; omega) (by simp [sl_length]; omega)
  have k1 : sl d1 16 40 = sl d 16 40 := by
    rw [e]
    exact sl_mid _ _ _ (by simp) (by simp [sl_length]; omega)
  have k2 : rd d1 0 16 = l'.currentAmount := by
    rw [e]
    have := sl_mid [] (natLE 16 l'.currentAmount) (sl d 16 40 ++ (natLE 8 l'.lastReset ++ sl d 48 144)) (i := 0) (j := 16) rfl (by simp)
    show leNat (sl _ 0 16) = _
    rw [List.nil_append] at this
    rw [this]
    exact leNat_natLE_of_lt b1
  have k3 : rd d1 40 8 = l'.lastReset := by
    rw [e]
    have := sl_mid (natLE 16 l'.currentAmount ++ sl d 16 40) (natLE 8 l'.lastReset) (sl d 48 144) (i := 40) (j := 48)
      (by simp [sl_length]; omega) (by simp [sl_length]; omega)
    show leNat (sl _ 40 48) = _
    rw [List.append_assoc] at this
    rw [this]
    exact leNat_natLE_of_lt b2
  have g : ∀ (i j k a b : Nat), sl d1 a b = sl d a b → a ≤ i → j ≤ b → i ≤ j → sl d1 i j = sl d i j := by
    intro i j k a b hab h1 h2 h3
    have : sl (sl d1 a b) (i - a) (j - a) = sl (sl d a b) (i - a) (j - a) := by rw [hab]
    rw [sl_sl _ _ _ _ _ (by omega), sl_sl _ _ _ _ _ (by omega), show a + (i - a) = i by omega, show a + (j - a) = j by omega] at this
    exact this
  have r : ∀ (i n a b : Nat), sl d1 a b = sl d a b → a ≤ i → i + n ≤ b → rd d1 i n = rd d i n := by
    intro i n a b hab h1 h2
    show leNat (sl d1 i (i + n)) = leNat (sl d i (i + n))
    rw [g i (i + n) 0 a b hab h1 h2 (by omega)]
  unfold ProgramScope.decode
  rw [k2, k3, r 16 16 16 40 k1 (by omega) (by omega), r 32 8 16 40 k1 (by omega) (by omega), r 112 8 48 144 k0 (by omega) (by omega),
    r 120 8 48 144 k0 (by omega) (by omega), r 128 8 48 144 k0 (by omega) (by omega), r 136 8 48 144 k0 (by omega) (by omega),
    g 48 80 0 48 144 k0 (by omega) (by omega) (by omega), g 80 112 0 48 144 k0 (by omega) (by omega) (by omega)]

/-- A successful reading of the balance before the calls is the value of the field. -/
theorem readScope_field {d : Bytes} {a : Acct} {b : Nat} (hf : HasField d) (ht : rd d 112 8 ≠ 0)
    (h : readScopeBalance a.data (ProgramScope.decode d) = .ok b) :
    b = fieldOf d a ∧ b < 2 ^ 128 ∧ ∃ n, numericWidth (rd d 120 8) = some n ∧ rd d 136 8 = rd d 128 8 + n := by
  have h1 := rd_lt d 128 8
  have h2 := rd_lt d 136 8
  unfold HasField at hf
  unfold readScopeBalance at h
  rw [if_neg (show ¬ (ProgramScope.decode d).scopeType = 0 from ht)] at h
  split at h
  · cases h
  · split at h
    · cases h
    · rename_i n hn
      split at h
      · cases h
      · rename_i hw
        have hw : wsub64 (rd d 136 8) (rd d 128 8) = n := Decidable.not_not.mp hw
        have hn2 : rd d 136 8 = rd d 128 8 + n := by
          unfold wsub64 at hw
          omega
        split at h
        · cases h
          refine ⟨?_, ?_, n, hn, hn2⟩
          · unfold fieldOf; rw [hn2]; rfl
          · have h3 := rd_lt a.data (rd d 128 8) n
            have h4 : n ≤ 16 := by
              unfold numericWidth at hn
              dsimp only at hn
              split at hn
              · cases hn; omega
              · split at hn
                · cases hn; omega
                · split at hn
                  · cases hn; omega
                  · split at hn
                    · cases hn; omega
                    · cases hn
            have h5 : 256 ^ n ≤ 256 ^ 16 := Nat.pow_le_pow_right (by omega) h4
            have h6 : (256 : Nat) ^ 16 = 2 ^ 128 := by decide
            show rd a.data (rd d 128 8) n < 2 ^ 128
            omega
        · cases h

section
variable {env : Env} {cpi : Cpi} {m m' : Mem} {swig wallet : Meta} {rest : List Meta} {ix : Bytes} {w : Wallet} {r : Role}
  {ixs : List Inner} {m1 : Mem} {x : SignCtx} {cls : List Class} {hs : List (Option Bytes)} {total : Nat} {acc : List (Meta × Class)}
  {as' : List Act}

/-- The loss of the balance field is covered by the charges to the scope. -/
theorem Out.scopeCharged (o : Out env cpi m m' swig wallet rest ix w r ixs m1 x cls hs total acc as') (hw : w.WF)
    (hd : (m swig.key).data = w.encode) (hr : r ∈ w.roles) (hk : ∀ a ∈ rest, a.key.length = 32) {a : Meta} {d : Bytes} (ha : a ∈ rest)
    (hwr : a.writable = true) (ho : Ordinary (m a.key)) (hl : payload? r.actions P.programScope a.key = some d) (hf : HasField d)
    (ht : rd d 112 8 ≠ 0) (hfirst : ∀ r' ∈ w.roles, r'.id < r.id → payload? r'.actions P.programScope a.key = none) :
    fieldOf d (m a.key) - fieldOf d (m' a.key) ≤ (amounts ((if total = 0 then [] else solSeg x r.actions total) ++
      acc.flatMap fun e => segOf x m1 r.actions e.1 e.2) P.programScope a.key).sum := by
  obtain ⟨i, hi⟩ := List.getElem?_of_mem ha
  obtain ⟨hne, c, e, b0, b, s, h, e1, e2, e3, e4, e5, e6, _, e8⟩ := o.scoped hw hd hi ho hr (by rw [hl]; rfl)
  have e9 := findScope_first hw e1 hr hl hfirst
  rw [e2] at e9
  cases e9
  obtain ⟨f1, f2, n, f3, f4⟩ := readScope_field hf ht e3
  have hle := e5 f2
  have hmm : m' a.key = m1 a.key := o.other _ hne
  have hb : b = fieldOf d (m1 a.key) := by
    rcases e8 with ⟨g1, g2⟩ | g
    · rw [g1, g2, f1, Mem.setData_other _ _ hne]
    · have g := g hwr
      have hfind := o.find P.programScope a.key (fun _ => hk a ha)
      rw [hl] at hfind
      refine g d _ hfind ?_
      obtain ⟨s', rs, k1, k2, _⟩ := e6
      rw [hl] at k1
      cases k1
      have k3 : rd d 128 8 < rd d 136 8 ∧ rd d 136 8 ≤ (m1 a.key).data.length := by
        unfold scopeRange at k2
        split at k2
        · assumption
        · cases k2
      have h1 := rd_lt d 128 8
      have h2 := rd_lt d 136 8
      unfold ProgramScope.readAccountBalance
      rw [if_neg (show ¬ ((ProgramScope.decode d).balanceFieldStart = 0 ∧ (ProgramScope.decode d).balanceFieldEnd = 0) from
          fun hz => by have hz : rd d 128 8 = 0 ∧ rd d 136 8 = 0 := hz; omega),
        if_neg (show ¬ (m1 a.key).data.length < (ProgramScope.decode d).balanceFieldEnd from
          fun hz => by have hz : (m1 a.key).data.length < rd d 136 8 := hz; omega),
        show numericWidth (ProgramScope.decode d).numericType = some n from f3]
      show readNumericField (m1 a.key).data (rd d 128 8) (rd d 136 8) n = _
      unfold readNumericField
      rw [if_neg (by unfold wsub64; omega), if_pos (by omega)]
      unfold fieldOf
      rw [f4]; rfl
  rw [hmm, ← hb, ← f1]
  rw [amounts_append, List.sum_append, amounts_flatMap]
  refine Nat.le_trans ?_ (Nat.le_add_left _ _)
  have hmem : (amounts (segOf x m1 r.actions a (.scope (r.id % 256) b s)) P.programScope a.key).sum ∈
      acc.map fun e => (amounts (segOf x m1 r.actions e.1 e.2) P.programScope a.key).sum :=
    List.mem_map.mpr ⟨_, List.mem_of_getElem? e4, rfl⟩
  have h2 := le_sum_of_mem hmem
  refine Nat.le_trans ?_ h2
  by_cases hs0 : s = 0
  · omega
  · simp only [segOf]
    rw [if_neg hs0]
    have := le_sum_of_mem (amounts_mem (c := ⟨P.programScope, a.key, s⟩) (ty := P.programScope) (key := a.key)
      (cs := [⟨P.programScope, a.key, s⟩]) (by simp) rfl (fun _ => rfl))
    simp only at this
    omega

/-- Fixed limit (kind 1): the balance field of the named account loses at most what is added to the recorded usage, and the usage stays
within the limit.  Missing from the full claim: it holds only if no role with a smaller id has a scope for the account (`C66_refuted`). -/
theorem C66_limit_partial (h : RestrictedSign env cpi m m' swig wallet rest ix w r) {a : Meta} {d : Bytes} (ha : a ∈ rest)
    (hwr : a.writable = true) (ho : Ordinary (m a.key)) (hl : r.limit? P.programScope a.key = some d) (hf : HasField d)
    (ht : rd d 112 8 = 1) (hmax : rd d 16 16 < 2 ^ 128 - 1) (hused : rd d 0 16 ≤ rd d 16 16)
    (hfirst : ∀ r' ∈ w.roles, r'.id < r.id → r'.limit? P.programScope a.key = none) :
    ∃ ixs m1, AfterCalls env cpi m (swig :: wallet :: rest) swig wallet ix w ixs m1 ∧ (ConfigClash env m m1 swig ix w ∨
      ∃ w' r' d', StoredAs m' swig ix w' r' ∧ r'.limit? P.programScope a.key = some d' ∧ rd d' 16 16 = rd d 16 16 ∧
        rd d 0 16 ≤ rd d' 0 16 ∧ rd d' 0 16 ≤ rd d 16 16 ∧
        fieldOf d (m a.key) - fieldOf d (m' a.key) ≤ rd d' 0 16 - rd d 0 16) := by
  obtain ⟨ixs, m1, h1, h2 | ⟨x, cls, hs, total, acc, as', o⟩⟩ := h.out
  · exact ⟨ixs, m1, h1, .inl h2⟩
  · refine ⟨ixs, m1, h1, .inr ?_⟩
    have g := o.scopeCharged h.wf h.stored (role?_mem h.role).1 (fun a ha => h.runtime.keys a (by simp [ha])) ha hwr ho hl hf (by omega) hfirst
    obtain ⟨d', e1, e2⟩ := (o.plays.payload h.acts).2.2 _ _ _ hl
    have e3 := chargeList_scope h.runtime.slot (payload?_len h.acts hl (n := 144) rfl) e2
    have k := C22_limit_total (.decode d) (by show rd d 112 8 % 256 = 1; omega) hmax hused
      ((amounts ((if total = 0 then [] else solSeg x r.actions total) ++
        acc.flatMap fun e => segOf x m1 r.actions e.1 e.2) P.programScope a.key).map fun n => ⟨n, env.slot⟩)
    rw [e3, total_map] at k
    obtain ⟨k1, k2⟩ := k
    have k1 : rd d' 0 16 = rd d 0 16 + _ := k1
    have k2 : rd d 0 16 + _ ≤ rd d 16 16 := k2
    have hfix : rd d' 16 16 = rd d 16 16 := by
      have hc := (o.plays.payload h.acts).1
      obtain ⟨s, f1, f2⟩ := payload?_chargedTo hc e1
      rw [show payload? r.actions P.programScope a.key = some d from hl] at f1
      cases f1
      have f3 : sl (sl d' 16 40) 0 16 = sl (sl d 16 40) 0 16 := by rw [(scope_fixed f2).2]
      rw [sl_sl _ _ _ _ _ (by omega), sl_sl _ _ _ _ _ (by omega)] at f3
      exact congrArg leNat f3
    exact ⟨_, _, d', o.stored, e1, hfix, by omega, by omega, by omega⟩

/-- Recurring limit (kind 2): the loss is covered by charges the scope approved in the slot of the request.  Missing: as above. -/
theorem C66_recurring_partial (h : RestrictedSign env cpi m m' swig wallet rest ix w r) {a : Meta} {d : Bytes} (ha : a ∈ rest)
    (hwr : a.writable = true) (ho : Ordinary (m a.key)) (hl : r.limit? P.programScope a.key = some d) (hf : HasField d)
    (ht : rd d 112 8 = 2) (hfirst : ∀ r' ∈ w.roles, r'.id < r.id → r'.limit? P.programScope a.key = none) :
    ∃ ixs m1, AfterCalls env cpi m (swig :: wallet :: rest) swig wallet ix w ixs m1 ∧ (ConfigClash env m m1 swig ix w ∨
      ∃ w' r' d' cs, StoredAs m' swig ix w' r' ∧ r'.limit? P.programScope a.key = some d' ∧
        play ProgramScope.charge (.decode d) cs = (.decode d', cs) ∧ (∀ c ∈ cs, c.slot = env.slot) ∧
        fieldOf d (m a.key) - fieldOf d (m' a.key) ≤ Charge.total cs) := by
  obtain ⟨ixs, m1, h1, h2 | ⟨x, cls, hs, total, acc, as', o⟩⟩ := h.out
  · exact ⟨ixs, m1, h1, .inl h2⟩
  · refine ⟨ixs, m1, h1, .inr ?_⟩
    have g := o.scopeCharged h.wf h.stored (role?_mem h.role).1 (fun a ha => h.runtime.keys a (by simp [ha])) ha hwr ho hl hf (by omega) hfirst
    obtain ⟨d', e1, e2⟩ := (o.plays.payload h.acts).2.2 _ _ _ hl
    have e3 := chargeList_scope h.runtime.slot (payload?_len h.acts hl (n := 144) rfl) e2
    refine ⟨_, _, d', _, o.stored, e1, e3, ?_, ?_⟩
    · intro c hc
      obtain ⟨n, _, rfl⟩ := List.mem_map.mp hc
      rfl
    · rw [total_map]; exact g

/-- Default deny: if any role of the wallet has a scope for the account, a role without one cannot pass the account at all, and the scope
of the acting role must name a balance field inside the account. -/
theorem C66_deny_partial (h : RestrictedSign env cpi m m' swig wallet rest ix w r) {a : Meta} (ha : a ∈ rest) (ho : Ordinary (m a.key)) {r1 : Role}
    (hr1 : r1 ∈ w.roles) (hs1 : (r1.limit? P.programScope a.key).isSome = true) :
    ∃ ixs m1, AfterCalls env cpi m (swig :: wallet :: rest) swig wallet ix w ixs m1 ∧ (ConfigClash env m m1 swig ix w ∨
      ∃ d, r.limit? P.programScope a.key = some d ∧ HasField d ∧ rd d 136 8 ≤ (m' a.key).data.length) := by
  obtain ⟨ixs, m1, h1, h2 | ⟨x, cls, hs, total, acc, as', o⟩⟩ := h.out
  · exact ⟨ixs, m1, h1, .inl h2⟩
  · refine ⟨ixs, m1, h1, .inr ?_⟩
    obtain ⟨i, hi⟩ := List.getElem?_of_mem ha
    obtain ⟨hne, c, e, b0, b, s, hh, _, _, _, _, _, e6, _, _⟩ := o.scoped h.wf h.stored hi ho hr1 hs1
    obtain ⟨d, rs, k1, k2, _⟩ := e6
    rw [o.other _ hne]
    unfold scopeRange at k2
    split at k2
    · rename_i hc
      exact ⟨d, k1, hc⟩
    · cases k2

/-- Integrity: outside its balance field, a scoped account passed writable does not change (owner included), or its two versions collide. -/
theorem C66_integrity_partial (h : RestrictedSign env cpi m m' swig wallet rest ix w r) {a : Meta} {d : Bytes} (ha : a ∈ rest)
    (hwr : a.writable = true) (ho : Ordinary (m a.key)) (hl : r.limit? P.programScope a.key = some d) :
    ∃ ixs m1, AfterCalls env cpi m (swig :: wallet :: rest) swig wallet ix w ixs m1 ∧ (ConfigClash env m m1 swig ix w ∨
      ClashExcept env [(rd d 128 8, rd d 136 8)] (m a.key) (m1 a.key) ∨
      ((m' a.key).owner = (m a.key).owner ∧
        (m' a.key).data.take (rd d 128 8) = (m a.key).data.take (rd d 128 8) ∧
        (m' a.key).data.drop (rd d 136 8) = (m a.key).data.drop (rd d 136 8))) := by
  obtain ⟨ixs, m1, h1, h2 | ⟨x, cls, hs, total, acc, as', o⟩⟩ := h.out
  · exact ⟨ixs, m1, h1, .inl h2⟩
  · refine ⟨ixs, m1, h1, ?_⟩
    obtain ⟨i, hi⟩ := List.getElem?_of_mem ha
    obtain ⟨hne, c, e, b0, b, s, hh, _, _, _, _, _, e6, ⟨j, e7⟩, _⟩ :=
      o.scoped h.wf h.stored hi ho (role?_mem h.role).1 (by rw [show payload? r.actions P.programScope a.key = some d from hl]; rfl)
    obtain ⟨d', rs, k1, k2, k3⟩ := e6
    rw [show payload? r.actions P.programScope a.key = some d from hl] at k1
    cases k1
    rw [o.other _ hne]
    have hsame : (m.setData swig.key (w.used (rd ix 4 4)).encode) a.key = m a.key := Mem.setData_other _ _ hne
    have hcfg : (m1 swig.key).data = ((m.setData swig.key (w.used (rd ix 4 4)).encode) swig.key).data := by
      rw [o.config]; simp
    have hfind : x.loc.find (m.setData swig.key (w.used (rd ix 4 4)).encode) P.programScope a.key = .ok (some d) := by
      have := o.find P.programScope a.key (fun _ => h.runtime.keys a (by simp [ha]))
      rw [show payload? r.actions P.programScope a.key = some d from hl] at this
      rw [← this]
      unfold ActLoc.find ActLoc.bytes
      rw [o.locSwig, hcfg]
    have hrs : rs = [(rd d 128 8, rd d 136 8)] := by
      unfold scopeRange at k2
      split at k2
      · cases k2; rfl
      · cases k2
    subst hrs
    have hlen : rd d 128 8 < rd d 136 8 ∧ rd d 136 8 ≤ (m1 a.key).data.length := by
      unfold scopeRange at k2
      split at k2
      · assumption
      · cases k2
    have hranges : snapRanges x (m.setData swig.key (w.used (rd ix 4 4)).encode) a (.scope e.1 b0 0) =
        .ok (scopeRange (ProgramScope.decode d) (m a.key).data) := by
      simp only [snapRanges]
      rw [hfind, hsame]
      rfl
    by_cases hin : rd d 128 8 < rd d 136 8 ∧ rd d 136 8 ≤ (m a.key).data.length
    · have hr : scopeRange (ProgramScope.decode d) (m a.key).data = some [(rd d 128 8, rd d 136 8)] := by
        unfold scopeRange
        exact if_pos hin
      rw [hr] at hranges
      obtain ⟨g1, g2⟩ := snap_ok hwr hranges e7
      rw [hsame] at g1
      have g3 := recheck_same (x := x) (m := m) (m1 := m1) hwr g1 g2 k3
      rw [o.env_eq] at g3
      right
      by_cases he : (m a.key).owner ++ exceptBytes (m a.key).data 0 [(rd d 128 8, rd d 136 8)] =
          (m1 a.key).owner ++ exceptBytes (m1 a.key).data 0 [(rd d 128 8, rd d 136 8)]
      · right
        obtain ⟨q1, q2⟩ := List.append_inj he (by rw [(h.runtime.mem a.key).1, (h.typed1 h1 a.key).1])
        simp only [exceptBytes] at q2
        obtain ⟨q3, q4⟩ := List.append_inj q2 (by rw [sl_length, sl_length]; omega)
        rw [sl_zero_take, sl_zero_take] at q3
        exact ⟨q1.symm, q3.symm, q4.symm⟩
      · exact .inl ⟨he, g3⟩
    · exfalso
      have hr : scopeRange (ProgramScope.decode d) (m a.key).data = none := by
        unfold scopeRange
        exact if_neg hin
      rw [hr] at hranges
      unfold snap at e7
      rw [if_neg (by simp [hwr]), hranges] at e7
      simp only [ok_bind, snapHash] at e7
      cases e7
      unfold recheck at k3
      rw [if_neg (by simp [hwr])] at k3
      obtain ⟨_, _, k3⟩ := bind_ok_iff.mp k3
      obtain ⟨_, k4, _⟩ := bind_ok_iff.mp k3
      cases k4

/-! ## C68: basic scopes -/

/-- A basic scope as the SDK makes it names no balance field.  Then every request of the role that passes the account is refused (or the
configuration account collides with itself): the account is blocked instead of free to use. -/
theorem C68_basic_blocks (hwf : w.WF) (hst : (m swig.key).data = w.encode) (hnum : rd ix 0 2 = 11) (hrole : w.role? (rd ix 4 4) = some r)
    (hres : Restricted r) (hrt : Runtime env cpi m swig (swig :: wallet :: rest)) {a : Meta} {d : Bytes} (ha : a ∈ rest)
    (ho : Ordinary (m a.key)) (hl : r.limit? P.programScope a.key = some d) (hf : rd d 128 8 = 0 ∧ rd d 136 8 = 0) :
    (∃ e, process env cpi m (swig :: wallet :: rest) ix = .error e) ∨
    ∃ ixs m1, AfterCalls env cpi m (swig :: wallet :: rest) swig wallet ix w ixs m1 ∧ ConfigClash env m m1 swig ix w := by
  cases hp : process env cpi m (swig :: wallet :: rest) ix with
  | error e => exact .inl ⟨e, rfl⟩
  | ok m' =>
    right
    obtain ⟨ixs, m1, h1, h2 | ⟨d', k1, k2, _⟩⟩ := C66_deny_partial ⟨hwf, hst, hnum, hrole, hres, hrt, hp⟩ ha ho (role?_mem hrole).1 (by rw [hl]; rfl)
    · exact ⟨ixs, m1, h1, h2⟩
    · exfalso
      rw [hl] at k1
      cases k1
      unfold HasField at k2
      omega

/-- A basic scope that does name a field: nothing is ever charged to it. -/
theorem C68_field_partial (h : RestrictedSign env cpi m m' swig wallet rest ix w r) {k : Key} {d : Bytes}
    (hl : r.limit? P.programScope k = some d) (ht : rd d 112 8 = 0) :
    ∃ ixs m1, AfterCalls env cpi m (swig :: wallet :: rest) swig wallet ix w ixs m1 ∧ (ConfigClash env m m1 swig ix w ∨
      ∃ w' r' d', StoredAs m' swig ix w' r' ∧ r'.limit? P.programScope k = some d' ∧ rd d' 0 16 = rd d 0 16) := by
  obtain ⟨ixs, m1, h1, h2 | ⟨x, cls, hs, total, acc, as', o⟩⟩ := h.out
  · exact ⟨ixs, m1, h1, .inl h2⟩
  · refine ⟨ixs, m1, h1, .inr ?_⟩
    obtain ⟨d', e1, e2⟩ := (o.plays.payload h.acts).2.2 _ _ _ hl
    have e3 := chargeList_scope h.runtime.slot (payload?_len h.acts hl (n := 144) rfl) e2
    refine ⟨_, _, d', o.stored, e1, ?_⟩
    have key : ∀ (s : ProgramScope) (cs : List Charge), s.scopeType = 0 → (play ProgramScope.charge s cs).1 = s := by
      intro s cs hs
      induction cs with
      | nil => rfl
      | cons c cs ih =>
        have : s.charge c = .ok s := by simp [ProgramScope.charge, ProgramScope.run, hs]
        simp only [play, this]
        exact ih
    have e4 := key (.decode d) ((amounts ((if total = 0 then [] else solSeg x r.actions total) ++
      acc.flatMap fun e => segOf x m1 r.actions e.1 e.2) P.programScope k).map fun n => ⟨n, x.env.slot⟩) ht
    rw [o.env_eq, e3] at e4
    exact congrArg ProgramScope.currentAmount e4

end

/-! ## Concrete cases -/

namespace Sample

/-- Payload of a scope for the account `K 80` of program `K 60` with a `u64` balance field. -/
def scope (used limit kind start stop : Nat) : Bytes :=
  natLE 16 used ++ natLE 16 limit ++ natLE 8 10 ++ natLE 8 20 ++ K 60 ++ K 80 ++ natLE 8 kind ++ natLE 8 2 ++ natLE 8 start ++ natLE 8 stop

/-- May call every program; scope for `K 80` with limit 100, 30 of it used. -/
def scopeActs : List Act := [⟨P.programAll, []⟩, ⟨P.programScope, scope 30 100 1 0 8⟩]
/-- The same with a recurring limit. -/
def scopeActs2 : List Act := [⟨P.programAll, []⟩, ⟨P.programScope, scope 30 100 2 0 8⟩]
/-- Basic scope without and with a balance field. -/
def scopeActs3 : List Act := [⟨P.programAll, []⟩, ⟨P.programScope, scope 0 0 0 0 0⟩]
def scopeActs4 : List Act := [⟨P.programAll, []⟩, ⟨P.programScope, scope 0 0 0 0 8⟩]

/-- An account of program `K 60` with balance 1000. -/
def vault : Acct := ⟨K 60, 5000000, natLE 8 1000 ++ zeros 8⟩

/-- The wallet whose owner (role 0) also has a basic scope for the account. -/
def scopeWallet : Wallet :=
  { wallet with roles := [{ root with actions := root.actions ++ [⟨P.programScope, scope 0 0 0 0 8⟩] }, ⟨1, 1, K 11, scopeActs⟩] }

example : ∃ m', RestrictedSign signEnv moreCpi (moreMem (signWallet scopeActs) vault) m' signSwig signAddr moreRest
      (signIx [payOut 60]) (signWallet scopeActs) ⟨1, 1, K 11, scopeActs⟩ ∧
    ⟨K 80, false, true⟩ ∈ moreRest ∧ Ordinary (moreMem (signWallet scopeActs) vault (K 80)) ∧
    payload? scopeActs P.programScope (K 80) = some (scope 30 100 1 0 8) ∧ rd (scope 30 100 1 0 8) 128 8 < rd (scope 30 100 1 0 8) 136 8 ∧
    rd (scope 30 100 1 0 8) 112 8 = 1 ∧ rd (scope 30 100 1 0 8) 16 16 = 100 ∧ rd (scope 30 100 1 0 8) 0 16 = 30 ∧
    (∀ r' ∈ (signWallet scopeActs).roles, r'.id < 1 → payload? r'.actions P.programScope (K 80) = none) ∧
    fieldOf (scope 30 100 1 0 8) (moreMem (signWallet scopeActs) vault (K 80)) = 1000 ∧ fieldOf (scope 30 100 1 0 8) (m' (K 80)) = 940 ∧
    (m' (K 1)).data = (signWallet [⟨P.programAll, []⟩, ⟨P.programScope, scope 90 100 1 0 8⟩]).encode :=
  runMore_exists (signWallet scopeActs) _ vault _ _ (by decide +kernel) (by decide +kernel)

/-- 71 would be too much. -/
example : (match runMore (signWallet scopeActs) vault [payOut 71] with | .ok _ => false | .error _ => true) = true := by decide +kernel

example : ∃ m', RestrictedSign signEnv moreCpi (moreMem (signWallet scopeActs2) vault) m' signSwig signAddr moreRest
      (signIx [payOut 60]) (signWallet scopeActs2) ⟨1, 1, K 11, scopeActs2⟩ ∧
    payload? scopeActs2 P.programScope (K 80) = some (scope 30 100 2 0 8) ∧ rd (scope 30 100 2 0 8) 112 8 = 2 ∧
    (∀ r' ∈ (signWallet scopeActs2).roles, r'.id < 1 → payload? r'.actions P.programScope (K 80) = none) ∧
    fieldOf (scope 30 100 2 0 8) (m' (K 80)) = 940 :=
  runMore_exists (signWallet scopeActs2) _ vault _ _ (by decide +kernel) (by decide +kernel)

/-- Basic scope with a field: 700 are paid out, nothing is charged. -/
example : ∃ m', RestrictedSign signEnv moreCpi (moreMem (signWallet scopeActs4) vault) m' signSwig signAddr moreRest
      (signIx [payOut 700]) (signWallet scopeActs4) ⟨1, 1, K 11, scopeActs4⟩ ∧
    payload? scopeActs4 P.programScope (K 80) = some (scope 0 0 0 0 8) ∧ rd (scope 0 0 0 0 8) 112 8 = 0 ∧
    fieldOf (scope 0 0 0 0 8) (m' (K 80)) = 300 :=
  runMore_exists (signWallet scopeActs4) _ vault _ _ (by decide +kernel) (by decide +kernel)

end Sample

open Sample in
/-- Full claim of C66: whatever else the wallet contains, the limit of a scope bounds the loss of the balance field.  It is false of the
code: the owner (role 0) has a basic scope for the same account, so the balance before the calls is taken to be 0 and a role with limit
100, 30 of it used, takes 700 out of 1000 without being charged anything. -/
theorem C66_refuted : ∃ env cpi m m' swig wallet rest ix w r a d, RestrictedSign env cpi m m' swig wallet rest ix w r ∧
    (∀ x y, ¬ Clash env x y) ∧ a ∈ rest ∧ a.writable = true ∧ Ordinary (m a.key) ∧ r.limit? P.programScope a.key = some d ∧
    HasField d ∧ rd d 112 8 = 1 ∧ rd d 0 16 = 30 ∧ rd d 16 16 = 100 ∧ fieldOf d (m a.key) = 1000 ∧ fieldOf d (m' a.key) = 300 ∧
    (m' swig.key).data = (m swig.key).data := by
  obtain ⟨m', h, h1, h2, h3, h4, h5, h6, h7, h8, h9, h10⟩ := runMore_exists scopeWallet ⟨1, 1, K 11, scopeActs⟩ vault [payOut 700]
    (fun m' => ⟨K 80, false, true⟩ ∈ moreRest ∧ Ordinary (moreMem scopeWallet vault (K 80)) ∧
      payload? scopeActs P.programScope (K 80) = some (scope 30 100 1 0 8) ∧
      rd (scope 30 100 1 0 8) 128 8 < rd (scope 30 100 1 0 8) 136 8 ∧ rd (scope 30 100 1 0 8) 112 8 = 1 ∧
      rd (scope 30 100 1 0 8) 0 16 = 30 ∧ rd (scope 30 100 1 0 8) 16 16 = 100 ∧
      fieldOf (scope 30 100 1 0 8) (moreMem scopeWallet vault (K 80)) = 1000 ∧ fieldOf (scope 30 100 1 0 8) (m' (K 80)) = 300 ∧
      (m' (K 1)).data = (moreMem scopeWallet vault (K 1)).data)
    (by decide +kernel) (by decide +kernel)
  exact ⟨_, _, _, m', _, _, _, _, _, _, ⟨K 80, false, true⟩, _, h, signEnv_noClash, h1, rfl, h2, h3, h4, h5, h6, h7, h8, h9, h10⟩

open Sample in
/-- Full claim of C68: a role with a basic scope may use the account without limits.  It is false of the code: the request that pays 1 out of
the account is refused, although without the scope it would be accepted. -/
theorem C68_refuted : ∃ (r : Role) (d : Bytes), r.limit? P.programScope (K 80) = some d ∧ rd d 112 8 = 0 ∧
    (∃ e, runMore (signWallet r.actions) vault [payOut 1] = .error e) ∧
    ∃ m', runMore (signWallet [⟨P.programAll, []⟩]) vault [payOut 1] = .ok m' ∧ r.actions = [⟨P.programAll, []⟩, ⟨P.programScope, d⟩] := by
  refine ⟨⟨1, 1, K 11, scopeActs3⟩, scope 0 0 0 0 0, by decide +kernel, by decide +kernel, ?_, ?_⟩
  · have key : (match runMore (signWallet scopeActs3) vault [payOut 1] with | .ok _ => false | .error _ => true) = true := by decide +kernel
    split at key
    · cases key
    · rename_i e he
      exact ⟨e, he⟩
  · have key : (match runMore (signWallet [⟨P.programAll, []⟩]) vault [payOut 1] with | .ok _ => true | .error _ => false) = true := by
      decide +kernel
    split at key
    · rename_i m' he
      exact ⟨m', he, rfl⟩
    · cases key

open Sample in
/-- The hypotheses of `C68_basic_blocks` are met by the refused request. -/
example : (signWallet scopeActs3).WF ∧ (moreMem (signWallet scopeActs3) vault (K 1)).data = (signWallet scopeActs3).encode ∧
    rd (signIx [payOut 1]) 0 2 = 11 ∧ (signWallet scopeActs3).role? (rd (signIx [payOut 1]) 4 4) = some ⟨1, 1, K 11, scopeActs3⟩ ∧
    Restricted ⟨1, 1, K 11, scopeActs3⟩ ∧ Runtime signEnv moreCpi (moreMem (signWallet scopeActs3) vault) signSwig (signSwig :: signAddr :: moreRest) ∧
    ⟨K 80, false, true⟩ ∈ moreRest ∧ Ordinary (moreMem (signWallet scopeActs3) vault (K 80)) ∧
    payload? scopeActs3 P.programScope (K 80) = some (scope 0 0 0 0 0) ∧ rd (scope 0 0 0 0 0) 128 8 = 0 ∧ rd (scope 0 0 0 0 0) 136 8 = 0 :=
  ⟨by decide +kernel, by decide +kernel, by decide +kernel, by decide +kernel, by decide +kernel,
    ⟨moreMem_typed _ _ (by decide), moreCpi_typed, by decide, by decide, fun h => by cases h⟩, by decide +kernel, by decide +kernel,
    by decide +kernel, by decide +kernel, by decide +kernel⟩

end Verif
