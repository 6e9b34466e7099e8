import Verif.Proofs.Charges
import Verif.Props.Limits

/-! Recurring limits and program scopes in their payloads: charging the payload is playing the charges on the limit. -/

namespace Verif

theorem chargeList_play {σ : Type} {ty slot : Nat} {run : σ → Charge → R σ} {dec : Bytes → σ} {len : Nat}
    (hstep : ∀ (n : Nat) (d d1 : Bytes), d.length = len → chargeFn ty n slot d = .ok d1 →
      run (dec d) ⟨n, slot⟩ = .ok (dec d1) ∧ d1.length = len) :
    ∀ {ns : List Nat} {d d' : Bytes}, d.length = len → chargeList ty slot d ns = .ok d' →
      play run (dec d) (ns.map fun n => ⟨n, slot⟩) = (dec d', ns.map fun n => ⟨n, slot⟩) := by
  intro ns
  induction ns with
  | nil => intro d d' _ h; cases h; rfl
  | cons n ns ih =>
    intro d d' hl h
    simp only [chargeList] at h
    split at h
    · rename_i d1 h1
      obtain ⟨e1, e2⟩ := hstep n d d1 hl h1
      have := ih e2 h
      simp only [List.map_cons, play]
      rw [e1]
      simp only [this]
    · cases h

theorem rd_two (p : Bytes) (a b : Nat) {k : Nat} (hp : p.length = k) (ha : a < 2 ^ 64) (hb : b < 2 ^ 64) :
    rd (p ++ (natLE 8 a ++ natLE 8 b)) k 8 = a ∧ rd (p ++ (natLE 8 a ++ natLE 8 b)) (k + 8) 8 = b := by
  constructor
  · show leNat (sl _ k (k + 8)) = a
    rw [sl_mid p (natLE 8 a) (natLE 8 b) (i := k) (j := k + 8) hp.symm (by simp [hp])]
    exact leNat_natLE_of_lt (by omega)
  · have e : p ++ (natLE 8 a ++ natLE 8 b) = (p ++ natLE 8 a) ++ (natLE 8 b ++ []) := by simp
    show leNat (sl _ (k + 8) (k + 8 + 8)) = b
    rw [e, sl_mid (p ++ natLE 8 a) (natLE 8 b) [] (i := k + 8) (j := k + 8 + 8) (by simp [hp]) (by simp [hp])]
    exact leNat_natLE_of_lt (by omega)

theorem rd_pre {d c : Bytes} {k i : Nat} (hk : k ≤ d.length) (h : i + 8 ≤ k) : rd (d.take k ++ c) i 8 = rd d i 8 := by
  have ht : (d.take k).length = k := by simp; omega
  unfold rd
  rw [sl_left _ _ _ _ (by omega)]
  have := sl_left (d.take k) (d.drop k) i (i + 8) (by omega)
  rw [List.take_append_drop] at this
  rw [this]

theorem sl_pre {d c : Bytes} {k i j : Nat} (hk : k ≤ d.length) (h : j ≤ k) : sl (d.take k ++ c) i j = sl d i j := by
  have ht : (d.take k).length = k := by simp; omega
  rw [sl_left _ _ _ _ (by omega)]
  have := sl_left (d.take k) (d.drop k) i j (by omega)
  rw [List.take_append_drop] at this
  rw [this]

theorem mul_div_lt {s w : Nat} (h : s < 2 ^ 64) : s / w * w < 2 ^ 64 := Nat.lt_of_le_of_lt (Nat.div_mul_le_self s w) h

theorem solRec_run_bounds {l l' : SolRecurringLimit} {n s : Nat} (h : l.run n s = .ok l') (hs : s < 2 ^ 64)
    (h1 : l.recurringAmount < 2 ^ 64) (h2 : l.lastReset < 2 ^ 64) (h3 : l.currentAmount < 2 ^ 64) :
    l'.lastReset < 2 ^ 64 ∧ l'.currentAmount < 2 ^ 64 := by
  unfold SolRecurringLimit.run at h
  obtain ⟨l1, e1, h⟩ := bind_ok_iff.mp h
  unfold SolRecurringLimit.refill at e1
  split at h
  · cases h
  · cases h
    split at e1
    · split at e1
      · cases e1
      · cases e1; exact ⟨mul_div_lt hs, by dsimp only; omega⟩
    · cases e1; exact ⟨h2, by dsimp only; omega⟩

theorem stakeRec_run_bounds {l l' : StakeRecurringLimit} {n s : Nat} (h : l.run n s = .ok l') (hs : s < 2 ^ 64)
    (h1 : l.recurringAmount < 2 ^ 64) (h2 : l.lastReset < 2 ^ 64) (h3 : l.currentAmount < 2 ^ 64) :
    l'.lastReset < 2 ^ 64 ∧ l'.currentAmount < 2 ^ 64 := by
  unfold StakeRecurringLimit.run at h
  obtain ⟨l1, e1, h⟩ := bind_ok_iff.mp h
  unfold StakeRecurringLimit.refill at e1
  split at h
  · cases h
  · cases h
    split at e1
    · split at e1
      · cases e1
      · cases e1; exact ⟨mul_div_lt hs, by dsimp only; omega⟩
    · cases e1; exact ⟨h2, by dsimp only; omega⟩

theorem tokenRec_run_bounds {l l' : TokenRecurringLimit} {n s : Nat} (h : l.run n s = .ok l') (hs : s < 2 ^ 64)
    (h1 : l.limit < 2 ^ 64) (h2 : l.lastReset < 2 ^ 64) (h3 : l.current < 2 ^ 64) :
    l'.lastReset < 2 ^ 64 ∧ l'.current < 2 ^ 64 := by
  unfold TokenRecurringLimit.run at h
  obtain ⟨l1, e1, h⟩ := bind_ok_iff.mp h
  unfold TokenRecurringLimit.refill at e1
  split at h
  · cases h
  · cases h
    split at e1
    · split at e1
      · cases e1
      · cases e1; exact ⟨mul_div_lt hs, by dsimp only; omega⟩
    · cases e1; exact ⟨h2, by dsimp only; omega⟩

theorem solRecDest_run_bounds {l l' : SolRecurringDestinationLimit} {n s : Nat} (h : l.run n s = .ok l') (hs : s < 2 ^ 64)
    (h1 : l.recurringAmount < 2 ^ 64) (h2 : l.lastReset < 2 ^ 64) (h3 : l.currentAmount < 2 ^ 64) :
    l'.lastReset < 2 ^ 64 ∧ l'.currentAmount < 2 ^ 64 := by
  unfold SolRecurringDestinationLimit.run at h
  dsimp only at h
  split at h
  · split at h
    · cases h
    · cases h; exact ⟨hs, by dsimp only; omega⟩
  · split at h
    · cases h
    · cases h; exact ⟨h2, by dsimp only; omega⟩

theorem tokenRecDest_run_bounds {l l' : TokenRecurringDestinationLimit} {n s : Nat} (h : l.run n s = .ok l') (hs : s < 2 ^ 64)
    (h1 : l.recurringAmount < 2 ^ 64) (h2 : l.lastReset < 2 ^ 64) (h3 : l.currentAmount < 2 ^ 64) :
    l'.lastReset < 2 ^ 64 ∧ l'.currentAmount < 2 ^ 64 := by
  unfold TokenRecurringDestinationLimit.run at h
  dsimp only at h
  split at h
  · split at h
    · cases h
    · cases h; exact ⟨hs, by dsimp only; omega⟩
  · split at h
    · cases h
    · cases h; exact ⟨h2, by dsimp only; omega⟩

theorem rd8_lt (d : Bytes) (i : Nat) : rd d i 8 < 2 ^ 64 := by have := rd_lt d i 8; omega

theorem chargeList_solRec {slot : Nat} (hs : slot < 2 ^ 64) {ns : List Nat} {d d' : Bytes} (hl : d.length = 32)
    (h : chargeList P.solRecurringLimit slot d ns = .ok d') :
    play SolRecurringLimit.charge (.of d) (ns.map fun n => ⟨n, slot⟩) = (.of d', ns.map fun n => ⟨n, slot⟩) := by
  refine chargeList_play (len := 32) (fun n d d1 hl h => ?_) hl h
  obtain ⟨l', h1, rfl⟩ := chargeSolRec_ok hl (show chargeSolRec n slot d = .ok d1 from h)
  obtain ⟨b1, b2⟩ := solRec_run_bounds h1 hs (rd8_lt _ _) (rd8_lt _ _) (rd8_lt _ _)
  obtain ⟨f1, f2⟩ := solRec_run_fixed h1
  refine ⟨?_, by simp; omega⟩
  show (SolRecurringLimit.of d).run n slot = _
  rw [h1]
  have ht : (d.take 16).length = 16 := by simp; omega
  obtain ⟨r1, r2⟩ := rd_two (d.take 16) l'.lastReset l'.currentAmount ht b1 b2
  unfold SolRecurringLimit.of
  rw [rd_pre (by omega) (by omega), rd_pre (by omega) (by omega), r1, r2]
  obtain ⟨a, b, c, e⟩ := l'
  simp only at f1 f2
  rw [f1, f2]; rfl

theorem chargeList_stakeRec {slot : Nat} (hs : slot < 2 ^ 64) {ns : List Nat} {d d' : Bytes} (hl : d.length = 32)
    (h : chargeList P.stakeRecurringLimit slot d ns = .ok d') :
    play StakeRecurringLimit.charge (.of d) (ns.map fun n => ⟨n, slot⟩) = (.of d', ns.map fun n => ⟨n, slot⟩) := by
  refine chargeList_play (len := 32) (fun n d d1 hl h => ?_) hl h
  obtain ⟨l', h1, rfl⟩ := chargeStakeRec_ok hl (show chargeStakeRec n slot d = .ok d1 from h)
  obtain ⟨b1, b2⟩ := stakeRec_run_bounds h1 hs (rd8_lt _ _) (rd8_lt _ _) (rd8_lt _ _)
  obtain ⟨f1, f2⟩ := stakeRec_run_fixed h1
  refine ⟨?_, by simp; omega⟩
  show (StakeRecurringLimit.of d).run n slot = _
  rw [h1]
  have ht : (d.take 16).length = 16 := by simp; omega
  obtain ⟨r1, r2⟩ := rd_two (d.take 16) l'.lastReset l'.currentAmount ht b1 b2
  unfold StakeRecurringLimit.of
  rw [rd_pre (by omega) (by omega), rd_pre (by omega) (by omega), r1, r2]
  obtain ⟨a, b, c, e⟩ := l'
  simp only at f1 f2
  rw [f1, f2]; rfl

theorem chargeList_tokenRec {slot : Nat} (hs : slot < 2 ^ 64) {ns : List Nat} {d d' : Bytes} (hl : d.length = 64)
    (h : chargeList P.tokenRecurringLimit slot d ns = .ok d') :
    play TokenRecurringLimit.charge (.of d) (ns.map fun n => ⟨n, slot⟩) = (.of d', ns.map fun n => ⟨n, slot⟩) := by
  refine chargeList_play (len := 64) (fun n d d1 hl h => ?_) hl h
  obtain ⟨l', h1, rfl⟩ := chargeTokenRec_ok hl (show chargeTokenRec n slot d = .ok d1 from h)
  obtain ⟨b1, b2⟩ := tokenRec_run_bounds h1 hs (rd8_lt _ _) (rd8_lt _ _) (rd8_lt _ _)
  obtain ⟨f1, f2, f3⟩ := tokenRec_run_fixed h1
  refine ⟨?_, by simp; omega⟩
  show (TokenRecurringLimit.of d).run n slot = _
  rw [h1]
  have ht : (d.take 48).length = 48 := by simp; omega
  obtain ⟨r1, r2⟩ := rd_two (d.take 48) l'.current l'.lastReset ht b2 b1
  unfold TokenRecurringLimit.of
  rw [sl_pre (by omega) (by omega), rd_pre (by omega) (by omega), rd_pre (by omega) (by omega), r1, r2]
  obtain ⟨a, b, c, e, g⟩ := l'
  simp only at f1 f2 f3
  rw [f1, f2, f3]; rfl

theorem chargeList_solRecDest {slot : Nat} (hs : slot < 2 ^ 64) {ns : List Nat} {d d' : Bytes} (hl : d.length = 64)
    (h : chargeList P.solRecurringDestinationLimit slot d ns = .ok d') :
    play SolRecurringDestinationLimit.charge (.of d) (ns.map fun n => ⟨n, slot⟩) = (.of d', ns.map fun n => ⟨n, slot⟩) := by
  refine chargeList_play (len := 64) (fun n d d1 hl h => ?_) hl h
  obtain ⟨l', h1, rfl⟩ := chargeSolRecDest_ok hl (show chargeSolRecDest n slot d = .ok d1 from h)
  obtain ⟨b1, b2⟩ := solRecDest_run_bounds h1 hs (rd8_lt _ _) (rd8_lt _ _) (rd8_lt _ _)
  obtain ⟨f1, f2, f3⟩ := solRecDest_run_fixed h1
  refine ⟨?_, by simp; omega⟩
  show (SolRecurringDestinationLimit.of d).run n slot = _
  rw [h1]
  have ht : (d.take 48).length = 48 := by simp; omega
  obtain ⟨r1, r2⟩ := rd_two (d.take 48) l'.lastReset l'.currentAmount ht b1 b2
  unfold SolRecurringDestinationLimit.of
  rw [sl_pre (by omega) (by omega), rd_pre (by omega) (by omega), rd_pre (by omega) (by omega), r1, r2]
  obtain ⟨a, b, c, e, g⟩ := l'
  simp only at f1 f2 f3
  rw [f1, f2, f3]; rfl

theorem chargeList_tokenRecDest {slot : Nat} (hs : slot < 2 ^ 64) {ns : List Nat} {d d' : Bytes} (hl : d.length = 96)
    (h : chargeList P.tokenRecurringDestinationLimit slot d ns = .ok d') :
    play TokenRecurringDestinationLimit.charge (.of d) (ns.map fun n => ⟨n, slot⟩) = (.of d', ns.map fun n => ⟨n, slot⟩) := by
  refine chargeList_play (len := 96) (fun n d d1 hl h => ?_) hl h
  obtain ⟨l', h1, rfl⟩ := chargeTokenRecDest_ok hl (show chargeTokenRecDest n slot d = .ok d1 from h)
  obtain ⟨b1, b2⟩ := tokenRecDest_run_bounds h1 hs (rd8_lt _ _) (rd8_lt _ _) (rd8_lt _ _)
  obtain ⟨f1, f2, f3, f4⟩ := tokenRecDest_run_fixed h1
  refine ⟨?_, by simp; omega⟩
  show (TokenRecurringDestinationLimit.of d).run n slot = _
  rw [h1]
  have ht : (d.take 80).length = 80 := by simp; omega
  obtain ⟨r1, r2⟩ := rd_two (d.take 80) l'.lastReset l'.currentAmount ht b1 b2
  unfold TokenRecurringDestinationLimit.of
  rw [sl_pre (by omega) (by omega), sl_pre (by omega) (by omega), rd_pre (by omega) (by omega), rd_pre (by omega) (by omega), r1, r2]
  obtain ⟨a, b, c, e, g, i⟩ := l'
  simp only at f1 f2 f3 f4
  rw [f1, f2, f3, f4]; rfl

end Verif
