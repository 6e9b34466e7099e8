import Verif.Spec.Charges
import Verif.Proofs.Actions
import Verif.Proofs.Limits

/-! Charges on payloads and on lists of actions. -/

namespace Verif

/-! ## `run` keeps the fixed fields -/

theorem solRec_run_fixed {l l' : SolRecurringLimit} {n s : Nat} (h : l.run n s = .ok l') :
    l'.recurringAmount = l.recurringAmount ∧ l'.window = l.window := by
  unfold SolRecurringLimit.run at h
  obtain ⟨l1, h1, h⟩ := bind_ok_iff.mp h
  unfold SolRecurringLimit.refill at h1
  split at h
  · cases h
  · cases h
    split at h1
    · split at h1
      · cases h1
      · cases h1; exact ⟨rfl, rfl⟩
    · cases h1; exact ⟨rfl, rfl⟩

theorem stakeRec_run_fixed {l l' : StakeRecurringLimit} {n s : Nat} (h : l.run n s = .ok l') :
    l'.recurringAmount = l.recurringAmount ∧ l'.window = l.window := by
  unfold StakeRecurringLimit.run at h
  obtain ⟨l1, h1, h⟩ := bind_ok_iff.mp h
  unfold StakeRecurringLimit.refill at h1
  split at h
  · cases h
  · cases h
    split at h1
    · split at h1
      · cases h1
      · cases h1; exact ⟨rfl, rfl⟩
    · cases h1; exact ⟨rfl, rfl⟩

theorem tokenRec_run_fixed {l l' : TokenRecurringLimit} {n s : Nat} (h : l.run n s = .ok l') :
    l'.mint = l.mint ∧ l'.window = l.window ∧ l'.limit = l.limit := by
  unfold TokenRecurringLimit.run at h
  obtain ⟨l1, h1, h⟩ := bind_ok_iff.mp h
  unfold TokenRecurringLimit.refill at h1
  split at h
  · cases h
  · cases h
    split at h1
    · split at h1
      · cases h1
      · cases h1; exact ⟨rfl, rfl, rfl⟩
    · cases h1; exact ⟨rfl, rfl, rfl⟩

theorem solRecDest_run_fixed {l l' : SolRecurringDestinationLimit} {n s : Nat} (h : l.run n s = .ok l') :
    l'.destination = l.destination ∧ l'.recurringAmount = l.recurringAmount ∧ l'.window = l.window := by
  unfold SolRecurringDestinationLimit.run at h
  dsimp only at h
  split at h
  · split at h
    · cases h
    · cases h; exact ⟨rfl, rfl, rfl⟩
  · split at h
    · cases h
    · cases h; exact ⟨rfl, rfl, rfl⟩

theorem tokenRecDest_run_fixed {l l' : TokenRecurringDestinationLimit} {n s : Nat} (h : l.run n s = .ok l') :
    l'.mint = l.mint ∧ l'.destination = l.destination ∧ l'.recurringAmount = l.recurringAmount ∧ l'.window = l.window := by
  unfold TokenRecurringDestinationLimit.run at h
  dsimp only at h
  split at h
  · split at h
    · cases h
    · cases h; exact ⟨rfl, rfl, rfl, rfl⟩
  · split at h
    · cases h
    · cases h; exact ⟨rfl, rfl, rfl, rfl⟩

theorem scope_run_fixed {l l' : ProgramScope} {n s : Nat} (h : l.run n s = .ok l') :
    l'.limit = l.limit ∧ l'.window = l.window := by
  unfold ProgramScope.run at h
  dsimp only at h
  split at h
  · cases h; exact ⟨rfl, rfl⟩
  · split at h
    · split at h
      · cases h
      · cases h; exact ⟨rfl, rfl⟩
    · split at h
      · obtain ⟨l1, h1, h⟩ := bind_ok_iff.mp h
        unfold ProgramScope.refill at h1
        split at h
        · cases h
        · cases h
          split at h1
          · split at h1
            · cases h1
            · cases h1; exact ⟨rfl, rfl⟩
          · cases h1; exact ⟨rfl, rfl⟩
      · cases h

/-! ## Payloads -/

theorem take_mid (a b : Bytes) {i : Nat} (h : a.length = i) : (a ++ b).take i = a := by
  subst h; simp

theorem sl_zero_take (b : Bytes) (i : Nat) : sl b 0 i = b.take i := by simp [sl]

/-- The shape of a charged payload. -/
structure ChargedTo (ty : Nat) (d d' : Bytes) : Prop where
  len : d'.length = d.length
  key : repeatable ty = true → keyOf ty d' = keyOf ty d
  fixed : Act.fixed ⟨ty, d'⟩ = Act.fixed ⟨ty, d⟩

theorem chargedTo_refl (ty : Nat) (d : Bytes) : ChargedTo ty d d := ⟨rfl, fun _ => rfl, rfl⟩

theorem ChargedTo.trans {ty : Nat} {a b c : Bytes} (h1 : ChargedTo ty a b) (h2 : ChargedTo ty b c) : ChargedTo ty a c :=
  ⟨h2.len.trans h1.len, fun h => (h2.key h).trans (h1.key h), h2.fixed.trans h1.fixed⟩

theorem natLE8_rd {d : Bytes} {i : Nat} (h : i + 8 ≤ d.length) : natLE 8 (rd d i 8) = sl d i (i + 8) := natLE_rd h

theorem take_add_sl (d : Bytes) (i j : Nat) (h : i ≤ j) : d.take i ++ sl d i j = d.take j := by
  rw [← sl_zero_take, ← sl_zero_take, sl_append_sl d (by omega) h]

/-- Payloads whose fixed part is a prefix of length `k`. -/
theorem chargedTo_prefix {ty : Nat} (k : Nat) {d d' : Bytes} (c : Bytes) (hd : d' = d.take k ++ c)
    (hl : k + c.length = d.length) (hf : ∀ x : Bytes, Act.fixed ⟨ty, x⟩ = x.take k)
    (hkey : repeatable ty = true → ∃ j, j ≤ k ∧ ∀ x : Bytes, keyOf ty x = x.take j) : ChargedTo ty d d' := by
  have ht : (d.take k).length = k := by simp; omega
  have e : d'.take k = d.take k := by rw [hd]; exact take_mid _ _ ht
  refine ⟨by rw [hd]; simp; omega, fun h => ?_, by rw [hf, hf, e]⟩
  obtain ⟨j, hj, hk⟩ := hkey h
  rw [hk, hk]
  have e2 : ∀ x : Bytes, x.take j = (x.take k).take j := fun x => by rw [List.take_take]; congr 1; omega
  rw [e2 d', e2 d, e]

theorem chargeSol_ok {n : Nat} {d d' : Bytes} (h : chargeSol n d = .ok d') :
    n ≤ rd d 0 8 ∧ d' = natLE 8 (rd d 0 8 - n) := by
  unfold chargeSol SolLimit.run at h
  dsimp only at h
  split at h
  · cases h
  · cases h; exact ⟨by omega, rfl⟩

theorem chargeStake_ok {n : Nat} {d d' : Bytes} (h : chargeStake n d = .ok d') :
    n ≤ rd d 0 8 ∧ d' = natLE 8 (rd d 0 8 - n) := by
  unfold chargeStake StakeLimit.run at h
  dsimp only at h
  split at h
  · cases h
  · cases h; exact ⟨by omega, rfl⟩

theorem chargeToken_ok {n : Nat} {d d' : Bytes} (h : chargeToken n d = .ok d') :
    n ≤ rd d 32 8 ∧ d' = d.take 32 ++ natLE 8 (rd d 32 8 - n) := by
  unfold chargeToken TokenLimit.run at h
  dsimp only at h
  split at h
  · cases h
  · cases h; exact ⟨by omega, by rw [← sl_zero_take]⟩

theorem chargeSolDest_ok {n : Nat} {d d' : Bytes} (h : chargeSolDest n d = .ok d') :
    n ≤ rd d 32 8 ∧ d' = d.take 32 ++ natLE 8 (rd d 32 8 - n) := by
  unfold chargeSolDest SolDestinationLimit.run at h
  dsimp only at h
  split at h
  · cases h
  · cases h; exact ⟨by omega, by rw [← sl_zero_take]⟩

theorem chargeTokenDest_ok {n : Nat} {d d' : Bytes} (h : chargeTokenDest n d = .ok d') :
    n ≤ rd d 64 8 ∧ d' = d.take 64 ++ natLE 8 (rd d 64 8 - n) := by
  unfold chargeTokenDest TokenDestinationLimit.run at h
  dsimp only at h
  split at h
  · cases h
  · cases h
    refine ⟨by omega, ?_⟩
    rw [sl_zero_take, take_add_sl _ _ _ (by omega)]

/-- A recurring SOL limit in its payload. -/
def SolRecurringLimit.of (d : Bytes) : SolRecurringLimit := ⟨rd d 0 8, rd d 8 8, rd d 16 8, rd d 24 8⟩

def StakeRecurringLimit.of (d : Bytes) : StakeRecurringLimit := ⟨rd d 0 8, rd d 8 8, rd d 16 8, rd d 24 8⟩

def TokenRecurringLimit.of (d : Bytes) : TokenRecurringLimit := ⟨sl d 0 32, rd d 32 8, rd d 40 8, rd d 48 8, rd d 56 8⟩

def SolRecurringDestinationLimit.of (d : Bytes) : SolRecurringDestinationLimit :=
  ⟨sl d 0 32, rd d 32 8, rd d 40 8, rd d 48 8, rd d 56 8⟩

def TokenRecurringDestinationLimit.of (d : Bytes) : TokenRecurringDestinationLimit :=
  ⟨sl d 0 32, sl d 32 64, rd d 64 8, rd d 72 8, rd d 80 8, rd d 88 8⟩

theorem chargeSolRec_ok {n s : Nat} {d d' : Bytes} (hl : d.length = 32) (h : chargeSolRec n s d = .ok d') :
    ∃ l', (SolRecurringLimit.of d).run n s = .ok l' ∧ d' = d.take 16 ++ (natLE 8 l'.lastReset ++ natLE 8 l'.currentAmount) := by
  unfold chargeSolRec at h
  obtain ⟨l', h1, h⟩ := bind_ok_iff.mp h
  refine ⟨l', h1, ?_⟩
  cases h
  obtain ⟨e1, e2⟩ := solRec_run_fixed h1
  rw [e1, e2]
  dsimp only
  rw [natLE8_rd (by omega), natLE8_rd (by omega), sl_append_sl _ (by omega) (by omega), sl_zero_take, List.append_assoc]

theorem chargeStakeRec_ok {n s : Nat} {d d' : Bytes} (hl : d.length = 32) (h : chargeStakeRec n s d = .ok d') :
    ∃ l', (StakeRecurringLimit.of d).run n s = .ok l' ∧ d' = d.take 16 ++ (natLE 8 l'.lastReset ++ natLE 8 l'.currentAmount) := by
  unfold chargeStakeRec at h
  obtain ⟨l', h1, h⟩ := bind_ok_iff.mp h
  refine ⟨l', h1, ?_⟩
  cases h
  obtain ⟨e1, e2⟩ := stakeRec_run_fixed h1
  rw [e1, e2]
  dsimp only
  rw [natLE8_rd (by omega), natLE8_rd (by omega), sl_append_sl _ (by omega) (by omega), sl_zero_take, List.append_assoc]

theorem chargeTokenRec_ok {n s : Nat} {d d' : Bytes} (hl : d.length = 64) (h : chargeTokenRec n s d = .ok d') :
    ∃ l', (TokenRecurringLimit.of d).run n s = .ok l' ∧ d' = d.take 48 ++ (natLE 8 l'.current ++ natLE 8 l'.lastReset) := by
  unfold chargeTokenRec at h
  obtain ⟨l', h1, h⟩ := bind_ok_iff.mp h
  refine ⟨l', h1, ?_⟩
  cases h
  obtain ⟨e1, e2, e3⟩ := tokenRec_run_fixed h1
  rw [e1, e2, e3]
  dsimp only
  rw [natLE8_rd (by omega), natLE8_rd (by omega), sl_append_sl _ (by omega) (by omega), sl_append_sl _ (by omega) (by omega),
    sl_zero_take, List.append_assoc]

theorem chargeSolRecDest_ok {n s : Nat} {d d' : Bytes} (hl : d.length = 64) (h : chargeSolRecDest n s d = .ok d') :
    ∃ l', (SolRecurringDestinationLimit.of d).run n s = .ok l' ∧
      d' = d.take 48 ++ (natLE 8 l'.lastReset ++ natLE 8 l'.currentAmount) := by
  unfold chargeSolRecDest at h
  obtain ⟨l', h1, h⟩ := bind_ok_iff.mp h
  refine ⟨l', h1, ?_⟩
  cases h
  obtain ⟨e1, e2, e3⟩ := solRecDest_run_fixed h1
  rw [e1, e2, e3]
  dsimp only
  rw [natLE8_rd (by omega), natLE8_rd (by omega), sl_append_sl _ (by omega) (by omega), sl_append_sl _ (by omega) (by omega),
    sl_zero_take, List.append_assoc]

theorem chargeTokenRecDest_ok {n s : Nat} {d d' : Bytes} (hl : d.length = 96) (h : chargeTokenRecDest n s d = .ok d') :
    ∃ l', (TokenRecurringDestinationLimit.of d).run n s = .ok l' ∧
      d' = d.take 80 ++ (natLE 8 l'.lastReset ++ natLE 8 l'.currentAmount) := by
  unfold chargeTokenRecDest at h
  obtain ⟨l', h1, h⟩ := bind_ok_iff.mp h
  refine ⟨l', h1, ?_⟩
  cases h
  obtain ⟨e1, e2, e3, e4⟩ := tokenRecDest_run_fixed h1
  rw [e1, e2, e3, e4]
  dsimp only
  rw [natLE8_rd (by omega), natLE8_rd (by omega), sl_append_sl _ (by omega) (by omega), sl_append_sl _ (by omega) (by omega),
    sl_append_sl _ (by omega) (by omega), sl_zero_take, List.append_assoc]

theorem chargeScope_ok {n s : Nat} {d d' : Bytes} (hl : d.length = 144) (h : chargeScope n s d = .ok d') :
    ∃ l', (ProgramScope.decode d).run n s = .ok l' ∧
      d' = natLE 16 l'.currentAmount ++ (sl d 16 40 ++ (natLE 8 l'.lastReset ++ sl d 48 144)) := by
  unfold chargeScope at h
  obtain ⟨l', h1, h⟩ := bind_ok_iff.mp h
  refine ⟨l', h1, ?_⟩
  cases h
  obtain ⟨e1, e2⟩ := scope_run_fixed h1
  rw [e1, e2]
  have f1 : natLE 16 (ProgramScope.decode d).limit = sl d 16 32 := natLE_rd (by omega)
  have f2 : natLE 8 (ProgramScope.decode d).window = sl d 32 40 := natLE_rd (by omega)
  have f3 := sl_append_sl d (i := 16) (j := 32) (k := 40) (by omega) (by omega)
  rw [f1, f2, ← f3]
  simp only [List.append_assoc]

theorem chargeFn_charged {ty n slot : Nat} {d d' : Bytes} (h : chargeFn ty n slot d = .ok d')
    (hl : actionLen ty = some d.length) : ChargedTo ty d d' ∧ ty < 22 := by
  have hlen : ∀ k, actionLen ty = some k → d.length = k := fun k hk => by rw [hk] at hl; exact (Option.some.inj hl).symm
  unfold chargeFn at h
  by_cases h1 : ty = P.solLimit
  · subst h1; rw [if_pos rfl] at h
    have := hlen 8 rfl
    refine ⟨chargedTo_prefix 0 d' rfl ?_ (fun _ => rfl) (by intro h; cases h), by decide⟩
    rw [(chargeSol_ok h).2]; simp [this]
  rw [if_neg h1] at h
  by_cases h2 : ty = P.solRecurringLimit
  · subst h2; rw [if_pos rfl] at h
    have := hlen 32 rfl
    obtain ⟨l', _, e⟩ := chargeSolRec_ok this h
    exact ⟨chargedTo_prefix 16 _ e (by simp [this]) (fun _ => rfl) (by intro h; cases h), by decide⟩
  rw [if_neg h2] at h
  by_cases h3 : ty = P.programScope
  · subst h3; rw [if_pos rfl] at h
    have := hlen 144 rfl
    obtain ⟨l', _, e⟩ := chargeScope_ok this h
    have s1 : (sl d 16 40).length = 24 := by rw [sl_length]; omega
    have s2 : (sl d 48 144).length = 96 := by rw [sl_length]; omega
    have f1 : sl d' 16 40 = sl d 16 40 := by
      rw [e]; exact sl_mid _ _ _ (by simp) (by simp [s1])
    have f2 : d'.drop 48 = d.drop 48 := by
      have e2 : d' = (natLE 16 l'.currentAmount ++ sl d 16 40 ++ natLE 8 l'.lastReset) ++ sl d 48 144 := by rw [e]; simp
      have e3 : sl d 48 144 = d.drop 48 := by unfold sl; rw [List.take_of_length_le]; simp; omega
      rw [e2, ← e3]
      exact List.drop_left' (by simp [s1])
    refine ⟨⟨by rw [e]; simp [s1, s2, this], fun _ => ?_, ?_⟩, by decide⟩
    · show (d'.drop 80).take 32 = (d.drop 80).take 32
      have : ∀ x : Bytes, x.drop 80 = (x.drop 48).drop 32 := fun x => by rw [List.drop_drop]
      rw [this d', this d, f2]
    · show sl d' 16 40 ++ d'.drop 48 = sl d 16 40 ++ d.drop 48
      rw [f1, f2]
  rw [if_neg h3] at h
  by_cases h4 : ty = P.tokenLimit
  · subst h4; rw [if_pos rfl] at h
    have := hlen 40 rfl
    exact ⟨chargedTo_prefix 32 _ (chargeToken_ok h).2 (by simp [this]) (fun _ => rfl) (fun _ => ⟨32, by omega, fun _ => rfl⟩), by decide⟩
  rw [if_neg h4] at h
  by_cases h5 : ty = P.tokenRecurringLimit
  · subst h5; rw [if_pos rfl] at h
    have := hlen 64 rfl
    obtain ⟨l', _, e⟩ := chargeTokenRec_ok this h
    exact ⟨chargedTo_prefix 48 _ e (by simp [this]) (fun _ => rfl) (fun _ => ⟨32, by omega, fun _ => rfl⟩), by decide⟩
  rw [if_neg h5] at h
  by_cases h6 : ty = P.stakeLimit
  · subst h6; rw [if_pos rfl] at h
    have := hlen 8 rfl
    refine ⟨chargedTo_prefix 0 d' rfl ?_ (fun _ => rfl) (by intro h; cases h), by decide⟩
    rw [(chargeStake_ok h).2]; simp [this]
  rw [if_neg h6] at h
  by_cases h7 : ty = P.stakeRecurringLimit
  · subst h7; rw [if_pos rfl] at h
    have := hlen 32 rfl
    obtain ⟨l', _, e⟩ := chargeStakeRec_ok this h
    exact ⟨chargedTo_prefix 16 _ e (by simp [this]) (fun _ => rfl) (by intro h; cases h), by decide⟩
  rw [if_neg h7] at h
  by_cases h8 : ty = P.solDestinationLimit
  · subst h8; rw [if_pos rfl] at h
    have := hlen 40 rfl
    exact ⟨chargedTo_prefix 32 _ (chargeSolDest_ok h).2 (by simp [this]) (fun _ => rfl) (fun _ => ⟨32, by omega, fun _ => rfl⟩), by decide⟩
  rw [if_neg h8] at h
  by_cases h9 : ty = P.solRecurringDestinationLimit
  · subst h9; rw [if_pos rfl] at h
    have := hlen 64 rfl
    obtain ⟨l', _, e⟩ := chargeSolRecDest_ok this h
    exact ⟨chargedTo_prefix 48 _ e (by simp [this]) (fun _ => rfl) (fun _ => ⟨32, by omega, fun _ => rfl⟩), by decide⟩
  rw [if_neg h9] at h
  by_cases h10 : ty = P.tokenDestinationLimit
  · subst h10; rw [if_pos rfl] at h
    have := hlen 72 rfl
    exact ⟨chargedTo_prefix 64 _ (chargeTokenDest_ok h).2 (by simp [this]) (fun _ => rfl) (fun _ => ⟨64, by omega, fun _ => rfl⟩), by decide⟩
  rw [if_neg h10] at h
  by_cases h11 : ty = P.tokenRecurringDestinationLimit
  · subst h11; rw [if_pos rfl] at h
    have := hlen 96 rfl
    obtain ⟨l', _, e⟩ := chargeTokenRecDest_ok this h
    exact ⟨chargedTo_prefix 80 _ e (by simp [this]) (fun _ => rfl) (fun _ => ⟨64, by omega, fun _ => rfl⟩), by decide⟩
  rw [if_neg h11] at h
  cases h

/-! ## Lists of actions -/

/-- An action after some charges. -/
def Act.Charged (a a' : Act) : Prop := a'.ty = a.ty ∧ ChargedTo a.ty a.data a'.data

theorem Act.Charged.refl (a : Act) : a.Charged a := ⟨rfl, chargedTo_refl _ _⟩

theorem Act.Charged.trans {a b c : Act} (h1 : a.Charged b) (h2 : b.Charged c) : a.Charged c :=
  ⟨h2.1.trans h1.1, h1.2.trans (h1.1 ▸ h2.2)⟩

theorem Act.Charged.grants {a a' : Act} (h : a.Charged a') (ty : Nat) (key : Bytes) : a'.grants ty key ↔ a.grants ty key := by
  obtain ⟨h1, h2⟩ := h
  unfold Act.grants
  rw [h1]
  constructor
  · rintro ⟨e, h⟩
    exact ⟨e, fun hr => by rw [← h hr]; subst e; exact (h2.key hr).symm⟩
  · rintro ⟨e, h⟩
    exact ⟨e, fun hr => by rw [← h hr]; subst e; exact h2.key hr⟩

/-- What charging the first matching action does. -/
theorem chargeFirst_ok {ty : Nat} {key : Bytes} {f : Bytes → R Bytes} :
    ∀ {as : List Act} {o : Option (List Act)}, chargeFirst ty key f as = .ok o →
    (o = none ∧ ∀ a ∈ as, ¬ a.grants ty key) ∨
    ∃ ab a aa d, as = ab ++ a :: aa ∧ a.grants ty key ∧ (∀ x ∈ ab, ¬ x.grants ty key) ∧ f a.data = .ok d ∧
      o = some (ab ++ { a with data := d } :: aa) := by
  intro as
  induction as with
  | nil => intro o h; cases h; exact .inl ⟨rfl, by simp⟩
  | cons a as ih =>
    intro o h
    unfold chargeFirst at h
    split at h
    · rename_i hg
      split at h
      · rename_i d hd
        cases h
        exact .inr ⟨[], a, as, d, rfl, hg, by simp, hd, rfl⟩
      · cases h
    · rename_i hg
      split at h
      · rename_i r hr
        cases h
        rcases ih hr with ⟨rfl, h2⟩ | ⟨ab, b, aa, d, e, g1, g2, g3, rfl⟩
        · exact .inl ⟨rfl, by exact fun x hx => (List.mem_cons.mp hx).elim (fun e => e ▸ hg) (h2 x)⟩
        · refine .inr ⟨a :: ab, b, aa, d, by rw [e]; rfl, g1, ?_, g3, rfl⟩
          exact fun x hx => (List.mem_cons.mp hx).elim (fun e => e ▸ hg) (g2 x)
      · cases h

theorem chargeFirst_split {ty : Nat} {key : Bytes} {f : Bytes → R Bytes} {ab aa : List Act} {a : Act} {d : Bytes}
    (hg : a.grants ty key) (hb : ∀ x ∈ ab, ¬ x.grants ty key) (hf : f a.data = .ok d) :
    chargeFirst ty key f (ab ++ a :: aa) = .ok (some (ab ++ { a with data := d } :: aa)) := by
  induction ab with
  | nil => simp [chargeFirst, hg, hf]
  | cons b ab ih =>
    have := ih (fun x hx => hb x (by simp [hx]))
    simp only [List.cons_append, chargeFirst]
    rw [if_neg (hb b (by simp)), this]
    rfl

theorem payload?_split {as ab aa : List Act} {a : Act} {ty : Nat} {key : Bytes} (h : as = ab ++ a :: aa)
    (hg : a.grants ty key) (hb : ∀ x ∈ ab, ¬ x.grants ty key) : payload? as ty key = some a.data := by
  unfold payload?
  rw [find?_split (p := fun a : Act => a.grants ty key) h hg hb]
  rfl

theorem payload?_none {as : List Act} {ty : Nat} {key : Bytes} (hb : ∀ x ∈ as, ¬ x.grants ty key) :
    payload? as ty key = none := by
  unfold payload?
  rw [find?_none (p := fun a : Act => a.grants ty key) hb]
  rfl

/-- Whether two permissions are charged to the same action. -/
def SameLimit (ty ty' : Nat) (key key' : Bytes) : Prop := ty' = ty ∧ (repeatable ty = true → key' = key)

instance (ty ty' : Nat) (key key' : Bytes) : Decidable (SameLimit ty ty' key key') := inferInstanceAs (Decidable (_ ∧ _))

/-- The payloads after one charge. -/
theorem chargeFirst_payload {ty : Nat} {key : Bytes} {f : Bytes → R Bytes} {as as' : List Act}
    (h : chargeFirst ty key f as = .ok (some as')) (hf : ∀ a ∈ as, ∀ d, a.ty = ty → f a.data = .ok d → ChargedTo ty a.data d) :
    All2 Act.Charged as as' ∧
    (∃ d d', payload? as ty key = some d ∧ f d = .ok d' ∧ payload? as' ty key = some d') ∧
    ∀ ty' key', ¬ SameLimit ty ty' key key' → payload? as' ty' key' = payload? as ty' key' := by
  rcases chargeFirst_ok h with ⟨h, _⟩ | ⟨ab, a, aa, d, e, g1, g2, g3, h⟩
  · cases h
  · cases h
    have hc : a.Charged { a with data := d } := ⟨rfl, by rw [g1.1]; exact hf a (by simp [e]) d g1.1 g3⟩
    refine ⟨?_, ⟨a.data, d, payload?_split e g1 g2, g3, payload?_split rfl ((hc.grants ty key).mpr g1) g2⟩, ?_⟩
    · rw [e]
      have h0 : ∀ l : List Act, All2 Act.Charged l l := by
        intro l; induction l with
        | nil => exact .nil
        | cons x l ih => exact .cons (Act.Charged.refl x) ih
      have h1 : ∀ l : List Act, All2 Act.Charged (l ++ a :: aa) (l ++ { a with data := d } :: aa) := by
        intro l; induction l with
        | nil => exact .cons hc (h0 aa)
        | cons x l ih => exact .cons (Act.Charged.refl x) ih
      exact h1 ab
    · intro ty' key' hne
      have hna : ¬ a.grants ty' key' := by
        rintro ⟨e1, e2⟩
        apply hne
        refine ⟨e1.symm.trans g1.1, fun hr => ?_⟩
        rw [← g1.2 hr, ← e2 (by rw [← e1, g1.1]; exact hr), ← e1, g1.1]
      have hna' : ¬ ({ a with data := d } : Act).grants ty' key' := fun h => hna ((hc.grants ty' key').mp h)
      unfold payload?
      rw [e, List.find?_append, List.find?_append, List.find?_cons, List.find?_cons]
      simp only [hna, hna', decide_false]

theorem All2.trans' {α : Type} {r : α → α → Prop} (ht : ∀ a b c, r a b → r b c → r a c) :
    ∀ {l1 l2 l3 : List α}, All2 r l1 l2 → All2 r l2 l3 → All2 r l1 l3 := by
  intro l1 l2 l3 h
  induction h generalizing l3 with
  | nil => intro h; cases h; exact .nil
  | cons h1 _ ih => intro h; cases h with | cons h2 h3 => exact .cons (ht _ _ _ h1 h2) (ih h3)

theorem All2.refl' {α : Type} {r : α → α → Prop} (hr : ∀ a, r a a) : ∀ l : List α, All2 r l l := by
  intro l; induction l with
  | nil => exact .nil
  | cons x l ih => exact .cons (hr x) ih

theorem All2.wf {as as' : List Act} (h : All2 Act.Charged as as') (hw : ∀ a ∈ as, a.WF) : ∀ a ∈ as', a.WF := by
  induction h with
  | nil => simp
  | cons h1 _ ih =>
    rename_i a a' _ _ _
    intro x hx
    rcases List.mem_cons.mp hx with rfl | hx
    · have := hw a (by simp)
      unfold Act.WF at this ⊢
      rw [h1.1, h1.2.len]; exact this
    · exact ih (fun y hy => hw y (by simp [hy])) x hx

/-- The payloads after a list of charges: each limit has been charged exactly the amounts meant for it. -/
theorem Plays.payload {slot : Nat} {as as' : List Act} {cs : List Chg} (h : Plays slot as cs as') :
    (∀ a ∈ as, a.WF) →
    All2 Act.Charged as as' ∧
    (∀ ty key, payload? as ty key = none → payload? as' ty key = none ∧ amounts cs ty key = []) ∧
    (∀ ty key d, payload? as ty key = some d → ∃ d', payload? as' ty key = some d' ∧
      chargeList ty slot d (amounts cs ty key) = .ok d') := by
  induction h with
  | nil as => intro _; exact ⟨All2.refl' Act.Charged.refl _, fun _ _ h => ⟨h, rfl⟩, fun _ _ d h => ⟨d, h, rfl⟩⟩
  | cons c h1 _ ih =>
    rename_i as as1 as' cs hp
    intro hw
    obtain ⟨p1, ⟨d0, d1, p2, p3, p4⟩, p5⟩ := chargeFirst_payload h1 (fun a ha d e hf =>
      (chargeFn_charged hf (by rw [← e]; exact hw a ha)).1)
    obtain ⟨q1, q2, q3⟩ := ih (All2.wf p1 hw)
    have same : ∀ ty key, SameLimit c.ty ty c.key key →
        payload? as ty key = some d0 ∧ payload? as1 ty key = some d1 ∧
        amounts (c :: cs) ty key = c.amount :: amounts cs ty key := by
      rintro ty key ⟨rfl, hk⟩
      have hcong : ∀ (l : List Act), payload? l c.ty key = payload? l c.ty c.key := by
        intro l
        unfold payload?
        congr 2
        funext a
        congr 1
        rw [eq_iff_iff]
        unfold Act.grants
        refine and_congr_right fun _ => ?_
        constructor
        · intro h hr; rw [h hr, hk hr]
        · intro h hr; rw [h hr, hk hr]
      refine ⟨by rw [hcong]; exact p2, by rw [hcong]; exact p4, ?_⟩
      unfold amounts
      rw [List.filter_cons_of_pos]
      · rfl
      · exact decide_eq_true ⟨rfl, fun hr => (hk hr).symm⟩
    have diff : ∀ ty key, ¬ SameLimit c.ty ty c.key key → amounts (c :: cs) ty key = amounts cs ty key := by
      intro ty key hn
      unfold amounts
      rw [List.filter_cons_of_neg]
      intro h
      have h := of_decide_eq_true h
      exact hn ⟨h.1.symm, fun hr => (h.2 (by rw [← h.1]; exact hr)).symm⟩
    refine ⟨All2.trans' (fun a b c (h1 : a.Charged b) (h2 : b.Charged c) => h1.trans h2) p1 q1, ?_, ?_⟩
    · intro ty key hn
      by_cases hs : SameLimit c.ty ty c.key key
      · rw [(same ty key hs).1] at hn; cases hn
      · have := q2 ty key (by rw [p5 ty key hs]; exact hn)
        rw [diff ty key hs]; exact this
    · intro ty key d hd
      by_cases hs : SameLimit c.ty ty c.key key
      · obtain ⟨s1, s2, s3⟩ := same ty key hs
        obtain ⟨d', r1, r2⟩ := q3 ty key d1 s2
        refine ⟨d', r1, ?_⟩
        rw [s3]
        rw [s1] at hd
        cases hd
        simp only [chargeList]
        rw [hs.1, p3]
        simpa [hs.1] using r2
      · rw [diff ty key hs]
        exact q3 ty key d (by rw [p5 ty key hs]; exact hd)

theorem Plays.append {slot : Nat} {as as1 as2 : List Act} {cs cs' : List Chg} (h : Plays slot as cs as1)
    (h' : Plays slot as1 cs' as2) : Plays slot as (cs ++ cs') as2 := by
  induction h with
  | nil _ => exact h'
  | cons c h1 _ ih => exact .cons c h1 (ih h')

theorem amounts_append (cs cs' : List Chg) (ty : Nat) (key : Bytes) :
    amounts (cs ++ cs') ty key = amounts cs ty key ++ amounts cs' ty key := by
  simp [amounts]

/-! ## One limit after a list of charges -/

theorem chargeList_sol {slot : Nat} {ns : List Nat} {d d' : Bytes} (h : chargeList P.solLimit slot d ns = .ok d') :
    rd d' 0 8 + ns.sum = rd d 0 8 := by
  induction ns generalizing d with
  | nil => cases h; simp
  | cons n ns ih =>
    simp only [chargeList] at h
    split at h
    · rename_i d1 h1
      have e := chargeSol_ok (show chargeSol n d = .ok d1 from h1)
      have := ih h
      have e2 : rd d1 0 8 = rd d 0 8 - n := by
        rw [e.2]
        have hlt := rd_lt d 0 8
        show leNat (sl (natLE 8 (rd d 0 8 - n)) 0 8) = _
        rw [sl_zero_take, List.take_of_length_le (by simp)]
        exact leNat_natLE_of_lt (by omega)
      simp only [List.sum_cons]
      omega
    · cases h

theorem chargeList_stake {slot : Nat} {ns : List Nat} {d d' : Bytes} (h : chargeList P.stakeLimit slot d ns = .ok d') :
    rd d' 0 8 + ns.sum = rd d 0 8 := by
  induction ns generalizing d with
  | nil => cases h; simp
  | cons n ns ih =>
    simp only [chargeList] at h
    split at h
    · rename_i d1 h1
      have e := chargeStake_ok (show chargeStake n d = .ok d1 from h1)
      have := ih h
      have e2 : rd d1 0 8 = rd d 0 8 - n := by
        rw [e.2]
        have hlt := rd_lt d 0 8
        show leNat (sl (natLE 8 (rd d 0 8 - n)) 0 8) = _
        rw [sl_zero_take, List.take_of_length_le (by simp)]
        exact leNat_natLE_of_lt (by omega)
      simp only [List.sum_cons]
      omega
    · cases h

/-- Limits whose remaining amount is the last field. -/
theorem chargeList_last {ty slot k : Nat} {ns : List Nat} {d d' : Bytes} (hk : k + 8 = d.length)
    (hc : ∀ (n : Nat) (d d1 : Bytes), chargeFn ty n slot d = .ok d1 → n ≤ rd d k 8 ∧ d1 = d.take k ++ natLE 8 (rd d k 8 - n))
    (h : chargeList ty slot d ns = .ok d') : rd d' k 8 + ns.sum = rd d k 8 := by
  induction ns generalizing d with
  | nil => cases h; simp
  | cons n ns ih =>
    simp only [chargeList] at h
    split at h
    · rename_i d1 h1
      obtain ⟨e1, e2⟩ := hc n d d1 h1
      have ht : (d.take k).length = k := by simp; omega
      have := ih (by rw [e2]; simp; omega) h
      have e3 : rd d1 k 8 = rd d k 8 - n := by
        have hlt := rd_lt d k 8
        have e4 := sl_mid (d.take k) (natLE 8 (rd d k 8 - n)) [] (i := k) (j := k + 8) ht.symm (by simp [ht])
        show leNat (sl d1 k (k + 8)) = _
        rw [e2]
        simp only [List.append_nil] at e4
        rw [e4]
        exact leNat_natLE_of_lt (by omega)
      simp only [List.sum_cons]
      omega
    · cases h

theorem chargeList_token {slot : Nat} {ns : List Nat} {d d' : Bytes} (hl : d.length = 40)
    (h : chargeList P.tokenLimit slot d ns = .ok d') : rd d' 32 8 + ns.sum = rd d 32 8 :=
  chargeList_last (ty := P.tokenLimit) (slot := slot) (by omega) (fun n d d1 h => chargeToken_ok (show chargeToken n d = .ok d1 from h)) h

theorem chargeList_solDest {slot : Nat} {ns : List Nat} {d d' : Bytes} (hl : d.length = 40)
    (h : chargeList P.solDestinationLimit slot d ns = .ok d') : rd d' 32 8 + ns.sum = rd d 32 8 :=
  chargeList_last (ty := P.solDestinationLimit) (slot := slot) (by omega) (fun n d d1 h => chargeSolDest_ok (show chargeSolDest n d = .ok d1 from h)) h

theorem chargeList_tokenDest {slot : Nat} {ns : List Nat} {d d' : Bytes} (hl : d.length = 72)
    (h : chargeList P.tokenDestinationLimit slot d ns = .ok d') : rd d' 64 8 + ns.sum = rd d 64 8 :=
  chargeList_last (ty := P.tokenDestinationLimit) (slot := slot) (by omega) (fun n d d1 h => chargeTokenDest_ok (show chargeTokenDest n d = .ok d1 from h)) h

end Verif
