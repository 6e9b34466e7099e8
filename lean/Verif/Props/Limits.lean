import Verif.Proofs.Limits

/-!
# Properties C18 - C23: spending limits

`play run s attempts` is the specification of a history (`Verif/Spec/History.lean`): the final state and
the list of approved attempts, refused attempts having no effect.
-/

namespace Verif

/-! ## C18: one-shot limits -/

/-- SOL limit: for every sequence of attempts, approved total + remaining = initial limit. -/
theorem C18_sol_total (L : Nat) (ds : List Nat) :
    (play SolLimit.run ⟨L⟩ ds).2.sum + (play SolLimit.run ⟨L⟩ ds).1.amount = L := by
  have h := play_conserve SolLimit.run id (·.amount) (by
    intro s i s' h
    unfold SolLimit.run at h
    split at h
    · cases h
    · cases h; simp only [id]; omega) ds ⟨L⟩
  simp at h
  omega

/-- A SOL charge is approved iff it does not exceed what remains, and then exactly it is deducted. -/
theorem C18_sol_decision (l : SolLimit) (d : Nat) :
    (d ≤ l.amount → l.run d = .ok ⟨l.amount - d⟩) ∧
    (l.amount < d → l.run d = .error E.au_permissionDeniedInsufficientBalance) := by
  constructor <;> intro h <;> simp [SolLimit.run] <;> omega

example : play SolLimit.run ⟨10⟩ [4, 7, 6, 1] = (⟨0⟩, [4, 6]) := by decide

/-- Stake limit: approved total + remaining = initial limit. -/
theorem C18_stake_total (L : Nat) (ds : List Nat) :
    (play StakeLimit.run ⟨L⟩ ds).2.sum + (play StakeLimit.run ⟨L⟩ ds).1.amount = L := by
  have h := play_conserve StakeLimit.run id (·.amount) (by
    intro s i s' h
    unfold StakeLimit.run at h
    split at h
    · cases h
    · cases h; simp only [id]; omega) ds ⟨L⟩
  simp at h
  omega

theorem C18_stake_decision (l : StakeLimit) (d : Nat) :
    (d ≤ l.amount → l.run d = .ok ⟨l.amount - d⟩) ∧
    (l.amount < d → l.run d = .error E.au_permissionDeniedInsufficientBalance) := by
  constructor <;> intro h <;> simp [StakeLimit.run] <;> omega

example : play StakeLimit.run ⟨5⟩ [5, 1] = (⟨0⟩, [5]) := by decide

/-- Token limit: approved total + remaining = initial limit; the mint never changes. -/
theorem C18_token_total (m : Key) (L : Nat) (ds : List Nat) :
    (play TokenLimit.run ⟨m, L⟩ ds).2.sum + (play TokenLimit.run ⟨m, L⟩ ds).1.current = L ∧
    (play TokenLimit.run ⟨m, L⟩ ds).1.mint = m := by
  constructor
  · have h := play_conserve TokenLimit.run id (·.current) (by
      intro s i s' h
      unfold TokenLimit.run at h
      split at h
      · cases h
      · cases h; simp only [id]; omega) ds ⟨m, L⟩
    simp at h
    omega
  · refine play_invariant TokenLimit.run (fun s => s.mint = m) ?_ ds ⟨m, L⟩ rfl
    intro s i s' hs h
    unfold TokenLimit.run at h
    split at h
    · cases h
    · cases h; exact hs

theorem C18_token_decision (l : TokenLimit) (d : Nat) :
    (d ≤ l.current → l.run d = .ok ⟨l.mint, l.current - d⟩) ∧
    (l.current < d → l.run d = .error E.au_permissionDeniedInsufficientBalance) := by
  constructor <;> intro h <;> simp [TokenLimit.run] <;> omega

example : play TokenLimit.run ⟨[1], 10⟩ [11, 10] = (⟨[1], 0⟩, [10]) := by decide

/-- SOL destination limit: approved total + remaining = initial limit; the destination never changes. -/
theorem C18_solDestination_total (k : Key) (L : Nat) (ds : List Nat) :
    (play SolDestinationLimit.run ⟨k, L⟩ ds).2.sum + (play SolDestinationLimit.run ⟨k, L⟩ ds).1.amount = L ∧
    (play SolDestinationLimit.run ⟨k, L⟩ ds).1.destination = k := by
  constructor
  · have h := play_conserve SolDestinationLimit.run id (·.amount) (by
      intro s i s' h
      unfold SolDestinationLimit.run at h
      split at h
      · cases h
      · cases h; simp only [id]; omega) ds ⟨k, L⟩
    simp at h
    omega
  · refine play_invariant SolDestinationLimit.run (fun s => s.destination = k) ?_ ds ⟨k, L⟩ rfl
    intro s i s' hs h
    unfold SolDestinationLimit.run at h
    split at h
    · cases h
    · cases h; exact hs

theorem C18_solDestination_decision (l : SolDestinationLimit) (d : Nat) :
    (d ≤ l.amount → l.run d = .ok ⟨l.destination, l.amount - d⟩) ∧
    (l.amount < d → l.run d = .error E.au_permissionDeniedSolDestinationLimitExceeded) := by
  constructor <;> intro h <;> simp [SolDestinationLimit.run] <;> omega

example : play SolDestinationLimit.run ⟨[1], 10⟩ [3, 3, 5] = (⟨[1], 4⟩, [3, 3]) := by decide

/-- Token destination limit: approved total + remaining = initial limit; mint and destination never change. -/
theorem C18_tokenDestination_total (m k : Key) (L : Nat) (ds : List Nat) :
    (play TokenDestinationLimit.run ⟨m, k, L⟩ ds).2.sum +
      (play TokenDestinationLimit.run ⟨m, k, L⟩ ds).1.amount = L ∧
    (play TokenDestinationLimit.run ⟨m, k, L⟩ ds).1.mint = m ∧
    (play TokenDestinationLimit.run ⟨m, k, L⟩ ds).1.destination = k := by
  constructor
  · have h := play_conserve TokenDestinationLimit.run id (·.amount) (by
      intro s i s' h
      unfold TokenDestinationLimit.run at h
      split at h
      · cases h
      · cases h; simp only [id]; omega) ds ⟨m, k, L⟩
    simp at h
    omega
  · refine play_invariant TokenDestinationLimit.run (fun s => s.mint = m ∧ s.destination = k) ?_ ds
      ⟨m, k, L⟩ ⟨rfl, rfl⟩
    intro s i s' hs h
    unfold TokenDestinationLimit.run at h
    split at h
    · cases h
    · cases h; exact hs

theorem C18_tokenDestination_decision (l : TokenDestinationLimit) (d : Nat) :
    (d ≤ l.amount → l.run d = .ok ⟨l.mint, l.destination, l.amount - d⟩) ∧
    (l.amount < d → l.run d = .error E.au_permissionDeniedTokenDestinationLimitExceeded) := by
  constructor <;> intro h <;> simp [TokenDestinationLimit.run] <;> omega

example : play TokenDestinationLimit.run ⟨[1], [2], 10⟩ [10, 1] = (⟨[1], [2], 0⟩, [10]) := by decide

/-! ## C19: recurring limits with aligned windows -/

/-- Charging a recurring SOL limit with a `Charge`. -/
def SolRecurringLimit.charge (l : SolRecurringLimit) (c : Charge) : R SolRecurringLimit :=
  l.run c.amount c.slot
/-- Charging a recurring token limit with a `Charge`. -/
def TokenRecurringLimit.charge (l : TokenRecurringLimit) (c : Charge) : R TokenRecurringLimit :=
  l.run c.amount c.slot
/-- Charging a recurring stake limit with a `Charge`. -/
def StakeRecurringLimit.charge (l : StakeRecurringLimit) (c : Charge) : R StakeRecurringLimit :=
  l.run c.amount c.slot

theorem solRecurring_aligned (A W : Nat) :
    AlignedStep SolRecurringLimit.charge (fun l => l.recurringAmount = A ∧ l.window = W)
      (·.currentAmount) (·.lastReset) A W := by
  constructor
  · rintro s c s' ⟨h1, h2⟩ h
    simp only [SolRecurringLimit.charge, SolRecurringLimit.run, bind_ok_iff] at h
    obtain ⟨l, hl, h⟩ := h
    unfold SolRecurringLimit.refill at hl
    split at hl
    · split at hl
      · cases hl
      · cases hl; split at h
        · cases h
        · cases h; exact ⟨h1, h2⟩
    · cases hl; split at h
      · cases h
      · cases h; exact ⟨h1, h2⟩
  · rintro s c s' ⟨h1, h2⟩ h
    simp only [SolRecurringLimit.charge, SolRecurringLimit.run, bind_ok_iff] at h
    obtain ⟨l, hl, h⟩ := h
    unfold SolRecurringLimit.refill at hl
    split at hl
    · rename_i hc
      split at hl
      · cases hl
      · cases hl; split at h
        · cases h
        · cases h; right; subst h1 h2; exact ⟨hc.1, rfl, by dsimp only at *; omega⟩
    · cases hl; split at h
      · cases h
      · cases h; left; exact ⟨rfl, by dsimp only at *; omega⟩

/-- Recurring SOL limit, per interval: whatever is attempted at slots in `[s, t]`, the total approved plus what remains is at
most what remained plus one full limit per aligned window touched by the interval. -/
theorem C19_sol_interval (l : SolRecurringLimit) (hW : 0 < l.window) (s t : Nat) (cs : List Charge)
    (hcs : ∀ c ∈ cs, s ≤ c.slot ∧ c.slot ≤ t) :
    Charge.total (play SolRecurringLimit.charge l cs).2 + (play SolRecurringLimit.charge l cs).1.currentAmount ≤
      l.currentAmount + l.recurringAmount * (1 + (t / l.window - s / l.window)) :=
  aligned_bound (solRecurring_aligned l.recurringAmount l.window) hW s t cs l ⟨rfl, rfl⟩ hcs

/-- Recurring SOL limit, since creation: by slot `t` at most `R * (1 + t / W)` was ever approved. -/
theorem C19_sol_lifetime (A W t : Nat) (hW : 0 < W) (cs : List Charge) (hcs : ∀ c ∈ cs, c.slot ≤ t) :
    Charge.total (play SolRecurringLimit.charge ⟨A, W, 0, A⟩ cs).2 ≤ A * (1 + t / W) := by
  have h := aligned_bound_last (solRecurring_aligned A W) hW t cs ⟨A, W, 0, A⟩ ⟨rfl, rfl⟩ hcs
  simp only [Nat.zero_div, Nat.sub_zero] at h
  rw [Nat.mul_add, Nat.mul_one]
  omega

/-- Within one window (no slot later than `lastReset + W`) only what remains can be spent. -/
theorem C19_sol_window (l : SolRecurringLimit) (cs : List Charge)
    (hcs : ∀ c ∈ cs, c.slot ≤ l.lastReset + l.window) :
    Charge.total (play SolRecurringLimit.charge l cs).2 ≤ l.currentAmount := by
  have key : ∀ cs : List Charge, ∀ l' : SolRecurringLimit,
      (∀ c ∈ cs, c.slot ≤ l'.lastReset + l'.window) →
      Charge.total (play SolRecurringLimit.charge l' cs).2 ≤ l'.currentAmount := by
    intro cs
    induction cs with
    | nil => intro l' _; simp [play, Charge.total]
    | cons c cs ih =>
      intro l' h
      have hc := h c (List.mem_cons_self ..)
      have hrest : ∀ x ∈ cs, x.slot ≤ l'.lastReset + l'.window := fun x hx => h x (List.mem_cons_of_mem _ hx)
      have hnot : ¬ (c.slot - l'.lastReset > l'.window ∧ c.amount ≤ l'.recurringAmount) := by omega
      have hrun : SolRecurringLimit.charge l' c =
          if c.amount > l'.currentAmount then .error .insufficientFunds
          else .ok { l' with currentAmount := l'.currentAmount - c.amount } := by
        simp only [SolRecurringLimit.charge, SolRecurringLimit.run, SolRecurringLimit.refill, if_neg hnot, ok_bind]
      simp only [play, hrun]
      split
      · rename_i s' hs
        split at hs
        · cases hs
        · cases hs
          have h1 := ih { l' with currentAmount := l'.currentAmount - c.amount } hrest
          simp only [Charge.total, List.map_cons, List.sum_cons] at h1 ⊢
          omega
      · exact ih l' hrest
  exact key cs l hcs

/-- The limit is refilled only when strictly more than a window has elapsed since the last reset. -/
theorem C19_sol_refill_only_after_window (l l' : SolRecurringLimit) (d slot : Nat)
    (h : l.run d slot = .ok l') (hr : l.currentAmount < l'.currentAmount + d) :
    slot > l.lastReset + l.window := by
  rcases (solRecurring_aligned l.recurringAmount l.window).step l ⟨d, slot⟩ l' ⟨rfl, rfl⟩ h with ⟨_, h2⟩ | ⟨h2, _⟩
  · simp only at h2; omega
  · simp only at h2; omega

example : play SolRecurringLimit.charge ⟨10, 100, 0, 10⟩ [⟨10, 50⟩, ⟨1, 100⟩, ⟨10, 101⟩, ⟨1, 200⟩, ⟨3, 201⟩]
    = (⟨10, 100, 200, 7⟩, [⟨10, 50⟩, ⟨10, 101⟩, ⟨3, 201⟩]) := by decide

theorem stakeRecurring_aligned (A W : Nat) :
    AlignedStep StakeRecurringLimit.charge (fun l => l.recurringAmount = A ∧ l.window = W)
      (·.currentAmount) (·.lastReset) A W := by
  constructor
  · rintro s c s' ⟨h1, h2⟩ h
    simp only [StakeRecurringLimit.charge, StakeRecurringLimit.run, bind_ok_iff] at h
    obtain ⟨l, hl, h⟩ := h
    unfold StakeRecurringLimit.refill at hl
    split at hl
    · split at hl
      · cases hl
      · cases hl; split at h
        · cases h
        · cases h; exact ⟨h1, h2⟩
    · cases hl; split at h
      · cases h
      · cases h; exact ⟨h1, h2⟩
  · rintro s c s' ⟨h1, h2⟩ h
    simp only [StakeRecurringLimit.charge, StakeRecurringLimit.run, bind_ok_iff] at h
    obtain ⟨l, hl, h⟩ := h
    unfold StakeRecurringLimit.refill at hl
    split at hl
    · rename_i hc
      split at hl
      · cases hl
      · cases hl; split at h
        · cases h
        · cases h; right; subst h1 h2; exact ⟨hc.1, rfl, by dsimp only at *; omega⟩
    · cases hl; split at h
      · cases h
      · cases h; left; exact ⟨rfl, by dsimp only at *; omega⟩

/-- Recurring stake limit, per interval. -/
theorem C19_stake_interval (l : StakeRecurringLimit) (hW : 0 < l.window) (s t : Nat) (cs : List Charge)
    (hcs : ∀ c ∈ cs, s ≤ c.slot ∧ c.slot ≤ t) :
    Charge.total (play StakeRecurringLimit.charge l cs).2 + (play StakeRecurringLimit.charge l cs).1.currentAmount ≤
      l.currentAmount + l.recurringAmount * (1 + (t / l.window - s / l.window)) :=
  aligned_bound (stakeRecurring_aligned l.recurringAmount l.window) hW s t cs l ⟨rfl, rfl⟩ hcs

/-- Recurring stake limit, since creation. -/
theorem C19_stake_lifetime (A W t : Nat) (hW : 0 < W) (cs : List Charge) (hcs : ∀ c ∈ cs, c.slot ≤ t) :
    Charge.total (play StakeRecurringLimit.charge ⟨A, W, 0, A⟩ cs).2 ≤ A * (1 + t / W) := by
  have h := aligned_bound_last (stakeRecurring_aligned A W) hW t cs ⟨A, W, 0, A⟩ ⟨rfl, rfl⟩ hcs
  simp only [Nat.zero_div, Nat.sub_zero] at h
  rw [Nat.mul_add, Nat.mul_one]
  omega

theorem C19_stake_refill_only_after_window (l l' : StakeRecurringLimit) (d slot : Nat)
    (h : l.run d slot = .ok l') (hr : l.currentAmount < l'.currentAmount + d) :
    slot > l.lastReset + l.window := by
  rcases (stakeRecurring_aligned l.recurringAmount l.window).step l ⟨d, slot⟩ l' ⟨rfl, rfl⟩ h with ⟨_, h2⟩ | ⟨h2, _⟩
  · simp only at h2; omega
  · simp only at h2; omega

example : play StakeRecurringLimit.charge ⟨10, 100, 0, 10⟩ [⟨10, 50⟩, ⟨1, 100⟩, ⟨10, 101⟩]
    = (⟨10, 100, 100, 0⟩, [⟨10, 50⟩, ⟨10, 101⟩]) := by decide

theorem tokenRecurring_aligned (m : Key) (A W : Nat) :
    AlignedStep TokenRecurringLimit.charge (fun l => l.limit = A ∧ l.window = W ∧ l.mint = m)
      (·.current) (·.lastReset) A W := by
  constructor
  · rintro s c s' ⟨h1, h2, h3⟩ h
    simp only [TokenRecurringLimit.charge, TokenRecurringLimit.run, bind_ok_iff] at h
    obtain ⟨l, hl, h⟩ := h
    unfold TokenRecurringLimit.refill at hl
    split at hl
    · split at hl
      · cases hl
      · cases hl; split at h
        · cases h
        · cases h; exact ⟨h1, h2, h3⟩
    · cases hl; split at h
      · cases h
      · cases h; exact ⟨h1, h2, h3⟩
  · rintro s c s' ⟨h1, h2, h3⟩ h
    simp only [TokenRecurringLimit.charge, TokenRecurringLimit.run, bind_ok_iff] at h
    obtain ⟨l, hl, h⟩ := h
    unfold TokenRecurringLimit.refill at hl
    split at hl
    · rename_i hc
      split at hl
      · cases hl
      · cases hl; split at h
        · cases h
        · cases h; right; subst h1 h2; exact ⟨hc.1, rfl, by dsimp only at *; omega⟩
    · cases hl; split at h
      · cases h
      · cases h; left; exact ⟨rfl, by dsimp only at *; omega⟩

/-- Recurring token limit, per interval. -/
theorem C19_token_interval (l : TokenRecurringLimit) (hW : 0 < l.window) (s t : Nat) (cs : List Charge)
    (hcs : ∀ c ∈ cs, s ≤ c.slot ∧ c.slot ≤ t) :
    Charge.total (play TokenRecurringLimit.charge l cs).2 + (play TokenRecurringLimit.charge l cs).1.current ≤
      l.current + l.limit * (1 + (t / l.window - s / l.window)) :=
  aligned_bound (tokenRecurring_aligned l.mint l.limit l.window) hW s t cs l ⟨rfl, rfl, rfl⟩ hcs

/-- Recurring token limit, since creation. -/
theorem C19_token_lifetime (m : Key) (A W t : Nat) (hW : 0 < W) (cs : List Charge) (hcs : ∀ c ∈ cs, c.slot ≤ t) :
    Charge.total (play TokenRecurringLimit.charge ⟨m, W, A, A, 0⟩ cs).2 ≤ A * (1 + t / W) := by
  have h := aligned_bound_last (tokenRecurring_aligned m A W) hW t cs ⟨m, W, A, A, 0⟩ ⟨rfl, rfl, rfl⟩ hcs
  simp only [Nat.zero_div, Nat.sub_zero] at h
  rw [Nat.mul_add, Nat.mul_one]
  omega

theorem C19_token_refill_only_after_window (l l' : TokenRecurringLimit) (d slot : Nat)
    (h : l.run d slot = .ok l') (hr : l.current < l'.current + d) :
    slot > l.lastReset + l.window := by
  rcases (tokenRecurring_aligned l.mint l.limit l.window).step l ⟨d, slot⟩ l' ⟨rfl, rfl, rfl⟩ h with ⟨_, h2⟩ | ⟨h2, _⟩
  · simp only at h2; omega
  · simp only at h2; omega

example : play TokenRecurringLimit.charge ⟨[7], 100, 10, 10, 0⟩ [⟨10, 50⟩, ⟨1, 100⟩, ⟨10, 101⟩]
    = (⟨[7], 100, 10, 0, 100⟩, [⟨10, 50⟩, ⟨10, 101⟩]) := by decide

/-- Every charge a recurring limit can honour from its refilled amount is honoured once the window has
elapsed, and every charge within the remaining amount is honoured at any time (`W > 0`). -/
theorem C19_sol_available (l : SolRecurringLimit) (hW : 0 < l.window) (d slot : Nat)
    (h : (slot > l.lastReset + l.window ∧ d ≤ l.recurringAmount) ∨
      (slot ≤ l.lastReset + l.window ∧ d ≤ l.currentAmount)) :
    ∃ l', l.run d slot = .ok l' := by
  have hw : l.window ≠ 0 := by omega
  rcases h with ⟨h1, h2⟩ | ⟨h1, h2⟩
  · have hc : slot - l.lastReset > l.window ∧ d ≤ l.recurringAmount := by omega
    have hn : ¬ d > l.recurringAmount := by omega
    simp [SolRecurringLimit.run, SolRecurringLimit.refill, hc, hw, hn]
  · have hc : ¬ (slot - l.lastReset > l.window ∧ d ≤ l.recurringAmount) := by omega
    have hn : ¬ d > l.currentAmount := by omega
    simp only [SolRecurringLimit.run, SolRecurringLimit.refill, if_neg hc, ok_bind, if_neg hn]
    exact ⟨_, rfl⟩

example : ∃ l', (⟨10, 100, 0, 0⟩ : SolRecurringLimit).run 10 101 = .ok l' :=
  C19_sol_available _ (by decide) _ _ (by decide)

/-! ## C20: recurring destination limits -/

/-- Charging a recurring SOL destination limit with a `Charge`. -/
def SolRecurringDestinationLimit.charge (l : SolRecurringDestinationLimit) (c : Charge) :
    R SolRecurringDestinationLimit := l.run c.amount c.slot
/-- Charging a recurring token destination limit with a `Charge`. -/
def TokenRecurringDestinationLimit.charge (l : TokenRecurringDestinationLimit) (c : Charge) :
    R TokenRecurringDestinationLimit := l.run c.amount c.slot

theorem solRecurringDestination_sliding (k : Key) (A W : Nat) :
    SlidingStep SolRecurringDestinationLimit.charge
      (fun l => l.recurringAmount = A ∧ l.window = W ∧ l.destination = k)
      (·.currentAmount) (·.lastReset) A W := by
  constructor
  · rintro s c s' ⟨h1, h2, h3⟩ h
    simp only [SolRecurringDestinationLimit.charge, SolRecurringDestinationLimit.run] at h
    by_cases hc : wsub64 c.slot s.lastReset > s.window ∧ c.amount ≤ s.recurringAmount
    · rw [if_pos hc] at h
      split at h
      · cases h
      · cases h; exact ⟨h1, h2, h3⟩
    · rw [if_neg hc] at h
      split at h
      · cases h
      · cases h; exact ⟨h1, h2, h3⟩
  · rintro s c s' ⟨h1, h2, h3⟩ h
    simp only [SolRecurringDestinationLimit.charge, SolRecurringDestinationLimit.run] at h
    by_cases hc : wsub64 c.slot s.lastReset > s.window ∧ c.amount ≤ s.recurringAmount
    · rw [if_pos hc] at h
      split at h
      · cases h
      · cases h; right; subst h1 h2; exact ⟨hc.1, rfl, by dsimp only at *; omega⟩
    · rw [if_neg hc] at h
      split at h
      · cases h
      · cases h; left; exact ⟨rfl, by dsimp only at *; omega⟩

/-- Recurring SOL destination limit: for attempts in clock order at slots within `[s, t]`, whatever the stored reset slot
(even one in the future), the total approved is at most what remained plus one limit per started span of `W + 1`
slots. -/
theorem C20_sol_interval (l : SolRecurringDestinationLimit) (s t : Nat) (ht : t < 2 ^ 64) (cs : List Charge)
    (hcs : ∀ c ∈ cs, s ≤ c.slot ∧ c.slot ≤ t) (hord : cs.Pairwise (fun a b => a.slot ≤ b.slot)) :
    Charge.total (play SolRecurringDestinationLimit.charge l cs).2 +
      (play SolRecurringDestinationLimit.charge l cs).1.currentAmount ≤
      l.currentAmount + l.recurringAmount * (1 + (t - s) / (l.window + 1)) :=
  sliding_bound (solRecurringDestination_sliding l.destination l.recurringAmount l.window) s t ht cs l
    ⟨rfl, rfl, rfl⟩ hcs hord

/-- Once the stored reset slot is not in the future, only what remains can be spent until the window has elapsed. -/
theorem C20_sol_refill_only_after_window (l l' : SolRecurringDestinationLimit) (d slot : Nat)
    (hs : slot < 2 ^ 64) (hl : l.lastReset ≤ slot)
    (h : l.run d slot = .ok l') (hr : l.currentAmount < l'.currentAmount + d) :
    slot > l.lastReset + l.window := by
  rcases (solRecurringDestination_sliding l.destination l.recurringAmount l.window).step l ⟨d, slot⟩ l'
    ⟨rfl, rfl, rfl⟩ h with ⟨_, h2⟩ | ⟨h2, _⟩
  · simp only at h2; omega
  · simp only at h2; rw [wsub64_of_le hl hs] at h2; omega

/-- A limit stored with a reset slot in the future (its layout check does not look at that field) is refilled at
once: the elapsed time wraps around. -/
theorem C20_sol_future_reset_refills_at_once :
    ∃ (l l' : SolRecurringDestinationLimit) (d slot : Nat), slot < l.lastReset ∧ 0 < l.window ∧
      l.currentAmount = 0 ∧ 0 < d ∧ l.run d slot = .ok l' :=
  ⟨⟨[], 10, 100, 51, 0⟩, ⟨[], 10, 100, 50, 0⟩, 10, 50, by decide⟩

example : play SolRecurringDestinationLimit.charge ⟨[1], 10, 100, 0, 10⟩ [⟨10, 50⟩, ⟨1, 100⟩, ⟨10, 101⟩, ⟨1, 200⟩, ⟨3, 202⟩]
    = (⟨[1], 10, 100, 202, 7⟩, [⟨10, 50⟩, ⟨10, 101⟩, ⟨3, 202⟩]) := by decide

theorem tokenRecurringDestination_sliding (m k : Key) (A W : Nat) :
    SlidingStep TokenRecurringDestinationLimit.charge
      (fun l => l.recurringAmount = A ∧ l.window = W ∧ l.destination = k ∧ l.mint = m)
      (·.currentAmount) (·.lastReset) A W := by
  constructor
  · rintro s c s' ⟨h1, h2, h3, h4⟩ h
    simp only [TokenRecurringDestinationLimit.charge, TokenRecurringDestinationLimit.run] at h
    by_cases hc : wsub64 c.slot s.lastReset > s.window ∧ c.amount ≤ s.recurringAmount
    · rw [if_pos hc] at h
      split at h
      · cases h
      · cases h; exact ⟨h1, h2, h3, h4⟩
    · rw [if_neg hc] at h
      split at h
      · cases h
      · cases h; exact ⟨h1, h2, h3, h4⟩
  · rintro s c s' ⟨h1, h2, h3, h4⟩ h
    simp only [TokenRecurringDestinationLimit.charge, TokenRecurringDestinationLimit.run] at h
    by_cases hc : wsub64 c.slot s.lastReset > s.window ∧ c.amount ≤ s.recurringAmount
    · rw [if_pos hc] at h
      split at h
      · cases h
      · cases h; right; subst h1 h2; exact ⟨hc.1, rfl, by dsimp only at *; omega⟩
    · rw [if_neg hc] at h
      split at h
      · cases h
      · cases h; left; exact ⟨rfl, by dsimp only at *; omega⟩

/-- Recurring token destination limit: same bound. -/
theorem C20_token_interval (l : TokenRecurringDestinationLimit) (s t : Nat) (ht : t < 2 ^ 64) (cs : List Charge)
    (hcs : ∀ c ∈ cs, s ≤ c.slot ∧ c.slot ≤ t) (hord : cs.Pairwise (fun a b => a.slot ≤ b.slot)) :
    Charge.total (play TokenRecurringDestinationLimit.charge l cs).2 +
      (play TokenRecurringDestinationLimit.charge l cs).1.currentAmount ≤
      l.currentAmount + l.recurringAmount * (1 + (t - s) / (l.window + 1)) :=
  sliding_bound (tokenRecurringDestination_sliding l.mint l.destination l.recurringAmount l.window) s t ht cs l
    ⟨rfl, rfl, rfl, rfl⟩ hcs hord

theorem C20_token_refill_only_after_window (l l' : TokenRecurringDestinationLimit) (d slot : Nat)
    (hs : slot < 2 ^ 64) (hl : l.lastReset ≤ slot)
    (h : l.run d slot = .ok l') (hr : l.currentAmount < l'.currentAmount + d) :
    slot > l.lastReset + l.window := by
  rcases (tokenRecurringDestination_sliding l.mint l.destination l.recurringAmount l.window).step l ⟨d, slot⟩ l'
    ⟨rfl, rfl, rfl, rfl⟩ h with ⟨_, h2⟩ | ⟨h2, _⟩
  · simp only at h2; omega
  · simp only at h2; rw [wsub64_of_le hl hs] at h2; omega

example : play TokenRecurringDestinationLimit.charge ⟨[1], [2], 10, 100, 0, 10⟩ [⟨10, 50⟩, ⟨1, 100⟩, ⟨10, 101⟩]
    = (⟨[1], [2], 10, 100, 101, 0⟩, [⟨10, 50⟩, ⟨10, 101⟩]) := by decide

/-! ## C22: program scope -/

/-- Charging a program scope with a `Charge`. -/
def ProgramScope.charge (s : ProgramScope) (c : Charge) : R ProgramScope := s.run c.amount c.slot

/-- Fixed limit: for every history, recorded usage grows by exactly the approved amounts and never exceeds the limit
(for limits below the largest `u128`). -/
theorem C22_limit_total (s : ProgramScope) (ht : s.scopeType % 256 = 1) (hl : s.limit < 2 ^ 128 - 1)
    (h0 : s.currentAmount ≤ s.limit) (cs : List Charge) :
    (play ProgramScope.charge s cs).1.currentAmount = s.currentAmount + Charge.total (play ProgramScope.charge s cs).2 ∧
    s.currentAmount + Charge.total (play ProgramScope.charge s cs).2 ≤ s.limit := by
  induction cs generalizing s with
  | nil => simp [play, Charge.total, h0]
  | cons c cs ih =>
    have hrun : s.charge c = if satAdd128 s.currentAmount c.amount > s.limit then
        .error E.au_permissionDeniedInsufficientBalance
        else .ok { s with currentAmount := satAdd128 s.currentAmount c.amount } := by
      simp [ProgramScope.charge, ProgramScope.run, ht]
    simp only [play, hrun]
    split
    · rename_i s' hs
      split at hs
      · cases hs
      · rename_i hle
        cases hs
        have hsat : satAdd128 s.currentAmount c.amount = s.currentAmount + c.amount := by
          unfold satAdd128 at *; omega
        rw [hsat] at hle ⊢
        have := ih { s with currentAmount := s.currentAmount + c.amount } ht hl (by simp only; omega)
        simp only [Charge.total, List.map_cons, List.sum_cons] at this ⊢
        omega
    · exact ih s ht hl h0

example : play ProgramScope.charge ⟨0, 10, 0, 0, [], [], 1, 2, 0, 8⟩ [⟨4, 1⟩, ⟨7, 2⟩, ⟨6, 3⟩]
    = (⟨10, 10, 0, 0, [], [], 1, 2, 0, 8⟩, [⟨4, 1⟩, ⟨6, 3⟩]) := by decide

/-- The largest `u128` as a fixed limit means "no limit": the recorded usage saturates there. -/
theorem C22_max_limit_is_unlimited (s : ProgramScope) (ht : s.scopeType % 256 = 1)
    (hl : s.limit = 2 ^ 128 - 1) (amount slot : Nat) : ∃ s', s.run amount slot = .ok s' := by
  have : ¬ satAdd128 s.currentAmount amount > s.limit := by unfold satAdd128; omega
  simp [ProgramScope.run, ht, this]

theorem programScope_aligned (A W : Nat) (hA : A < 2 ^ 128 - 1) :
    AlignedStep ProgramScope.charge (fun s => s.scopeType % 256 = 2 ∧ s.limit = A ∧ s.window = W)
      (fun s => s.limit - s.currentAmount) (·.lastReset) A W := by
  constructor
  · rintro s c s' ⟨h0, h1, h2⟩ h
    simp only [ProgramScope.charge, ProgramScope.run, h0] at h
    simp only [show ¬ (2 = 0) by omega, show ¬ (2 = 1) by omega, if_false, if_true, bind_ok_iff] at h
    obtain ⟨l, hl, h⟩ := h
    unfold ProgramScope.refill at hl
    split at hl
    · split at hl
      · cases hl
      · cases hl; split at h
        · cases h
        · cases h; exact ⟨h0, h1, h2⟩
    · cases hl; split at h
      · cases h
      · cases h; exact ⟨h0, h1, h2⟩
  · rintro s c s' ⟨h0, h1, h2⟩ h
    simp only [ProgramScope.charge, ProgramScope.run, h0] at h
    simp only [show ¬ (2 = 0) by omega, show ¬ (2 = 1) by omega, if_false, if_true, bind_ok_iff] at h
    obtain ⟨l, hl, h⟩ := h
    unfold ProgramScope.refill at hl
    split at hl
    · rename_i hc
      split at hl
      · cases hl
      · cases hl; split at h
        · cases h
        · rename_i hle
          cases h; right; subst h1 h2
          refine ⟨hc, rfl, ?_⟩
          dsimp only at *
          unfold satAdd128 at *; omega
    · cases hl; split at h
      · cases h
      · rename_i hle
        cases h; left
        refine ⟨rfl, ?_⟩
        dsimp only at *
        unfold satAdd128 at *; omega

/-- Recurring scope: per interval, at most one limit per aligned window. -/
theorem C22_recurring_interval (s : ProgramScope) (ht : s.scopeType % 256 = 2) (hA : s.limit < 2 ^ 128 - 1)
    (hW : 0 < s.window) (lo hi : Nat) (cs : List Charge) (hcs : ∀ c ∈ cs, lo ≤ c.slot ∧ c.slot ≤ hi) :
    Charge.total (play ProgramScope.charge s cs).2 ≤
      (s.limit - s.currentAmount) + s.limit * (1 + (hi / s.window - lo / s.window)) := by
  have := aligned_bound (programScope_aligned s.limit s.window hA) hW lo hi cs s ⟨ht, rfl, rfl⟩ hcs
  omega

example : play ProgramScope.charge ⟨0, 10, 100, 0, [], [], 2, 2, 0, 8⟩ [⟨4, 1⟩, ⟨7, 2⟩, ⟨6, 3⟩, ⟨8, 101⟩]
    = (⟨8, 10, 100, 100, [], [], 2, 2, 0, 8⟩, [⟨4, 1⟩, ⟨6, 3⟩, ⟨8, 101⟩]) := by decide

/-- Basic scope: every amount is approved and nothing is recorded.  Any scope type other than 0, 1, 2 (mod 256) is
refused. -/
theorem C22_basic_and_unknown (s : ProgramScope) (amount slot : Nat) :
    (s.scopeType % 256 = 0 → s.run amount slot = .ok s) ∧
    (s.scopeType % 256 > 2 → s.run amount slot = .error E.au_invalidDataPayload) := by
  constructor
  · intro h; simp [ProgramScope.run, h]
  · intro h
    have h0 : ¬ s.scopeType % 256 = 0 := by omega
    have h1 : ¬ s.scopeType % 256 = 1 := by omega
    have h2 : ¬ s.scopeType % 256 = 2 := by omega
    simp [ProgramScope.run, h0, h1, h2]

/-! ## C23: reading the tracked balance -/

/-- What the user configured: `start ≤ stop`, an existing range.  Then the read never leaves the data, and a success is
the little-endian value of exactly the configured bytes (or 0 when no field is configured). -/
theorem C23_read_balance_partial (s : ProgramScope) (data : Bytes)
    (hrange : s.balanceFieldStart ≤ s.balanceFieldEnd) (h64 : s.balanceFieldEnd < 2 ^ 64) :
    s.readAccountBalance data ≠ .error .ub ∧ s.readAccountBalance data ≠ .error .panic ∧
    ∀ v, s.readAccountBalance data = .ok v →
      (s.balanceFieldStart = 0 ∧ s.balanceFieldEnd = 0 ∧ v = 0) ∨
      (s.balanceFieldEnd ≤ data.length ∧
        numericWidth s.numericType = some (s.balanceFieldEnd - s.balanceFieldStart) ∧
        v = leNat ((data.drop s.balanceFieldStart).take (s.balanceFieldEnd - s.balanceFieldStart))) := by
  have hw : wsub64 s.balanceFieldEnd s.balanceFieldStart = s.balanceFieldEnd - s.balanceFieldStart :=
    wsub64_of_le hrange h64
  unfold ProgramScope.readAccountBalance readNumericField
  rw [hw]
  split
  · rename_i h0
    refine ⟨by simp, by simp, ?_⟩
    intro v hv; cases hv; left; exact ⟨h0.1, h0.2, rfl⟩
  · split
    · simp
    · rename_i hlen
      split
      · simp
      · rename_i w hwid
        split
        · simp
        · rename_i heq
          have heq' : s.balanceFieldEnd - s.balanceFieldStart = w := by
            by_cases h : s.balanceFieldEnd - s.balanceFieldStart = w
            · exact h
            · exact absurd h heq
          have hfit : s.balanceFieldStart + w ≤ data.length := by omega
          rw [if_pos hfit]
          refine ⟨by simp, by simp, ?_⟩
          intro v hv; cases hv; right
          refine ⟨by omega, by rw [hwid, heq'], ?_⟩
          simp only [rd, sl, heq']
          congr 2
          omega

example : (⟨0, 10, 0, 0, [], [], 1, 2, 1, 9⟩ : ProgramScope).readAccountBalance [0, 5, 1, 0, 0, 0, 0, 0, 0, 7] = .ok 261 := by
  decide

/-- C23 fails without `start ≤ stop`: the layout check accepts any range, the width test wraps around, and the unchecked
read starts before the data. -/
theorem C23_out_of_range_read_witness :
    ∃ (s : ProgramScope) (data : Bytes), s.readAccountBalance data = .error .ub ∧
      s.balanceFieldStart < 2 ^ 64 ∧ s.balanceFieldEnd ≤ data.length :=
  ⟨⟨0, 10, 0, 0, [], [], 1, 2, 2 ^ 64 - 3, 5⟩, [1, 2, 3, 4, 5, 6, 7, 8], by decide⟩

/-! ## C21: a recurring limit is never unusable -/

/-- With a positive window no recurring limit ever panics: it approves or refuses. -/
theorem C21_never_panics_partial (slot d : Nat) :
    (∀ l : SolRecurringLimit, 0 < l.window → l.run d slot ≠ .error .panic) ∧
    (∀ l : TokenRecurringLimit, 0 < l.window → l.run d slot ≠ .error .panic) ∧
    (∀ l : StakeRecurringLimit, 0 < l.window → l.run d slot ≠ .error .panic) ∧
    (∀ l : SolRecurringDestinationLimit, l.run d slot ≠ .error .panic) ∧
    (∀ l : TokenRecurringDestinationLimit, l.run d slot ≠ .error .panic) ∧
    (∀ s : ProgramScope, 0 < s.window → s.run d slot ≠ .error .panic) := by
  refine ⟨?_, ?_, ?_, ?_, ?_, ?_⟩
  · intro l hW h
    have hw : l.window ≠ 0 := by omega
    simp only [SolRecurringLimit.run, SolRecurringLimit.refill, hw, if_false] at h
    split at h <;> simp only [ok_bind] at h <;> split at h <;> cases h
  · intro l hW h
    have hw : l.window ≠ 0 := by omega
    simp only [TokenRecurringLimit.run, TokenRecurringLimit.refill, hw, if_false] at h
    split at h <;> simp only [ok_bind] at h <;> split at h <;> cases h
  · intro l hW h
    have hw : l.window ≠ 0 := by omega
    simp only [StakeRecurringLimit.run, StakeRecurringLimit.refill, hw, if_false] at h
    split at h <;> simp only [ok_bind] at h <;> split at h <;> cases h
  · intro l h
    simp only [SolRecurringDestinationLimit.run] at h
    split at h
    · split at h <;> cases h
    · split at h <;> cases h
  · intro l h
    simp only [TokenRecurringDestinationLimit.run] at h
    split at h
    · split at h <;> cases h
    · split at h <;> cases h
  · intro s hW h
    have hw : s.window ≠ 0 := by omega
    simp only [ProgramScope.run, ProgramScope.refill, hw, if_false] at h
    split at h
    · cases h
    · split at h
      · split at h <;> cases h
      · split at h
        · split at h <;> simp only [ok_bind] at h <;> split at h <;> cases h
        · cases h

example : (⟨10, 100, 0, 10⟩ : SolRecurringLimit).run 11 101 = .error .insufficientFunds := by decide

/-- With window 0 a recurring SOL limit aborts on every charge it should approve, at every slot after its last reset. -/
theorem C21_zero_window_always_aborts (l : SolRecurringLimit) (hW : l.window = 0) (d slot : Nat)
    (hs : slot > l.lastReset) (hd : d ≤ l.recurringAmount) : l.run d slot = .error .panic := by
  have hc : slot - l.lastReset > l.window ∧ d ≤ l.recurringAmount := by omega
  simp only [SolRecurringLimit.run, SolRecurringLimit.refill, if_pos hc, if_pos hW, error_bind]

example : (⟨10, 0, 0, 10⟩ : SolRecurringLimit).run 1 1 = .error .panic :=
  C21_zero_window_always_aborts _ rfl _ _ (by decide) (by decide)

end Verif
