import Verif.Proofs.AcceptSub

/-! The token parts of withdrawing, closing and moving. -/

namespace Verif

section
variable {env : Env} {cpi : Cpi} {outer : List Meta} {m m' : Mem}

theorem invokeSigned_carries {ix : CpiIx} {seeds : List Bytes} :
    invokeSigned env cpi m outer ix seeds = .ok m' ↔ Carries env cpi outer seeds m ix m' := by
  unfold invokeSigned Carries
  cases env.pda seeds with
  | none =>
    constructor
    · intro h; cases h
    · rintro ⟨⟨k, h, _⟩, _⟩; cases h
  | some k =>
    dsimp only
    split
    · rename_i hc
      exact ⟨fun h => ⟨⟨k, rfl, hc⟩, h⟩, fun h => h.2⟩
    · rename_i hc
      constructor
      · intro h; cases h
      · rintro ⟨⟨k', h, hc'⟩, _⟩
        cases h
        exact absurd hc' hc

theorem tokenTransfer_carries {program src dst auth : Key} {n : Nat} {seeds : List Bytes} :
    tokenTransfer env cpi m outer program src dst auth n seeds = .ok m' ↔ Carries env cpi outer seeds m (moveTokens program src dst auth n) m' :=
  invokeSigned_carries

theorem tokenClose_carries {program acct dst auth : Key} {seeds : List Bytes} :
    tokenClose env cpi m outer program acct dst auth seeds = .ok m' ↔ Carries env cpi outer seeds m (shutTokens program acct dst auth) m' :=
  invokeSigned_carries

theorem closeTokenCheck_iff {program swig wallet token : Key} {v2 b : Bool} (hne : swig ≠ wallet) :
    closeTokenCheck m program v2 swig wallet token = .ok b ↔ TokenUnder m program token (if b then wallet else swig) := by
  unfold closeTokenCheck TokenUnder
  dsimp only
  constructor
  · intro h
    split at h
    · cases h
    · rename_i h1
      split at h
      · cases h
      · rename_i h2
        refine ⟨Decidable.of_not_not h1, by omega, ?_⟩
        cases v2 <;> simp only [Bool.false_eq_true, if_false, if_true, Bool.not_false, Bool.not_true] at h
        · by_cases h3 : sl (m token).data 32 64 = swig
          · rw [if_pos h3] at h; cases h; exact h3
          · rw [if_neg h3] at h
            by_cases h4 : sl (m token).data 32 64 = wallet
            · rw [if_pos h4] at h; cases h; exact h4
            · rw [if_neg h4] at h; cases h
        · by_cases h3 : sl (m token).data 32 64 = wallet
          · rw [if_pos h3] at h; cases h; exact h3
          · rw [if_neg h3] at h
            by_cases h4 : sl (m token).data 32 64 = swig
            · rw [if_pos h4] at h; cases h; exact h4
            · rw [if_neg h4] at h; cases h
  · rintro ⟨h1, h2, h3⟩
    rw [if_neg (fun h => h h1), if_neg (by omega)]
    cases v2 <;> cases b <;> simp_all [hne.symm]

theorem closeTokensGo_iff {program swig wallet dst : Key} {v2 : Bool} {ws ss : List Bytes} (hne : swig ≠ wallet) :
    ∀ (ts : List Meta) (m : Mem), closeTokensGo env cpi outer program v2 swig wallet dst ws ss m ts = .ok m' ↔
      ClosesAll env cpi outer program swig wallet dst ws ss m ts m' := by
  intro ts
  induction ts with
  | nil =>
    intro m
    constructor
    · intro h; cases h; exact .nil
    · intro h; cases h; rfl
  | cons t ts ih =>
    intro m
    unfold closeTokensGo
    constructor
    · intro h
      obtain ⟨b, h1, h⟩ := bind_ok_iff.mp h
      obtain ⟨m1, h2, h3⟩ := bind_ok_iff.mp h
      have h1 := (closeTokenCheck_iff hne).mp h1
      have h3 := (ih m1).mp h3
      cases b
      · exact .bySwig h1 (tokenClose_carries.mp h2) h3
      · exact .byWallet h1 (tokenClose_carries.mp h2) h3
    · intro h
      cases h with
      | byWallet h1 h2 h3 =>
        rw [(closeTokenCheck_iff (b := true) hne).mpr h1, ok_bind]
        simp only [if_true]
        rw [tokenClose_carries.mpr h2, ok_bind]
        exact (ih _).mpr h3
      | bySwig h1 h2 h3 =>
        rw [(closeTokenCheck_iff (b := false) hne).mpr h1, ok_bind]
        simp only [Bool.false_eq_true, if_false]
        rw [tokenClose_carries.mpr h2, ok_bind]
        exact (ih _).mpr h3

theorem transferAmount_pos {swig wallet : Key} {src dst program : Meta} {n : Nat} :
    (0 < transferAmount m swig wallet src dst program ∧ n = transferAmount m swig wallet src dst program) ↔
      Movable m swig wallet src dst program n := by
  unfold transferAmount Movable
  constructor
  · rintro ⟨h0, rfl⟩
    split at h0
    · omega
    · rename_i h1
      rw [if_neg h1]
      split at h0
      · omega
      · rename_i h2
        rw [if_neg h2]
        split at h0
        · omega
        · rename_i h3
          rw [if_neg h3]
          refine ⟨?_, by omega, ?_, by omega, ?_, rfl, h0⟩
          · exact Decidable.of_not_not fun h => h1 (not_or.mp h)
          · exact Decidable.of_not_not fun h => h2 (.inr h)
          · exact Decidable.of_not_not fun h => h3 (.inr h)
  · rintro ⟨h1, h2, h3, h4, h5, h6, h7⟩
    rw [if_neg (not_and_or.mpr (by rcases h1 with h1 | h1 <;> simp [h1])), if_neg (not_or.mpr ⟨by omega, fun h => h h3⟩),
      if_neg (not_or.mpr ⟨by omega, fun h => h h5⟩)]
    exact ⟨by omega, h6⟩

theorem transferTokensGo_iff {swig wallet : Key} {seeds : List Bytes} : ∀ (n : Nat) (l : List Meta) (m : Mem), l.length ≤ n →
    (transferTokensGo env cpi outer swig wallet seeds m l = .ok m' ↔ MovesAll env cpi outer swig wallet seeds m l m') := by
  intro n
  induction n with
  | zero =>
    intro l m hl
    match l, hl with
    | [], _ =>
      constructor
      · intro h; cases h; exact .done (by simp)
      · intro h; cases h; rfl
  | succ n ih =>
    intro l m hl
    match l, hl with
    | [], _ | [_], _ | [_, _], _ =>
      constructor
      · intro h; cases h; exact .done (by simp)
      · intro h; cases h; rfl
    | src :: dst :: program :: l, hl =>
      have hl' : l.length ≤ n := by simp at hl; omega
      unfold transferTokensGo transferOne
      constructor
      · intro h
        obtain ⟨m1, h1, h⟩ := bind_ok_iff.mp h
        have h := (ih l m1 hl').mp h
        split at h1
        · rename_i h0
          exact .move (transferAmount_pos.mp ⟨h0, rfl⟩) (tokenTransfer_carries.mp h1) h
        · rename_i h0
          cases h1
          exact .skip (fun k hk => h0 (transferAmount_pos.mpr hk).1) h
      · intro h
        cases h with
        | done h => simp at h; omega
        | skip h1 h2 =>
          rw [if_neg (fun h0 => h1 _ (transferAmount_pos.mp ⟨h0, rfl⟩)), ok_bind]
          exact (ih l _ hl').mpr h2
        | move h1 h2 h3 =>
          obtain ⟨h0, e⟩ := transferAmount_pos.mpr h1
          rw [if_pos h0, ← e, tokenTransfer_carries.mpr h2, ok_bind]
          exact (ih l _ hl').mpr h3

theorem withdrawTokenV1_iff {metas : List Meta} {sub wallet : Key} {n : Nat} {seeds : List Bytes} :
    withdrawTokenV1 env cpi m metas sub wallet n seeds = .ok m' ↔
      ∃ src dst x, metas[6]? = some src ∧ metas[7]? = some dst ∧ metas[8]? = some x ∧ 64 ≤ (m dst.key).data.length ∧
        sl (m dst.key).data 32 64 = wallet ∧ ((m src.key).owner = tokenId ∨ (m src.key).owner = token2022Id) ∧
        (m dst.key).owner = (m src.key).owner ∧
        Carries env cpi metas seeds m (moveTokens (m src.key).owner src.key dst.key sub n) m' := by
  unfold withdrawTokenV1
  constructor
  · intro h
    obtain ⟨src, h1, h⟩ := bind_ok_iff.mp h
    obtain ⟨dst, h2, h⟩ := bind_ok_iff.mp h
    obtain ⟨o, h3, h⟩ := bind_ok_iff.mp h
    obtain ⟨_, h4, h⟩ := bind_ok_iff.mp h
    obtain ⟨x, h5, h⟩ := bind_ok_iff.mp h
    dsimp only at h
    obtain ⟨_, h6, h⟩ := bind_ok_iff.mp h
    obtain ⟨_, h7, h8⟩ := bind_ok_iff.mp h
    unfold slU at h3
    split at h3
    · rename_i hc
      cases h3
      exact ⟨src, dst, x, getOr_ok h1, getOr_ok h2, getOr_ok h5, hc.2, (require_ok_iff.mp h4).symm, require_ok_iff.mp h6, require_ok_iff.mp h7,
        tokenTransfer_carries.mp h8⟩
    · cases h3
  · rintro ⟨src, dst, x, h1, h2, h3, h4, h5, h6, h7, h8⟩
    have g : ∀ {i : Nat} {y : Meta}, metas[i]? = some y → getOr metas i .panic = .ok y := by
      intro i y h
      unfold getOr
      rw [h]
    rw [g h1, ok_bind, g h2, ok_bind]
    unfold slU
    rw [if_pos ⟨by omega, h4⟩, ok_bind, require_of h5.symm, ok_bind, g h3, ok_bind]
    dsimp only
    rw [require_of h6, ok_bind, require_of h7, ok_bind]
    exact tokenTransfer_carries.mpr h8

theorem checkWithdrawTokens_iff {sub wallet src dst program : Key} : checkWithdrawTokens m sub wallet src dst program = .ok () ↔
    (program = tokenId ∨ program = token2022Id) ∧ (m src).owner = program ∧ (m dst).owner = program ∧
      165 ≤ (m src).data.length ∧ 165 ≤ (m dst).data.length ∧ (m src).data.getD 108 0 = 1 ∧ (m dst).data.getD 108 0 = 1 ∧
      sl (m src).data 0 32 = sl (m dst).data 0 32 ∧ sl (m src).data 32 64 = sub ∧ sl (m dst).data 32 64 = wallet := by
  unfold checkWithdrawTokens
  constructor
  · intro h
    obtain ⟨_, h1, h⟩ := bind_ok_iff.mp h
    obtain ⟨_, h2, h⟩ := bind_ok_iff.mp h
    obtain ⟨_, h3, h⟩ := bind_ok_iff.mp h
    obtain ⟨_, h4, h⟩ := bind_ok_iff.mp h
    obtain ⟨_, h5, h⟩ := bind_ok_iff.mp h
    obtain ⟨_, h6, h⟩ := bind_ok_iff.mp h
    obtain ⟨_, h7, h⟩ := bind_ok_iff.mp h
    have h1 := require_ok_iff.mp h1
    have h2 := require_ok_iff.mp h2
    have h3 := require_ok_iff.mp h3
    have h4 := require_ok_iff.mp h4
    have h5 := require_ok_iff.mp h5
    exact ⟨by rw [h3]; exact h1, h3.symm, h2.trans h3.symm, h4.1, h4.2, h5.1, h5.2, require_ok_iff.mp h6, (require_ok_iff.mp h7).symm,
      (require_ok_iff.mp h).symm⟩
  · rintro ⟨h1, h2, h3, h4, h5, h6, h7, h8, h9, h10⟩
    rw [require_of (show (m src).owner = tokenId ∨ (m src).owner = token2022Id by rw [h2]; exact h1), ok_bind,
      require_of (h3.trans h2.symm), ok_bind, require_of h2.symm, ok_bind, require_of ⟨h4, h5⟩, ok_bind, require_of ⟨h6, h7⟩, ok_bind,
      require_of h8, ok_bind, require_of h9.symm, ok_bind, require_of h10.symm]

end

end Verif
