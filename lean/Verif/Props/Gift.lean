import Verif.Props.Accept
import Verif.Props.AcceptSub
import Verif.Props.Prefund

/-!
C126. A gift takes nothing away: lamports sent by anybody to any of the accounts never turn a request that is carried out into one that
is refused. This holds for the requests that manage the wallet and its sub-accounts, and fails for closing the wallet.
-/

namespace Verif
open Client

theorem Richer.opened {m m' : Mem} {k : Key} {w : Wallet} (hg : Richer m m') (ho : Open m k w) : Open m' k w :=
  ⟨(hg k).1.trans ho.owner, ho.wf, (hg k).2.1.trans ho.data⟩

theorem Richer.plain {m m' : Mem} {w : Wallet} {metas : List Meta} (hg : Richer m m') (hp : Plain m w metas) : Plain m' w metas := by
  intro a ha
  rw [(hg a.key).1]
  exact hp a ha

theorem Richer.topped {env : Env} {m m' : Mem} {payer x : Meta} {n : Nat} (hg : Richer m m') (h : Topped env m payer x n) :
    Topped env m' payer x n := by
  have g1 := (hg x.key).2.2
  have g2 := (hg payer.key).2.2
  rcases h with h | ⟨h1, h2, h3, h4, h5, h6⟩
  · exact .inl (Nat.le_trans h g1)
  · exact .inr ⟨h1, h2, h3, (hg payer.key).1.trans h4, (hg payer.key).2.1.trans h5, by omega⟩

theorem Richer.toppedAll {env : Env} {m m' : Mem} {payer : Meta} {xs : List (Meta × Nat)} (hg : Richer m m')
    (h : ToppedAll env m payer xs) : ToppedAll env m' payer xs := by
  obtain ⟨h1, h2⟩ := h
  refine ⟨fun x hx => ?_, Nat.le_trans ?_ (Nat.le_trans h2 (hg payer.key).2.2)⟩
  · rcases h1 x hx with h | ⟨k1, k2, k3, k4, k5⟩
    · exact .inl (Nat.le_trans h (hg _).2.2)
    · exact .inr ⟨k1, k2, k3, (hg _).1.trans k4, (hg _).2.1.trans k5⟩
  · clear h1 h2
    induction xs with
    | nil => exact Nat.le_refl _
    | cons x xs ih =>
      have := (hg x.1.key).2.2
      simp only [List.map_cons, List.sum_cons]
      omega

theorem Richer.speaks {env : Env} {m m' : Mem} {metas : List Meta} {w : Wallet} {id : Nat} {payload data : Bytes} {r : Role}
    (hg : Richer m m') (h : Speaks env m metas w id payload data r) : Speaks env m' metas w id payload data r := by
  unfold Speaks
  rw [(hg instructionsSysvarId).2.1]
  exact h

/-- The requests that manage the wallet: 1 adds a role, 2 removes one, 3 updates one, 5 opens a session, 12 migrates, 16 replaces a
credential, 17 sets the rent claimer, 19 switches a sub-account. -/
def ManagesWallet (n : Nat) : Prop := n = 1 ∨ n = 2 ∨ n = 3 ∨ n = 5 ∨ n = 12 ∨ n = 16 ∨ n = 17 ∨ n = 19

section
variable {env : Env} {cpi : Cpi} {m m' : Mem} {swig : Meta} {rest : List Meta} {ix : Bytes} {w : Wallet}

/-- A request that manages the wallet and is carried out is carried out after any gifts too. -/
theorem C126_manage_partial (ho : Open m swig.key w) (hp : Plain m w (swig :: rest)) (hl : (swig :: rest).length ≤ 254)
    (hi : ManagesWallet (rd ix 0 2)) (hs : w.encode.length ≤ 10485760) (hcount : w.roles.length + 1 < 2 ^ 16)
    (hctr : w.roleCounter + 1 < 2 ^ 32)
    (hx : rd ix 0 2 = 16 → ∀ r, w.role? (rd ix 4 4) = some r → r.authType ≠ T.programExec)
    (hg : Richer m m') (h : Accepted env cpi m (swig :: rest) ix) : Accepted env cpi m' (swig :: rest) ix := by
  have ho' := hg.opened ho
  have hp' := hg.plain hp
  rcases hi with hi | hi | hi | hi | hi | hi | hi | hi
  · rw [C109_add ho hp hl hi hcount hctr] at h
    rw [C109_add ho' hp' hl hi hcount hctr]
    obtain ⟨h1, ⟨r, h2, h3⟩, cred, as, payer, sys, more, k1, k2, k3, k4, k5, k6, k7, k8, k9, k10⟩ := h
    exact ⟨h1, ⟨r, hg.speaks h2, h3⟩, cred, as, payer, sys, more, k1, k2, k3, k4, k5, k6, k7, k8, k9, hg.topped k10⟩
  · rw [C109_remove ho hp hl hi hs] at h
    rw [C109_remove ho' hp' hl hi hs]
    obtain ⟨h1, h2, h3, h4, r, h5, h6⟩ := h
    exact ⟨h1, h2, h3, h4, r, hg.speaks h5, h6⟩
  · rw [C109_update ho hp hl hi hs] at h
    rw [C109_update ho' hp' hl hi hs]
    obtain ⟨h1, ⟨r, h2, h3⟩, op, t, as, payer, sys, more, k1, k2, k3, k4, k5, k6, k7, k8, k9, k10⟩ := h
    exact ⟨h1, ⟨r, hg.speaks h2, h3⟩, op, t, as, payer, sys, more, k1, k2, k3, k4, k5, k6, k7, k8, k9,
      fun hpos => ⟨(k10 hpos).1, hg.topped (k10 hpos).2⟩⟩
  · rw [C109_session ho hp hl hi] at h
    rw [C109_session ho' hp' hl hi, (hg instructionsSysvarId).2.1]
    exact h
  · rw [C109_migrate ho hp hl hi] at h
    rw [C109_migrate ho' hp' hl hi]
    obtain ⟨x, payer, wallet, y, more, h1, h2, ⟨r, h3, h4⟩, h5, h6, h7, h8⟩ := h
    exact ⟨x, payer, wallet, y, more, h1, h2, ⟨r, hg.speaks h3, h4⟩, (hg _).1.trans h5, (hg _).2.1.trans h6, h7, hg.topped h8⟩
  · rw [C109_replace ho hp hl hi (hx hi)] at h
    rw [C109_replace ho' hp' hl hi (hx hi)]
    obtain ⟨h1, h2, h3, h4, ⟨r, h5, h6⟩, h7⟩ := h
    exact ⟨h1, h2, h3, h4, ⟨r, hg.speaks h5, h6⟩, h7⟩
  · rw [C109_claimer ho hp hl hi] at h
    rw [C109_claimer ho' hp' hl hi]
    obtain ⟨h1, h2, h3, h4, h5, ⟨r, h6, h7⟩, payer, sys, more, k1, k2, k3, k4⟩ := h
    exact ⟨h1, h2, h3, h4, h5, ⟨r, hg.speaks h6, h7⟩, payer, sys, more, k1, k2, k3, hg.topped k4⟩
  · rw [C109_toggle ho hp hl hi] at h
    rw [C109_toggle ho' hp' hl hi]
    obtain ⟨x, state, more, h1, h2, h3, h4, h5, ⟨r, h6, h7⟩, h8, s, h9⟩ := h
    exact ⟨x, state, more, h1, h2, h3, h4, h5, ⟨r, hg.speaks h6, h7⟩, (hg _).1.trans h8, s, (hg _).2.1.trans h9.1, h9.2⟩

/-- Creating and switching version 1 sub-accounts, and withdrawing SOL from them (a withdrawal that passes six accounts). -/
theorem C126_sub_v1_partial (ho : Open m swig.key w) (hp : Plain m w (swig :: rest)) (hl : (swig :: rest).length ≤ 254)
    (hk : ∀ x ∈ rest, x.key.length = 32) (hi : rd ix 0 2 = 6 ∨ rd ix 0 2 = 10 ∨ (rd ix 0 2 = 7 ∧ rest.length = 5))
    (hg : Richer m m') (h : Accepted env cpi m (swig :: rest) ix) : Accepted env cpi m' (swig :: rest) ix := by
  have ho' := hg.opened ho
  have hp' := hg.plain hp
  rcases hi with hi | hi | ⟨hi, hn⟩
  · rw [C110_sub_create ho hp hl hi hk] at h
    rw [C110_sub_create ho' hp' hl hi hk]
    obtain ⟨payer, sub, sys, more, h1, h2, h3, ⟨r, h4, h5⟩, h6, h7⟩ := h
    exact ⟨payer, sub, sys, more, h1, h2, (hg _).1.trans h3, ⟨r, hg.speaks h4, h5⟩, h6, hg.topped h7⟩
  · rw [C110_sub_toggle ho hp hl hi hk] at h
    rw [C110_sub_toggle ho' hp' hl hi hk]
    obtain ⟨payer, sub, more, h1, h2, h3, h4, ⟨r, h5, h6⟩, h7⟩ := h
    exact ⟨payer, sub, more, h1, h2, (hg _).1.trans h3, h4, ⟨r, hg.speaks h5, h6⟩, h7⟩
  · rw [C110_sub_withdraw ho hp hl hi hk] at h
    rw [C110_sub_withdraw ho' hp' hl hi hk]
    obtain ⟨x1, sub, x3, wallet, x5, more, h1, h2, h3, h4, h5, r, i, b, h6, h7, h8⟩ := h
    refine ⟨x1, sub, x3, wallet, x5, more, h1, h2, (hg _).1.trans h3, (hg _).1.trans h4, h5, r, i, b, hg.speaks h6, h7, .inl ?_⟩
    rcases h8 with ⟨k1, k2, k3, k4, k5, k6⟩ | ⟨src, dst, x, more', _, k1, _⟩
    · exact ⟨k1, k2, k3, k4, (hg _).2.1.trans k5, Nat.le_trans k6 (hg _).2.2⟩
    · rw [h1, k1] at hn
      simp at hn

/-- Creating version 2 sub-accounts (19, switching them, is in `C126_manage_partial`), and withdrawing SOL from them (a withdrawal that
passes seven accounts). -/
theorem C126_sub_v2_partial (ho : Open m swig.key w) (hp : Plain m w (swig :: rest)) (hl : (swig :: rest).length ≤ 254)
    (hd : rd ix 0 2 = 18 → ∀ payer state sub more, rest = payer :: state :: sub :: more →
      payer.key ≠ swig.key ∧ payer.key ≠ state.key ∧ payer.key ≠ sub.key ∧ state.key ≠ sub.key)
    (hi : rd ix 0 2 = 18 ∨ (rd ix 0 2 = 21 ∧ rest.length = 6))
    (hg : Richer m m') (h : Accepted env cpi m (swig :: rest) ix) : Accepted env cpi m' (swig :: rest) ix := by
  have ho' := hg.opened ho
  have hp' := hg.plain hp
  rcases hi with hi | ⟨hi, hn⟩
  · rw [C110_v2_create ho hp hl hi (hd hi)] at h
    rw [C110_v2_create ho' hp' hl hi (hd hi)]
    obtain ⟨payer, state, sub, sys, more, h1, h2, h3, h4, h5, h6, h7, h8, h9, h10, h11, h12, r, h13, h14, h15⟩ := h
    refine ⟨payer, state, sub, sys, more, h1, h2, h3, (hg _).1.trans h4, (hg _).2.1.trans h5, h6, (hg _).1.trans h7, h8, h9, h10, h11, h12,
      r, hg.speaks h13, h14, ?_⟩
    rcases h15 with ⟨k1, k2⟩ | ⟨k1, k2, k3, k4, k5⟩
    · exact .inl ⟨k1, hg.toppedAll k2⟩
    · exact .inr ⟨k1, k2, k3, k4, hg.toppedAll k5⟩
  · rw [C110_v2_withdraw ho hp hl hi] at h
    rw [C110_v2_withdraw ho' hp' hl hi]
    obtain ⟨x1, state, sub, wallet, x5, x6, more, h1, h2, h3, h4, h5, h6, ⟨r, h7, h8⟩, h9, h10, s, j1, j2, j3, j4, j5, j6, j7, j8, h11⟩ := h
    refine ⟨x1, state, sub, wallet, x5, x6, more, h1, h2, (hg _).1.trans h3, (hg _).1.trans h4, h5, h6, ⟨r, hg.speaks h7, h8⟩,
      (hg _).1.trans h9, h10, s, (hg _).2.1.trans j1, j2, j3, j4, j5, j6, j7, j8, .inl ?_⟩
    rcases h11 with ⟨k1, k2, k3, k4, k5, k6⟩ | ⟨src, dst, program, _, k1, _⟩
    · exact ⟨k1, k2, k3, k4, (hg _).2.1.trans k5, Nat.le_trans k6 (hg _).2.2⟩
    · rw [h1, k1] at hn
      simp at hn

/-- Whoever keeps one lamport more than the rent minimum in the configuration account or at the wallet address prevents the closing of
the wallet, whoever asks for it. -/
theorem C126_close_blocked (ho : Open m swig.key w) {wallet : Meta} {more : List Meta} (hp : Plain m w (swig :: wallet :: more))
    (hl : (swig :: wallet :: more).length ≤ 254) (hi : rd ix 0 2 = 15)
    (hrich : env.rent w.encode.length < (m swig.key).lamports ∨ env.rent 0 < (m wallet.key).lamports) :
    ¬ Accepted env cpi m (swig :: wallet :: more) ix := by
  rw [C109_close ho hp hl hi]
  rintro ⟨x, dst, sys, more', h1, _, _, _, _, _, h2, h3, _⟩
  cases h1
  omega

/-- Every closing that is carried out can be prevented with a gift, to the configuration account alone or to the wallet address alone. -/
theorem C126_close_preventable (ho : Open m swig.key w) {wallet : Meta} {more : List Meta} (hp : Plain m w (swig :: wallet :: more))
    (hl : (swig :: wallet :: more).length ≤ 254) (hi : rd ix 0 2 = 15) {k : Key} (hk : k = swig.key ∨ k = wallet.key) :
    ∃ n, Richer m (m.setLamports k ((m k).lamports + n)) ∧
      ¬ Accepted env cpi (m.setLamports k ((m k).lamports + n)) (swig :: wallet :: more) ix := by
  have hg : ∀ n, Richer m (m.setLamports k ((m k).lamports + n)) := by
    intro n j
    by_cases e : j = k
    · subst e
      simp [Mem.setLamports, Mem.set]
    · simp [Mem.setLamports, Mem.set, e]
  refine ⟨env.rent w.encode.length + env.rent 0 + 1, hg _, ?_⟩
  refine C126_close_blocked ((hg _).opened ho) ((hg _).plain hp) hl hi ?_
  rcases hk with rfl | rfl
  · exact .inl (by simp [Mem.setLamports, Mem.set]; omega)
  · exact .inr (by simp [Mem.setLamports, Mem.set]; omega)

end

section
open Sample

/-- C126 does not hold as stated: a closing that is carried out is refused after a gift of one lamport. -/
theorem C126_refuted : ∃ (env : Env) (cpi : Cpi) (m m' : Mem) (swig : Meta) (rest : List Meta) (ix : Bytes) (w : Wallet),
    Open m swig.key w ∧ Richer m m' ∧ (m' swig.key).lamports = (m swig.key).lamports + 1 ∧ (∀ k, k ≠ swig.key → m' k = m k) ∧
    Accepted env cpi m (swig :: rest) ix ∧ ¬ Accepted env cpi m' (swig :: rest) ix := by
  refine ⟨env, noCall, manyMem', manyMem'.setLamports (K 1) (env.rent manyWallet.encode.length + 1), (closeMetas (K 20)).head (by decide),
    (closeMetas (K 20)).tail, closeIx, manyWallet, many_open.2, ?_, by decide +kernel, ?_, ?_, ?_⟩
  · intro j
    by_cases e : j = K 1
    · subst e
      decide +kernel
    · simp [Mem.setLamports, Mem.set, e]
  · intro k hk
    have hk' : k ≠ K 1 := hk
    simp [Mem.setLamports, Mem.set, hk']
  · exact exists_of_ok (by decide +kernel)
  · rintro ⟨m', e⟩
    have : ok (process env noCall (manyMem'.setLamports (K 1) (env.rent manyWallet.encode.length + 1)) (closeMetas (K 20)) closeIx) = false := by
      decide +kernel
    change process _ _ _ (closeMetas (K 20)) _ = _ at e
    rw [e] at this
    cases this

/-- The hypotheses of `C126_manage_partial`, for each of the numbers: the requests of the example of C109, which are all carried out. -/
example : (∀ ix ∈ [addIx, removeIx, updateIx, updateRemoveIx, replaceIx, claimerIx, sessionIx 60, migrateIx, disableIx],
      rd ix 0 2 ∈ [1, 2, 3, 5, 12, 16, 17, 19]) ∧
    manyWallet.encode.length ≤ 10485760 ∧ manyWallet.roles.length + 1 < 2 ^ 16 ∧ manyWallet.roleCounter + 1 < 2 ^ 32 ∧
    (∀ r ∈ manyWallet.roles, r.authType ≠ T.programExec) := by
  refine ⟨by decide +kernel, by decide +kernel, by decide, by decide, by decide⟩

/-- After a gift of 5 lamports to the wallet address the addition of a role is carried out as before. -/
example : Accepted env noCall (manyMem.setLamports (K 2) ((manyMem (K 2)).lamports + 5)) (metas (K 10)) addIx := by
  have hp : Plain manyMem manyWallet (metas (K 10)) := by unfold Plain; decide +kernel
  refine C126_manage_partial (m := manyMem) (w := manyWallet) many_open.1 hp (by decide) (.inl (by decide +kernel)) (by decide +kernel)
    (by decide) (by decide) (fun h => absurd h (by decide +kernel)) ?_ (exists_of_ok (by decide +kernel))
  intro j
  by_cases e : j = K 2
  · subst e
    simp [Mem.setLamports, Mem.set]
  · simp [Mem.setLamports, Mem.set, e]

/-- The hypotheses of the theorems on sub-accounts, met by the requests of the example of C110, which are all carried out: lamports sent
to the sub-accounts `K 3` and `K 8` change nothing. -/
example : (∀ x ∈ [(famToggleV1, v1ToggleIx), (v1WithdrawMetas, v1WithdrawIx), (famCreateV1, createSubV1Ix)],
      rd x.2 0 2 = 6 ∨ rd x.2 0 2 = 10 ∨ (rd x.2 0 2 = 7 ∧ x.1.tail.length = 5)) ∧
    (∀ x ∈ [(famCreateV2, createSubIx 255), (withdrawSubMetas, withdrawSubIx)],
      rd x.2 0 2 = 18 ∨ (rd x.2 0 2 = 21 ∧ x.1.tail.length = 6)) ∧
    Accepted famEnv demoCpi ((famMem.setLamports (K 3) 3000000000).setLamports (K 8) 7000000) v1WithdrawMetas v1WithdrawIx ∧
    Accepted famEnv demoCpi ((famMem.setLamports (K 3) 3000000000).setLamports (K 8) 7000000) famCreateV2 (createSubIx 255) :=
  ⟨by decide +kernel, by decide +kernel, exists_of_ok (by decide +kernel), exists_of_ok (by decide +kernel)⟩

end

end Verif
