import Verif.Proofs.Stake
import Verif.Proofs.ChargesRec
import Verif.Props.SignTokens
import Verif.Spec.SampleStake

/-!
# C67: stake limits

A restricted role moves at most its stake limit in and out of the wallet's stake accounts, and cannot touch their authorities.  What is
not protected: everything from byte 124 on except the delegated amount (validator, activation and deactivation epoch), and the state.
-/

namespace Verif

section
variable {env : Env} {cpi : Cpi} {m m' : Mem} {swig wallet : Meta} {rest : List Meta} {ix : Bytes} {w : Wallet} {r : Role}

/-- One-shot limit: everything that happened to the wallet's stake accounts, added up, is taken off the limit. -/
theorem C67_limit_partial (h : RestrictedSign env cpi m m' swig wallet rest ix w r) (hsz : StakeSize m m' wallet.key rest) {d : Bytes}
    (hall : r.limit? P.stakeAll [] = none) (hl : r.limit? P.stakeLimit [] = some d) :
    ∃ ixs m1, AfterCalls env cpi m (swig :: wallet :: rest) swig wallet ix w ixs m1 ∧ (ConfigClash env m m1 swig ix w ∨
      ∃ w' r' d', StoredAs m' swig ix w' r' ∧ r'.limit? P.stakeLimit [] = some d' ∧ rd d' 0 8 ≤ rd d 0 8 ∧
        stakeMoves m m' wallet.key rest ≤ rd d 0 8 - rd d' 0 8) := by
  obtain ⟨ixs, m1, h1, h2 | ⟨x, cls, hs, total, acc, as', o⟩⟩ := h.out
  · exact ⟨ixs, m1, h1, .inl h2⟩
  · refine ⟨ixs, m1, h1, .inr ?_⟩
    have g := o.stakeCharged h.runtime.mem hsz hall (ty := P.stakeLimit) (eitherSeg_first hl)
    obtain ⟨d', e1, e2⟩ := (o.plays.payload h.acts).2.2 _ _ _ hl
    have e3 := chargeList_stake e2
    exact ⟨_, _, d', o.stored, e1, by omega, by omega⟩

/-- Recurring limit: the movements are covered by charges the limit approved in the slot of the request. -/
theorem C67_recurring_partial (h : RestrictedSign env cpi m m' swig wallet rest ix w r) (hsz : StakeSize m m' wallet.key rest) {d : Bytes}
    (hall : r.limit? P.stakeAll [] = none) (hn : r.limit? P.stakeLimit [] = none) (hl : r.limit? P.stakeRecurringLimit [] = some d) :
    ∃ ixs m1, AfterCalls env cpi m (swig :: wallet :: rest) swig wallet ix w ixs m1 ∧ (ConfigClash env m m1 swig ix w ∨
      ∃ w' r' d' cs, StoredAs m' swig ix w' r' ∧ r'.limit? P.stakeRecurringLimit [] = some d' ∧
        play StakeRecurringLimit.charge (.of d) cs = (.of d', cs) ∧ (∀ c ∈ cs, c.slot = env.slot) ∧
        stakeMoves m m' wallet.key rest ≤ Charge.total cs) := by
  obtain ⟨ixs, m1, h1, h2 | ⟨x, cls, hs, total, acc, as', o⟩⟩ := h.out
  · exact ⟨ixs, m1, h1, .inl h2⟩
  · refine ⟨ixs, m1, h1, .inr ?_⟩
    have g := o.stakeCharged h.runtime.mem hsz hall (ty := P.stakeRecurringLimit) (eitherSeg_second hn hl)
    obtain ⟨d', e1, e2⟩ := (o.plays.payload h.acts).2.2 _ _ _ hl
    have e3 := chargeList_stakeRec h.runtime.slot (payload?_len h.acts hl (n := 32) rfl) e2
    refine ⟨_, _, d', _, o.stored, e1, e3, ?_, ?_⟩
    · intro c hc
      obtain ⟨n, _, rfl⟩ := List.mem_map.mp hc
      rfl
    · rw [total_map]; exact g

/-- No stake permission at all: no stake account of the wallet loses lamports or changes the amount it delegates. -/
theorem C67_no_limit_partial (h : RestrictedSign env cpi m m' swig wallet rest ix w r) (hsz : StakeSize m m' wallet.key rest)
    (hn : ∀ act ∈ r.actions, act.ty ≠ P.stakeAll ∧ act.ty ≠ P.stakeLimit ∧ act.ty ≠ P.stakeRecurringLimit) {a : Meta} (ha : a ∈ rest)
    (ht : WalletStake m wallet.key a) :
    ∃ ixs m1, AfterCalls env cpi m (swig :: wallet :: rest) swig wallet ix w ixs m1 ∧ (ConfigClash env m m1 swig ix w ∨
      (m a.key).lamports ≤ (m' a.key).lamports ∧ stakedOf (m' a.key) = stakedOf (m a.key)) := by
  obtain ⟨ixs, m1, h1, h2 | ⟨x, cls, hs, total, acc, as', o⟩⟩ := h.out
  · exact ⟨ixs, m1, h1, .inl h2⟩
  · refine ⟨ixs, m1, h1, .inr ?_⟩
    obtain ⟨i, hi⟩ := List.getElem?_of_mem ha
    obtain ⟨st, b, l, s, hh, _, e2, _, e4⟩ := o.stakeMove_le h.runtime.mem hi ht hsz
    have hno : ∀ ty key, (∀ a ∈ r.actions, a.ty ≠ ty) → payload? r.actions ty key = none :=
      fun ty key h => payload?_none (fun a ha hg => h a ha hg.1)
    have hs0 : s = 0 := by
      by_cases hs0 : s = 0
      · exact hs0
      · exfalso
        rcases e4 hs0 with k | k
        · rw [hno _ _ fun a ha => (hn a ha).1] at k; cases k
        · rcases eitherSeg_some k with k | k
          · rw [hno _ _ fun a ha => (hn a ha).2.1] at k; cases k
          · rw [hno _ _ fun a ha => (hn a ha).2.2] at k; cases k
    unfold stakeMove at e2
    omega

/-- Whatever the role may do with stake, the owner, the rent reserve, staker, withdrawer and lock-up of the wallet's stake accounts are not
changed by a restricted signing. -/
theorem C67_authorities_partial (h : RestrictedSign env cpi m m' swig wallet rest ix w r) {a : Meta} (ha : a ∈ rest)
    (ht : WalletStake m wallet.key a) (hlen : 124 ≤ (m' a.key).data.length) :
    ∃ ixs m1, AfterCalls env cpi m (swig :: wallet :: rest) swig wallet ix w ixs m1 ∧
      (ConfigClash env m m1 swig ix w ∨ StakeClash env m m1 wallet.key rest ∨
      ((m' a.key).owner = (m a.key).owner ∧ ∀ i, 4 ≤ i → i < 124 → (m' a.key).data[i]? = (m a.key).data[i]?)) := by
  obtain ⟨ixs, m1, h1, h2 | ⟨x, cls, hs, total, acc, as', o⟩⟩ := h.out
  · exact ⟨ixs, m1, h1, .inl h2⟩
  · refine ⟨ixs, m1, h1, .inr ?_⟩
    obtain ⟨i, hi⟩ := List.getElem?_of_mem ha
    have hmm : m' a.key = m1 a.key := o.other _ (o.stake h.runtime.mem hi ht).1
    rw [hmm] at hlen ⊢
    rcases o.stakeSame h.runtime.mem (h.typed1 h1) hi ht with g | ⟨g1, g2⟩
    · exact .inl g
    · refine .inr ⟨g1, fun j hj1 hj2 => ?_⟩
      have t3 := ht.2.2.1
      have e0 : ∀ l : Bytes, sl l 0 0 = [] := fun l => by simp [sl]
      simp only [exceptBytes, e0, List.nil_append] at g2
      have hl : (sl (m1 a.key).data 4 124).length = (sl (m a.key).data 4 124).length := by rw [sl_length, sl_length]; omega
      obtain ⟨k1, _⟩ := List.append_inj g2 hl
      have k2 := congrArg (fun l : Bytes => l[j - 4]?) k1
      simp only [sl, List.getElem?_take, List.getElem?_drop] at k2
      rw [if_pos (by omega), if_pos (by omega), show 4 + (j - 4) = j by omega] at k2
      exact k2

end

namespace Sample

/-- Stake limit 600; may call every program. -/
def stakeActs : List Act := [⟨P.stakeLimit, natLE 8 600⟩, ⟨P.programAll, []⟩]

/-- A withdrawal of 500 lamports meets the hypotheses of `C67_limit_partial` and `C67_authorities_partial`, moves 500 and leaves 100 of the limit. -/
example : ∃ m', RestrictedSign signEnv moreCpi (moreMem (signWallet stakeActs) stakeAcct) m' signSwig signAddr moreRest
      (signIx [withdrawStake 500]) (signWallet stakeActs) ⟨1, 1, K 11, stakeActs⟩ ∧
    payload? stakeActs P.stakeAll [] = none ∧ payload? stakeActs P.stakeLimit [] = some (natLE 8 600) ∧
    ⟨K 80, false, true⟩ ∈ moreRest ∧ WalletStake (moreMem (signWallet stakeActs) stakeAcct) (K 2) ⟨K 80, false, true⟩ ∧
    (m' (K 80)).data.length = 200 ∧ stakeMoves (moreMem (signWallet stakeActs) stakeAcct) m' (K 2) moreRest = 500 ∧
    (m' (K 1)).data = (signWallet [⟨P.stakeLimit, natLE 8 100⟩, ⟨P.programAll, []⟩]).encode :=
  runMore_exists (signWallet stakeActs) _ stakeAcct _ _ (by decide +kernel) (by decide +kernel)

/-- ... and 601 lamports are refused. -/
example : (match runMore (signWallet stakeActs) stakeAcct [withdrawStake 601] with | .ok _ => false | .error _ => true) = true := by
  decide +kernel

/-- Recurring: 600 every 10 slots. -/
def stakeActs2 : List Act := [⟨P.stakeRecurringLimit, natLE 8 600 ++ natLE 8 10 ++ natLE 8 0 ++ natLE 8 200⟩, ⟨P.programAll, []⟩]

example : ∃ m', RestrictedSign signEnv moreCpi (moreMem (signWallet stakeActs2) stakeAcct) m' signSwig signAddr moreRest
      (signIx [withdrawStake 500]) (signWallet stakeActs2) ⟨1, 1, K 11, stakeActs2⟩ ∧
    payload? stakeActs2 P.stakeAll [] = none ∧ payload? stakeActs2 P.stakeLimit [] = none ∧
    (payload? stakeActs2 P.stakeRecurringLimit []).isSome = true ∧
    stakeMoves (moreMem (signWallet stakeActs2) stakeAcct) m' (K 2) moreRest = 500 :=
  runMore_exists (signWallet stakeActs2) _ stakeAcct _ _ (by decide +kernel) (by decide +kernel)

/-- No stake permission. -/
example : ∃ m', RestrictedSign signEnv moreCpi (moreMem (signWallet acts4) stakeAcct) m' signSwig signAddr moreRest
      (signIx [deactivateStake]) (signWallet acts4) ⟨1, 1, K 11, acts4⟩ ∧
    (∀ act ∈ acts4, act.ty ≠ P.stakeAll ∧ act.ty ≠ P.stakeLimit ∧ act.ty ≠ P.stakeRecurringLimit) ∧
    WalletStake (moreMem (signWallet acts4) stakeAcct) (K 2) ⟨K 80, false, true⟩ ∧ (m' (K 80)).data.length = 200 :=
  runMore_exists (signWallet acts4) _ stakeAcct _ _ (by decide +kernel) (by decide +kernel)

end Sample

open Sample in
/-- Full claim: a role without any stake permission cannot perform stake operations on the wallet's stake accounts.  It is false of the
code: the deactivation of a delegated stake account changes neither its lamports nor the delegated amount, so nothing is charged and no
stake permission is asked for. -/
theorem C67_refuted : ∃ env cpi m m' swig wallet rest ix w r a, RestrictedSign env cpi m m' swig wallet rest ix w r ∧
    (∀ x y, ¬ Clash env x y) ∧ a ∈ rest ∧ WalletStake m wallet.key a ∧
    (∀ act ∈ r.actions, act.ty ≠ P.stakeAll ∧ act.ty ≠ P.stakeLimit ∧ act.ty ≠ P.stakeRecurringLimit) ∧
    rd (m a.key).data 172 8 = 2 ^ 64 - 1 ∧ rd (m' a.key).data 172 8 = 7 := by
  obtain ⟨m', h, h1, h2, h3, h4, h5⟩ := runMore_exists (signWallet acts4) ⟨1, 1, K 11, acts4⟩ stakeAcct [deactivateStake]
    (fun m' => ⟨K 80, false, true⟩ ∈ moreRest ∧ WalletStake (moreMem (signWallet acts4) stakeAcct) (K 2) ⟨K 80, false, true⟩ ∧
      (∀ act ∈ acts4, act.ty ≠ P.stakeAll ∧ act.ty ≠ P.stakeLimit ∧ act.ty ≠ P.stakeRecurringLimit) ∧
      rd (moreMem (signWallet acts4) stakeAcct (K 80)).data 172 8 = 2 ^ 64 - 1 ∧ rd (m' (K 80)).data 172 8 = 7)
    (by decide +kernel) (by decide +kernel)
  exact ⟨_, _, _, m', _, _, _, _, _, _, ⟨K 80, false, true⟩, h, signEnv_noClash, h1, h2, h3, h4, h5⟩

end Verif
