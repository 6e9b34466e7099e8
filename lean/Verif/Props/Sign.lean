import Verif.Proofs.SignOut
import Verif.Props.Limits
import Verif.Spec.SampleSign

/-!
# Properties C52 - C58: signing with restricted roles

A restricted role (neither All nor AllButManageAuthority) signs with SignV2; the called programs are arbitrary (`cpi`).  The program
detects changes of accounts by SHA-256, so each conclusion allows for a collision, shown explicitly: the two versions of the account
before and after the calls (`ConfigClash`, `TokenClash`).
-/

namespace Verif

section
variable {env : Env} {cpi : Cpi} {m m' : Mem} {swig wallet : Meta} {rest : List Meta} {ix : Bytes} {w : Wallet} {r : Role}

/-! ## C52: SOL limits -/

/-- Fixed SOL limit: the wallet address loses at most what was taken off the limit. -/
theorem C52_sol_limit (h : RestrictedSign env cpi m m' swig wallet rest ix w r) {d : Bytes} (hl : r.limit? P.solLimit [] = some d) :
    ∃ ixs m1, AfterCalls env cpi m (swig :: wallet :: rest) swig wallet ix w ixs m1 ∧ (ConfigClash env m m1 swig ix w ∨
      ∃ w' r' d', StoredAs m' swig ix w' r' ∧ r'.limit? P.solLimit [] = some d' ∧ rd d' 0 8 ≤ rd d 0 8 ∧
        (m wallet.key).lamports - (m' wallet.key).lamports ≤ rd d 0 8 - rd d' 0 8) := by
  obtain ⟨ixs, m1, h1, h2 | ⟨x, cls, hs, total, acc, as', o⟩⟩ := h.out
  · exact ⟨ixs, m1, h1, .inl h2⟩
  · refine ⟨ixs, m1, h1, .inr ?_⟩
    obtain ⟨d', e1, e2⟩ := (o.plays.payload h.acts).2.2 _ _ _ hl
    have e3 := chargeList_sol e2
    refine ⟨_, _, d', o.stored, e1, by omega, ?_⟩
    have hs := o.lamports
    by_cases ht : total = 0
    · omega
    · have := le_sum_of_mem (amounts_mem (c := ⟨P.solLimit, [], total⟩) (ty := P.solLimit) (key := [])
        (cs := (if total = 0 then [] else solSeg x r.actions total) ++ acc.flatMap fun e => segOf x m1 r.actions e.1 e.2) (by
          rw [if_neg ht]
          refine List.mem_append_left _ (List.mem_append_left _ ?_)
          unfold eitherSeg
          rw [show payload? r.actions P.solLimit [] = some d from hl]
          simp) rfl (fun _ => rfl))
      simp only at this
      omega

/-- Recurring SOL limit (no fixed one): the wallet address loses at most the sum of charges approved by the limit in the current slot. -/
theorem C52_sol_recurring (h : RestrictedSign env cpi m m' swig wallet rest ix w r) {d : Bytes} (hn : r.limit? P.solLimit [] = none)
    (hl : r.limit? P.solRecurringLimit [] = some d) :
    ∃ ixs m1, AfterCalls env cpi m (swig :: wallet :: rest) swig wallet ix w ixs m1 ∧ (ConfigClash env m m1 swig ix w ∨
      ∃ w' r' d' cs, StoredAs m' swig ix w' r' ∧ r'.limit? P.solRecurringLimit [] = some d' ∧
        play SolRecurringLimit.charge (.of d) cs = (.of d', cs) ∧ (∀ c ∈ cs, c.slot = env.slot) ∧
        (m wallet.key).lamports - (m' wallet.key).lamports ≤ Charge.total cs) := by
  obtain ⟨ixs, m1, h1, h2 | ⟨x, cls, hs, total, acc, as', o⟩⟩ := h.out
  · exact ⟨ixs, m1, h1, .inl h2⟩
  · refine ⟨ixs, m1, h1, .inr ?_⟩
    obtain ⟨d', e1, e2⟩ := (o.plays.payload h.acts).2.2 _ _ _ hl
    have e3 := chargeList_solRec h.runtime.slot (payload?_len h.acts hl (n := 32) rfl) e2
    refine ⟨_, _, d', _, o.stored, e1, e3, ?_, ?_⟩
    · intro c hc
      obtain ⟨n, _, rfl⟩ := List.mem_map.mp hc
      rfl
    have hs := o.lamports
    rw [total_map]
    by_cases ht : total = 0
    · omega
    · have := le_sum_of_mem (amounts_mem (c := ⟨P.solRecurringLimit, [], total⟩) (ty := P.solRecurringLimit) (key := [])
        (cs := (if total = 0 then [] else solSeg x r.actions total) ++ acc.flatMap fun e => segOf x m1 r.actions e.1 e.2) (by
          rw [if_neg ht]
          refine List.mem_append_left _ (List.mem_append_left _ ?_)
          unfold eitherSeg
          rw [show payload? r.actions P.solLimit [] = none from hn, show payload? r.actions P.solRecurringLimit [] = some d from hl]
          simp) rfl (fun _ => rfl))
      simp only at this
      omega

/-- The same, counting what the wallet address loses in each single inner instruction (later income does not make up for it). -/
theorem C52_sol_limit_each (h : RestrictedSign env cpi m m' swig wallet rest ix w r) {d : Bytes} (hl : r.limit? P.solLimit [] = some d) :
    ∃ ixs m1, AfterCalls env cpi m (swig :: wallet :: rest) swig wallet ix w ixs m1 ∧ (ConfigClash env m m1 swig ix w ∨
      ∃ w' r' d', StoredAs m' swig ix w' r' ∧ r'.limit? P.solLimit [] = some d' ∧ rd d' 0 8 ≤ rd d 0 8 ∧
        min (2 ^ 64 - 1) (walletLost env cpi m (swig :: wallet :: rest) swig wallet ix w ixs).sum ≤ rd d 0 8 - rd d' 0 8) := by
  obtain ⟨ixs, m1, h1, h2 | ⟨x, cls, hs, total, acc, as', o⟩⟩ := h.out
  · exact ⟨ixs, m1, h1, .inl h2⟩
  · refine ⟨ixs, m1, h1, .inr ?_⟩
    obtain ⟨d', e1, e2⟩ := (o.plays.payload h.acts).2.2 _ _ _ hl
    have e3 := chargeList_sol e2
    refine ⟨_, _, d', o.stored, e1, by omega, ?_⟩
    rw [← o.gross]
    by_cases ht : total = 0
    · omega
    · have := le_sum_of_mem (amounts_mem (c := ⟨P.solLimit, [], total⟩) (ty := P.solLimit) (key := [])
        (cs := (if total = 0 then [] else solSeg x r.actions total) ++ acc.flatMap fun e => segOf x m1 r.actions e.1 e.2) (by
          rw [if_neg ht]
          refine List.mem_append_left _ (List.mem_append_left _ ?_)
          unfold eitherSeg
          rw [show payload? r.actions P.solLimit [] = some d from hl]
          simp) rfl (fun _ => rfl))
      simp only at this
      omega

/-- No SOL limit and no SOL destination limit: the wallet address loses nothing. -/
theorem C52_no_limit (h : RestrictedSign env cpi m m' swig wallet rest ix w r)
    (hn : ∀ a ∈ r.actions, a.ty ≠ P.solLimit ∧ a.ty ≠ P.solRecurringLimit ∧ a.ty ≠ P.solDestinationLimit ∧
      a.ty ≠ P.solRecurringDestinationLimit) :
    ∃ ixs m1, AfterCalls env cpi m (swig :: wallet :: rest) swig wallet ix w ixs m1 ∧
      (ConfigClash env m m1 swig ix w ∨ (m wallet.key).lamports ≤ (m' wallet.key).lamports) := by
  obtain ⟨ixs, m1, h1, h2 | ⟨x, cls, hs, total, acc, as', o⟩⟩ := h.out
  · exact ⟨ixs, m1, h1, .inl h2⟩
  · refine ⟨ixs, m1, h1, .inr ?_⟩
    have hs := o.lamports
    by_cases ht : total = 0
    · omega
    · exfalso
      have hno : ∀ ty key, (∀ a ∈ r.actions, a.ty ≠ ty) → payload? r.actions ty key = none :=
        fun ty key h => payload?_none (fun a ha hg => h a ha hg.1)
      rcases (o.sol ht).some with k | k
      · apply k
        unfold eitherSeg
        rw [hno P.solLimit [] (fun a ha => (hn a ha).1), hno P.solRecurringLimit [] (fun a ha => (hn a ha).2.1)]
        rfl
      · obtain ⟨a, ha, k⟩ := List.any_eq_true.mp k
        have := hn a ha
        simp at k
        rcases k with k | k
        · exact this.2.2.1 k
        · exact this.2.2.2 k

end

/-! ## The hypotheses are met -/

open Sample in
/-- Limit 500, 300 lamports and 70 tokens paid. -/
example : ∃ m', RestrictedSign signEnv demoCpi (signMem acts1) m' signSwig signAddr signRest (signIx [paySol 300, payToken 70])
    (signWallet acts1) ⟨1, 1, K 11, acts1⟩ ∧ Role.limit? ⟨1, 1, K 11, acts1⟩ P.solLimit [] = some (natLE 8 500) ∧
    (m' (K 2)).lamports + 300 = (signMem acts1 (K 2)).lamports :=
  runSign_exists acts1 [paySol 300, payToken 70]
    (fun m' => Role.limit? ⟨1, 1, K 11, acts1⟩ P.solLimit [] = some (natLE 8 500) ∧
      (m' (K 2)).lamports + 300 = (signMem acts1 (K 2)).lamports) (by decide +kernel) (by decide +kernel)

open Sample in
/-- Recurring limit 500, 300 lamports paid in two instructions. -/
example : ∃ m', RestrictedSign signEnv demoCpi (signMem acts2) m' signSwig signAddr signRest (signIx [paySol 100, paySol 200])
    (signWallet acts2) ⟨1, 1, K 11, acts2⟩ ∧ Role.limit? ⟨1, 1, K 11, acts2⟩ P.solLimit [] = none ∧
    (Role.limit? ⟨1, 1, K 11, acts2⟩ P.solRecurringLimit []).isSome ∧
    (m' (K 2)).lamports + 300 = (signMem acts2 (K 2)).lamports :=
  runSign_exists acts2 [paySol 100, paySol 200]
    (fun m' => Role.limit? ⟨1, 1, K 11, acts2⟩ P.solLimit [] = none ∧ (Role.limit? ⟨1, 1, K 11, acts2⟩ P.solRecurringLimit []).isSome ∧
      (m' (K 2)).lamports + 300 = (signMem acts2 (K 2)).lamports) (by decide +kernel) (by decide +kernel)

open Sample in
/-- No limit: the wallet is funded. -/
example : ∃ m', RestrictedSign signEnv demoCpi (signMem acts4) m' signSwig signAddr signRest (signIx [fundSol 100])
    (signWallet acts4) ⟨1, 1, K 11, acts4⟩ ∧ (∀ a ∈ acts4, a.ty ≠ P.solLimit ∧ a.ty ≠ P.solRecurringLimit ∧ a.ty ≠ P.solDestinationLimit ∧
      a.ty ≠ P.solRecurringDestinationLimit) ∧ (m' (K 2)).lamports = (signMem acts4 (K 2)).lamports + 100 :=
  runSign_exists acts4 [fundSol 100]
    (fun m' => (∀ a ∈ acts4, a.ty ≠ P.solLimit ∧ a.ty ≠ P.solRecurringLimit ∧ a.ty ≠ P.solDestinationLimit ∧
      a.ty ≠ P.solRecurringDestinationLimit) ∧ (m' (K 2)).lamports = (signMem acts4 (K 2)).lamports + 100) (by decide +kernel) (by decide +kernel)

end Verif
