import Verif.Proofs.Exact
import Verif.Proofs.ChargesRec
import Verif.Props.Sign
import Verif.Props.Stake

/-!
# C107: a limit is charged what was spent

C52, C53 and C67 say that a limit is charged at least what the wallet lost.  Here the other direction: a request does not use up more of a limit than
left the wallet, counted inner instruction by inner instruction.

It holds for SOL (with equality) and for stake.  For tokens it holds only if a token account that is listed twice is counted twice.
-/

namespace Verif

section
variable {env : Env} {cpi : Cpi} {m m' : Mem} {swig wallet : Meta} {rest : List Meta} {ix : Bytes} {w : Wallet} {r : Role}

/-- SOL, fixed limit: exactly what left the wallet address is taken off the limit. -/
theorem C107_sol (h : RestrictedSign env cpi m m' swig wallet rest ix w r) {d : Bytes} (hl : r.limit? P.solLimit [] = some d) :
    ∃ ixs m1, AfterCalls env cpi m (swig :: wallet :: rest) swig wallet ix w ixs m1 ∧ (ConfigClash env m m1 swig ix w ∨
      ∃ w' r' d', StoredAs m' swig ix w' r' ∧ r'.limit? P.solLimit [] = some d' ∧
        rd d' 0 8 + min (2 ^ 64 - 1) (walletLost env cpi m (swig :: wallet :: rest) swig wallet ix w ixs).sum = rd d 0 8) := by
  obtain ⟨ixs, m1, h1, h2 | ⟨x, cls, hs, total, acc, as', o⟩⟩ := h.out
  · exact ⟨ixs, m1, h1, .inl h2⟩
  · refine ⟨ixs, m1, h1, .inr ?_⟩
    obtain ⟨d', e1, e2⟩ := (o.plays.payload h.acts).2.2 _ _ _ hl
    have e3 := chargeList_sol e2
    refine ⟨_, _, d', o.stored, e1, ?_⟩
    rw [← o.gross]
    have hle := Out.solAmounts (r := r) (m1 := m1) (x := x) (total := total) (acc := acc) (ty := P.solLimit) (.inl rfl)
    by_cases ht : total = 0
    · omega
    · have := le_sum_of_mem (amounts_mem (c := ⟨P.solLimit, [], total⟩) (ty := P.solLimit) (key := [])
        (cs := (if total = 0 then [] else solSeg x r.actions total) ++ acc.flatMap fun e => segOf x m1 r.actions e.1 e.2) (by
          rw [if_neg ht]
          refine List.mem_append_left _ (List.mem_append_left _ ?_)
          exact eitherSeg_first hl _) rfl (fun _ => rfl))
      simp only at this
      omega

/-- SOL, recurring limit (no fixed one): the charges approved by the limit add up to exactly what left the wallet address. -/
theorem C107_sol_recurring (h : RestrictedSign env cpi m m' swig wallet rest ix w r) {d : Bytes} (hn : r.limit? P.solLimit [] = none)
    (hl : r.limit? P.solRecurringLimit [] = some d) :
    ∃ ixs m1, AfterCalls env cpi m (swig :: wallet :: rest) swig wallet ix w ixs m1 ∧ (ConfigClash env m m1 swig ix w ∨
      ∃ w' r' d' cs, StoredAs m' swig ix w' r' ∧ r'.limit? P.solRecurringLimit [] = some d' ∧
        play SolRecurringLimit.charge (.of d) cs = (.of d', cs) ∧ (∀ c ∈ cs, c.slot = env.slot) ∧
        Charge.total cs = min (2 ^ 64 - 1) (walletLost env cpi m (swig :: wallet :: rest) swig wallet ix w ixs).sum) := by
  obtain ⟨ixs, m1, h1, h2 | ⟨x, cls, hs, total, acc, as', o⟩⟩ := h.out
  · exact ⟨ixs, m1, h1, .inl h2⟩
  · refine ⟨ixs, m1, h1, .inr ?_⟩
    obtain ⟨d', e1, e2⟩ := (o.plays.payload h.acts).2.2 _ _ _ hl
    have e3 := chargeList_solRec h.runtime.slot (payload?_len h.acts hl (n := 32) rfl) e2
    refine ⟨_, _, d', _, o.stored, e1, e3, ?_, ?_⟩
    · intro c hc
      obtain ⟨n, _, rfl⟩ := List.mem_map.mp hc
      rfl
    rw [← o.gross, total_map]
    have hle := Out.solAmounts (r := r) (m1 := m1) (x := x) (total := total) (acc := acc) (ty := P.solRecurringLimit) (.inr rfl)
    by_cases ht : total = 0
    · omega
    · have := le_sum_of_mem (amounts_mem (c := ⟨P.solRecurringLimit, [], total⟩) (ty := P.solRecurringLimit) (key := [])
        (cs := (if total = 0 then [] else solSeg x r.actions total) ++ acc.flatMap fun e => segOf x m1 r.actions e.1 e.2) (by
          rw [if_neg ht]
          refine List.mem_append_left _ (List.mem_append_left _ ?_)
          exact eitherSeg_second hn hl _) rfl (fun _ => rfl))
      simp only at this
      omega

/-- Tokens, fixed limit: what is taken off the limit is no more than what left the wallet's token accounts of the mint, as they are listed in the request. -/
theorem C107_token_partial (h : RestrictedSign env cpi m m' swig wallet rest ix w r) {mint d : Bytes}
    (hl : r.limit? P.tokenLimit mint = some d) :
    ∃ ixs m1, AfterCalls env cpi m (swig :: wallet :: rest) swig wallet ix w ixs m1 ∧ (ConfigClash env m m1 swig ix w ∨
      ∃ w' r' d', StoredAs m' swig ix w' r' ∧ r'.limit? P.tokenLimit mint = some d' ∧
        rd d 32 8 ≤ rd d' 32 8 + ((listedTokens m' wallet.key mint rest).map fun a =>
          addedUp tokensOut env cpi m (swig :: wallet :: rest) swig wallet ix w ixs a.key).sum) := by
  obtain ⟨ixs, m1, h1, h2 | ⟨x, cls, hs, total, acc, as', o⟩⟩ := h.out
  · exact ⟨ixs, m1, h1, .inl h2⟩
  · refine ⟨ixs, m1, h1, .inr ?_⟩
    obtain ⟨d', e1, e2⟩ := (o.plays.payload h.acts).2.2 _ _ _ hl
    have e3 := chargeList_token (payload?_len h.acts hl (n := 40) rfl) e2
    have := o.tokenAmounts (mint := mint) (ty := P.tokenLimit) (.inl rfl)
    exact ⟨_, _, d', o.stored, e1, by omega⟩

/-- Tokens, recurring limit. -/
theorem C107_token_recurring_partial (h : RestrictedSign env cpi m m' swig wallet rest ix w r) {mint d : Bytes}
    (hl : r.limit? P.tokenRecurringLimit mint = some d) :
    ∃ ixs m1, AfterCalls env cpi m (swig :: wallet :: rest) swig wallet ix w ixs m1 ∧ (ConfigClash env m m1 swig ix w ∨
      ∃ w' r' d' cs, StoredAs m' swig ix w' r' ∧ r'.limit? P.tokenRecurringLimit mint = some d' ∧
        play TokenRecurringLimit.charge (.of d) cs = (.of d', cs) ∧ (∀ c ∈ cs, c.slot = env.slot) ∧
        Charge.total cs ≤ ((listedTokens m' wallet.key mint rest).map fun a =>
          addedUp tokensOut env cpi m (swig :: wallet :: rest) swig wallet ix w ixs a.key).sum) := by
  obtain ⟨ixs, m1, h1, h2 | ⟨x, cls, hs, total, acc, as', o⟩⟩ := h.out
  · exact ⟨ixs, m1, h1, .inl h2⟩
  · refine ⟨ixs, m1, h1, .inr ?_⟩
    obtain ⟨d', e1, e2⟩ := (o.plays.payload h.acts).2.2 _ _ _ hl
    have e3 := chargeList_tokenRec h.runtime.slot (payload?_len h.acts hl (n := 64) rfl) e2
    refine ⟨_, _, d', _, o.stored, e1, e3, ?_, ?_⟩
    · intro c hc
      obtain ⟨n, _, rfl⟩ := List.mem_map.mp hc
      rfl
    · rw [total_map]
      exact o.tokenAmounts (mint := mint) (ty := P.tokenRecurringLimit) (.inr rfl)

/-- Stake, fixed limit: what is taken off the limit is no more than what moved in the stake accounts of the request (if they keep their size). -/
theorem C107_stake_partial (h : RestrictedSign env cpi m m' swig wallet rest ix w r) {d : Bytes} (hl : r.limit? P.stakeLimit [] = some d) :
    ∃ ixs m1, AfterCalls env cpi m (swig :: wallet :: rest) swig wallet ix w ixs m1 ∧ (ConfigClash env m m1 swig ix w ∨
      (StakeKept env cpi m (swig :: wallet :: rest) swig wallet ix w ixs →
      ∃ w' r' d', StoredAs m' swig ix w' r' ∧ r'.limit? P.stakeLimit [] = some d' ∧
        rd d 0 8 ≤ rd d' 0 8 + ((listedStakes m rest).map fun a =>
          addedUp stakeMove env cpi m (swig :: wallet :: rest) swig wallet ix w ixs a.key).sum)) := by
  obtain ⟨ixs, m1, h1, h2 | ⟨x, cls, hs, total, acc, as', o⟩⟩ := h.out
  · exact ⟨ixs, m1, h1, .inl h2⟩
  · refine ⟨ixs, m1, h1, .inr fun hk => ?_⟩
    obtain ⟨d', e1, e2⟩ := (o.plays.payload h.acts).2.2 _ _ _ hl
    have e3 := chargeList_stake e2
    have := o.stakeAmounts hk (ty := P.stakeLimit) (.inl rfl)
    exact ⟨_, _, d', o.stored, e1, by omega⟩

/-- Stake, recurring limit. -/
theorem C107_stake_recurring_partial (h : RestrictedSign env cpi m m' swig wallet rest ix w r) {d : Bytes}
    (hl : r.limit? P.stakeRecurringLimit [] = some d) :
    ∃ ixs m1, AfterCalls env cpi m (swig :: wallet :: rest) swig wallet ix w ixs m1 ∧ (ConfigClash env m m1 swig ix w ∨
      (StakeKept env cpi m (swig :: wallet :: rest) swig wallet ix w ixs →
      ∃ w' r' d' cs, StoredAs m' swig ix w' r' ∧ r'.limit? P.stakeRecurringLimit [] = some d' ∧
        play StakeRecurringLimit.charge (.of d) cs = (.of d', cs) ∧ (∀ c ∈ cs, c.slot = env.slot) ∧
        Charge.total cs ≤ ((listedStakes m rest).map fun a =>
          addedUp stakeMove env cpi m (swig :: wallet :: rest) swig wallet ix w ixs a.key).sum)) := by
  obtain ⟨ixs, m1, h1, h2 | ⟨x, cls, hs, total, acc, as', o⟩⟩ := h.out
  · exact ⟨ixs, m1, h1, .inl h2⟩
  · refine ⟨ixs, m1, h1, .inr fun hk => ?_⟩
    obtain ⟨d', e1, e2⟩ := (o.plays.payload h.acts).2.2 _ _ _ hl
    have e3 := chargeList_stakeRec h.runtime.slot (payload?_len h.acts hl (n := 32) rfl) e2
    refine ⟨_, _, d', _, o.stored, e1, e3, ?_, ?_⟩
    · intro c hc
      obtain ⟨n, _, rfl⟩ := List.mem_map.mp hc
      rfl
    · rw [total_map]
      exact o.stakeAmounts hk (ty := P.stakeRecurringLimit) (.inr rfl)

/-- A request that takes nothing from the wallet uses up nothing: SOL limits stay as they are if no inner instruction takes lamports from the wallet address. -/
theorem C107_free (h : RestrictedSign env cpi m m' swig wallet rest ix w r) {d : Bytes} (hl : r.limit? P.solLimit [] = some d) :
    ∃ ixs m1, AfterCalls env cpi m (swig :: wallet :: rest) swig wallet ix w ixs m1 ∧ (ConfigClash env m m1 swig ix w ∨
      ((∀ n ∈ walletLost env cpi m (swig :: wallet :: rest) swig wallet ix w ixs, n = 0) →
        ∃ w' r' d', StoredAs m' swig ix w' r' ∧ r'.limit? P.solLimit [] = some d' ∧ rd d' 0 8 = rd d 0 8)) := by
  obtain ⟨ixs, m1, h1, h2 | ⟨w', r', d', g1, g2, g3⟩⟩ := C107_sol h hl
  · exact ⟨ixs, m1, h1, .inl h2⟩
  · refine ⟨ixs, m1, h1, .inr fun hz => ⟨w', r', d', g1, g2, ?_⟩⟩
    have : (walletLost env cpi m (swig :: wallet :: rest) swig wallet ix w ixs).sum = 0 := by
      have := sum_zero (f := fun n : Nat => n) hz
      rwa [List.map_id'] at this
    rw [this] at g3
    simpa using g3

end

namespace Sample

/-- Two payments and a deposit in between: 200 + 100 lamports left the address, 300 are taken off the limit; 70 tokens left, 70 are taken off. -/
example : ∃ m', RestrictedSign signEnv demoCpi (signMem acts1) m' signSwig signAddr signRest (signIx [paySol 200, fundSol 50, paySol 100, payToken 70])
      (signWallet acts1) ⟨1, 1, K 11, acts1⟩ ∧
    payload? acts1 P.solLimit [] = some (natLE 8 500) ∧ payload? acts1 P.tokenLimit (K 50) = some (K 50 ++ natLE 8 100) ∧
    (m' (K 2)).lamports + 250 = (signMem acts1 (K 2)).lamports ∧ (m' (K 1)).data = (signWallet
      [⟨1, natLE 8 200⟩, ⟨3, systemId⟩, ⟨5, K 50 ++ natLE 8 30⟩, ⟨3, tokenId⟩]).encode :=
  runSign_exists acts1 _ _ (by decide +kernel) (by decide +kernel)

/-- The request with `K 30` listed twice. -/
def twiceRest : List Meta := signRest ++ [⟨K 30, false, true⟩]

end Sample

open Sample in
/-- C107 is false for tokens: 40 tokens leave the wallet's only token account, but as it is listed twice, 80 are taken off the limit. -/
theorem C107_refuted : ∃ m', RestrictedSign signEnv demoCpi (signMem acts1) m' signSwig signAddr twiceRest (signIx [payToken 40]) (signWallet acts1)
      ⟨1, 1, K 11, acts1⟩ ∧
    (∀ a ∈ twiceRest, WalletToken (signMem acts1) (K 2) a → a.key = K 30) ∧
    tokensOf (signMem acts1 (K 30)) = 1000 ∧ tokensOf (m' (K 30)) = 960 ∧
    payload? acts1 P.tokenLimit (K 50) = some (K 50 ++ natLE 8 100) ∧
    (m' (K 1)).data = (signWallet [⟨1, natLE 8 500⟩, ⟨3, systemId⟩, ⟨5, K 50 ++ natLE 8 20⟩, ⟨3, tokenId⟩]).encode := by
  have hd : decide ((signWallet acts1).WF ∧ (rd (signIx [payToken 40]) 0 2 = 11 ∧ rd (signIx [payToken 40]) 4 4 = 1) ∧
    Restricted ⟨1, 1, K 11, acts1⟩) = true := by decide +kernel
  obtain ⟨h1, h2, h3⟩ := of_decide_eq_true hd
  have h : (match process signEnv demoCpi (signMem acts1) (signSwig :: signAddr :: twiceRest) (signIx [payToken 40]) with
    | .ok m' => decide ((∀ a ∈ twiceRest, WalletToken (signMem acts1) (K 2) a → a.key = K 30) ∧
      tokensOf (signMem acts1 (K 30)) = 1000 ∧ tokensOf (m' (K 30)) = 960 ∧ payload? acts1 P.tokenLimit (K 50) = some (K 50 ++ natLE 8 100) ∧
      (m' (K 1)).data = (signWallet [⟨1, natLE 8 500⟩, ⟨3, systemId⟩, ⟨5, K 50 ++ natLE 8 20⟩, ⟨3, tokenId⟩]).encode)
    | .error _ => false) = true := by decide +kernel
  split at h
  · rename_i m' hm
    refine ⟨m', ⟨h1, ?_, h2.1, ?_, h3, ⟨signMem_typed acts1, demoCpi_typed, by decide, by decide, fun h => by cases h⟩, hm⟩, of_decide_eq_true h⟩
    · have h1 : signMem acts1 (K 1) = mem (signWallet acts1) (K 1) := by
        unfold signMem Mem.set; rw [if_neg (by decide), if_neg (by decide)]
      show (signMem acts1 (K 1)).data = _
      rw [h1]; rfl
    · rw [h2.2]; rfl
  · cases h

namespace Sample

/-- The hypotheses of the stake theorems: a withdrawal of 500 lamports takes 500 off the limit. -/
example : ∃ m', RestrictedSign signEnv moreCpi (moreMem (signWallet stakeActs) stakeAcct) m' signSwig signAddr moreRest
      (signIx [withdrawStake 500]) (signWallet stakeActs) ⟨1, 1, K 11, stakeActs⟩ ∧
    payload? stakeActs P.stakeLimit [] = some (natLE 8 600) ∧ (m' (K 80)).data.length = 200 ∧
    listedStakes (moreMem (signWallet stakeActs) stakeAcct) moreRest = [⟨K 80, false, true⟩] ∧
    (m' (K 1)).data = (signWallet [⟨P.stakeLimit, natLE 8 100⟩, ⟨P.programAll, []⟩]).encode :=
  runMore_exists (signWallet stakeActs) _ stakeAcct _ _ (by decide +kernel) (by decide +kernel)

/-- The hypotheses of the recurring versions. -/
example : ∃ m', RestrictedSign signEnv demoCpi (signMem acts2) m' signSwig signAddr signRest (signIx [paySol 200, payToken 15])
      (signWallet acts2) ⟨1, 1, K 11, acts2⟩ ∧
    payload? acts2 P.solLimit [] = none ∧ (payload? acts2 P.solRecurringLimit []).isSome = true ∧
    (payload? acts2 P.tokenRecurringLimit (K 50)).isSome = true :=
  runSign_exists acts2 _ _ (by decide +kernel) (by decide +kernel)

example : ∃ m', RestrictedSign signEnv moreCpi (moreMem (signWallet stakeActs2) stakeAcct) m' signSwig signAddr moreRest
      (signIx [withdrawStake 500]) (signWallet stakeActs2) ⟨1, 1, K 11, stakeActs2⟩ ∧
    (payload? stakeActs2 P.stakeRecurringLimit []).isSome = true :=
  runMore_exists (signWallet stakeActs2) _ stakeAcct _ _ (by decide +kernel) (by decide +kernel)

/-- A request that only deposits. -/
example : ∃ m', RestrictedSign signEnv demoCpi (signMem acts1) m' signSwig signAddr signRest (signIx [fundSol 50]) (signWallet acts1)
      ⟨1, 1, K 11, acts1⟩ ∧ (m' (K 2)).lamports = (signMem acts1 (K 2)).lamports + 50 ∧ (m' (K 1)).data = (signWallet acts1).encode :=
  runSign_exists acts1 _ _ (by decide +kernel) (by decide +kernel)

end Sample
end Verif
