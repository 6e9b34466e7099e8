import Verif.Proofs.Surplus
import Verif.Props.Sub
import Verif.Props.AcceptSub

/-!
# Further accounts in a withdrawal (C125)

Which numbers of accounts a withdrawal from a sub-account may have, and that the accounts after those of a withdrawal of tokens change nothing.
-/

namespace Verif
open Client

section
variable {env : Env} {cpi : Cpi} {m m' : Mem} {metas : List Meta} {swig : Meta} {rest more : List Meta} {ix : Bytes} {w : Wallet}

theorem tokenTransfer_surplus {program src dst auth : Key} {amount : Nat} {seeds : List Bytes}
    (h : tokenTransfer env cpi m metas program src dst auth amount seeds = .ok m') :
    tokenTransfer env cpi m (metas ++ more) program src dst auth amount seeds = .ok m' := by
  unfold tokenTransfer at h ⊢
  exact invokeSigned_surplus h

theorem withdrawTokenV1_surplus {sub wallet : Key} {amount : Nat} {seeds : List Bytes} (h : withdrawTokenV1 env cpi m metas sub wallet amount seeds = .ok m') :
    withdrawTokenV1 env cpi m (metas ++ more) sub wallet amount seeds = .ok m' := by
  unfold withdrawTokenV1 at h ⊢
  obtain ⟨src, h1, h⟩ := bind_ok_iff.mp h
  obtain ⟨dst, h2, h⟩ := bind_ok_iff.mp h
  refine bind_ok_iff.mpr ⟨src, getOr_surplus h1, bind_ok_iff.mpr ⟨dst, getOr_surplus h2, ?_⟩⟩
  refine bind_mono_ok h fun _ _ h => bind_mono_ok h fun _ _ h => ?_
  obtain ⟨x, h3, h⟩ := bind_ok_iff.mp h
  refine bind_ok_iff.mpr ⟨x, getOr_surplus h3, ?_⟩
  refine bind_mono_ok h fun _ _ h => bind_mono_ok h fun _ _ h => ?_
  exact tokenTransfer_surplus h

theorem withdrawSub_surplus (hm : ActsWithMore env m (swig :: rest) more swig.key (rd ix 4 4)) (h7 : 7 ≤ (swig :: rest).length)
    (h : withdrawSubV1 env cpi m (swig :: rest) ix = .ok m') : withdrawSubV1 env cpi m (swig :: rest ++ more) ix = .ok m' := by
  unfold withdrawSubV1 at h ⊢
  split at h
  · rename_i e
    cases e
    simp only [List.cons_append]
    refine bind_mono_ok h fun _ _ h => bind_mono_ok h fun _ _ h => bind_mono_ok h fun _ _ h => bind_mono_ok h fun _ _ h => bind_mono_ok h fun p hp h =>
      bind_mono_ok h fun _ _ h => bind_mono_ok h fun _ _ h => ?_
    obtain ⟨x, h1, h⟩ := bind_ok_iff.mp h
    refine bind_ok_iff.mpr ⟨x, hm _ _ _ _ hp h1, ?_⟩
    refine bind_mono_ok h fun _ _ h => bind_mono_ok h fun _ _ h => ?_
    dsimp only at h ⊢
    rw [if_pos h7] at h
    rw [if_pos (by simp only [List.length_cons, List.length_append] at h7 ⊢; omega)]
    have k := withdrawTokenV1_surplus (more := more) h
    exact k
  · cases h

/-- A withdrawal of tokens from a V1 sub-account, that is, one with at least seven accounts, is accepted with any further accounts, and leaves the same ledger. -/
theorem C125_withdraw_tokens (ho : Open m swig.key w) (h7 : rd ix 0 2 = 7) (hb : ∀ r, w.role? (rd ix 4 4) = some r → ByTransaction r)
    (hp : Plain m w more) (hn : 7 ≤ (swig :: rest).length) (hl : (swig :: rest ++ more).length ≤ 254)
    (h : process env cpi m (swig :: rest) ix = .ok m') : process env cpi m (swig :: rest ++ more) ix = .ok m' := by
  unfold process at h ⊢
  obtain ⟨u, h1, h⟩ := bind_ok_iff.mp h
  obtain ⟨cls, h2, h⟩ := bind_ok_iff.mp h
  obtain ⟨cls', h3⟩ := classifyAll_surplus ho hp h2
  refine bind_ok_iff.mpr ⟨(), require_of hl, bind_ok_iff.mpr ⟨_, h3, ?_⟩⟩
  unfold dispatch at h ⊢
  rw [h7] at h ⊢
  split at h
  · cases h
  · rename_i hlen
    rw [if_neg hlen]
    exact withdrawSub_surplus (actsWithMore ho hb) hn h

/-- A withdrawal from a V1 sub-account is accepted only with six accounts, or with at least nine. -/
theorem C125_withdraw_count (h7 : rd ix 0 2 = 7) (h : process env cpi m metas ix = .ok m') : metas.length = 6 ∨ 9 ≤ metas.length := by
  unfold process at h
  obtain ⟨u, h1, h⟩ := bind_ok_iff.mp h
  obtain ⟨cls, h2, h⟩ := bind_ok_iff.mp h
  unfold dispatch at h
  rw [h7] at h
  split at h
  · cases h
  · change withdrawSubV1 env cpi m metas ix = .ok m' at h
    unfold withdrawSubV1 at h
    split at h
    · rename_i swig _ sub _ wallet _ l
      obtain ⟨_, _, h⟩ := bind_ok_iff.mp h
      obtain ⟨_, _, h⟩ := bind_ok_iff.mp h
      obtain ⟨_, _, h⟩ := bind_ok_iff.mp h
      obtain ⟨_, _, h⟩ := bind_ok_iff.mp h
      obtain ⟨_, _, h⟩ := bind_ok_iff.mp h
      obtain ⟨_, _, h⟩ := bind_ok_iff.mp h
      obtain ⟨_, _, h⟩ := bind_ok_iff.mp h
      obtain ⟨_, _, h⟩ := bind_ok_iff.mp h
      obtain ⟨_, _, h⟩ := bind_ok_iff.mp h
      obtain ⟨_, _, h⟩ := bind_ok_iff.mp h
      dsimp only at h
      split at h
      · right
        unfold withdrawTokenV1 at h
        obtain ⟨_, _, h⟩ := bind_ok_iff.mp h
        obtain ⟨_, _, h⟩ := bind_ok_iff.mp h
        obtain ⟨_, _, h⟩ := bind_ok_iff.mp h
        obtain ⟨_, _, h⟩ := bind_ok_iff.mp h
        obtain ⟨_, e, h⟩ := bind_ok_iff.mp h
        refine Nat.le_of_not_lt fun hlt => ?_
        unfold getOr at e
        rw [List.getElem?_eq_none (by omega)] at e
        cases e
      · left
        simp only [List.length_cons] at *
        omega
    · cases h

/-- A withdrawal from a V2 sub-account is accepted only with seven accounts (SOL) or with ten (tokens). -/
theorem C125_withdraw_count_v2 (h21 : rd ix 0 2 = 21) (h : process env cpi m metas ix = .ok m') : metas.length = 7 ∨ metas.length = 10 := by
  unfold process at h
  obtain ⟨u, h1, h⟩ := bind_ok_iff.mp h
  obtain ⟨cls, h2, h⟩ := bind_ok_iff.mp h
  unfold dispatch at h
  rw [h21] at h
  split at h
  · cases h
  · change withdrawSubV2 env cpi m metas ix = .ok m' at h
    unfold withdrawSubV2 at h
    split at h
    · obtain ⟨_, _, h⟩ := bind_ok_iff.mp h
      obtain ⟨_, _, h⟩ := bind_ok_iff.mp h
      obtain ⟨_, _, h⟩ := bind_ok_iff.mp h
      obtain ⟨_, _, h⟩ := bind_ok_iff.mp h
      obtain ⟨_, _, h⟩ := bind_ok_iff.mp h
      obtain ⟨_, _, h⟩ := bind_ok_iff.mp h
      obtain ⟨_, _, h⟩ := bind_ok_iff.mp h
      unfold withdrawV2 at h
      split at h
      · right; assumption
      · split at h
        · left; assumption
        · cases h
    · cases h

end

section
open Sample

/-- The hypotheses are met: the owner withdraws tokens from a V1 sub-account, with nine accounts, and SOL, with six; and from a V2 sub-account, with ten and
with seven. -/
example : Open famMem (K 1) famWallet ∧ rd v1WithdrawIx 0 2 = 7 ∧ (∀ r, famWallet.role? (rd v1WithdrawIx 4 4) = some r → ByTransaction r) ∧
    Plain famMem famWallet [⟨K 60, false, false⟩] ∧ famTokensV1.length = 9 ∧ v1WithdrawMetas.length = 6 ∧ rd withdrawSubIx 0 2 = 21 ∧
    famTokensV2.length = 10 ∧ withdrawSubMetas.length = 7 ∧
    ∀ e ∈ [(famTokensV1, v1WithdrawIx), (v1WithdrawMetas, v1WithdrawIx), (famTokensV2, withdrawSubIx), (withdrawSubMetas, withdrawSubIx)],
      ∃ m', process famEnv demoCpi famMem e.1 e.2 = .ok m' := by
  refine ⟨fam_open, by decide +kernel, ?_, by unfold Plain; decide +kernel, by decide, by decide, by decide +kernel, by decide, by decide, ?_⟩
  · intro r hr
    have e : (famWallet.role? (rd v1WithdrawIx 4 4)).map (·.authType) = some T.ed25519 := by decide +kernel
    rw [hr] at e
    exact .inl (Option.some.inj e)
  · have key : ∀ e ∈ [(famTokensV1, v1WithdrawIx), (v1WithdrawMetas, v1WithdrawIx), (famTokensV2, withdrawSubIx), (withdrawSubMetas, withdrawSubIx)],
        ok (process famEnv demoCpi famMem e.1 e.2) = true := by decide +kernel
    exact fun e he => exists_of_ok (key e he)

end

end Verif
