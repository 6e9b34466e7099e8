import Verif.Proofs.Surplus
import Verif.Props.Sub
import Verif.Props.Wait
import Verif.Props.Manage
import Verif.Props.Batch

/-!
# Further accounts in a request (C125)

A client may pass more accounts than a request needs, for instance the accounts a proof instruction names.  For requests in which the later accounts have no
meaning of their own they change nothing.  They do for withdrawals from sub-accounts, which choose between SOL and tokens by the number of accounts.
-/

namespace Verif
open Client

section
variable {env : Env} {cpi : Cpi} {m m' : Mem} {swig : Meta} {rest more : List Meta} {ix : Bytes} {w : Wallet}

/-- A request that is accepted is accepted with any further accounts after the ones it passes, and leaves the same ledger, if the later accounts have no meaning
for the request, the credential of the acting role does not sign the list of accounts, and none of the further accounts is a stake account or the target of a
program scope of the wallet.

Missing: withdrawals from sub-accounts, for which it is false (`C125_refuted`; see Verif/Props/SurplusWithdraw.lean for what holds), and requests that move or close token accounts, which act on every account
passed.  Starts of sessions are in `C125_sessions`, signings of roles without limits in `C125_sign_free`, of all roles in `C125_sign`
(Verif/Props/SurplusSign.lean). -/
theorem C125_surplus_partial (ho : Open m swig.key w) (hn : TakesNoList (rd ix 0 2)) (hb : ∀ r, w.role? (actingRole ix) = some r → ByTransaction r)
    (hp : Plain m w more) (hl : (swig :: rest ++ more).length ≤ 254) (h : process env cpi m (swig :: rest) ix = .ok m') :
    process env cpi m (swig :: rest ++ more) ix = .ok m' := by
  have act : ActsWithMore env m (swig :: rest) more swig.key (actingRole ix) := actsWithMore ho hb
  obtain ⟨h5, h7, h11, h13, h14, h21⟩ := hn
  have e12 : rd ix 0 2 = 1 ∨ rd ix 0 2 = 10 → ActsWithMore env m (swig :: rest) more swig.key (rd ix 12 4) := fun h => by
    rw [actingRole, if_pos h] at act
    exact act
  have e8 : rd ix 0 2 = 2 ∨ rd ix 0 2 = 3 → ActsWithMore env m (swig :: rest) more swig.key (rd ix 8 4) := fun h => by
    rw [actingRole, if_neg (by omega), if_pos h] at act
    exact act
  have e4 : ¬ (rd ix 0 2 = 1 ∨ rd ix 0 2 = 10) → ¬ (rd ix 0 2 = 2 ∨ rd ix 0 2 = 3) → ActsWithMore env m (swig :: rest) more swig.key (rd ix 4 4) := fun h h' => by
    rw [actingRole, if_neg h, if_neg h'] at act
    exact act
  unfold process at h ⊢
  obtain ⟨u, h1, h⟩ := bind_ok_iff.mp h
  obtain ⟨cls, h2, h⟩ := bind_ok_iff.mp h
  obtain ⟨cls', h3⟩ := classifyAll_surplus ho hp h2
  refine bind_ok_iff.mpr ⟨(), ?_, bind_ok_iff.mpr ⟨_, h3, ?_⟩⟩
  · exact require_of hl
  unfold dispatch at h ⊢
  split at h
  · cases h
  · rename_i hlen
    rw [if_neg hlen]
    split at h
    · rename_i e; exact addAuthority_surplus (e12 (by omega)) h
    · rename_i e; exact removeAuthority_surplus (e8 (by omega)) h
    · rename_i e; exact updateAuthority_surplus (e8 (by omega)) h
    · cases h
    · rename_i e; exact absurd e h5
    · rename_i e; exact createSub_surplus (e4 (by omega) (by omega)) h
    · rename_i e; exact absurd e h7
    · rename_i e; exact subSign_surplus (e4 (by omega) (by omega)) h
    · rename_i e; exact toggleSub_surplus (e12 (by omega)) h
    · rename_i e; exact absurd e h11
    · rename_i e; exact migrate_surplus (e4 (by omega) (by omega)) h
    · rename_i e; exact absurd e h13
    · rename_i e; exact absurd e h14
    · rename_i e; exact closeSwig_surplus (e4 (by omega) (by omega)) h
    · rename_i e; exact replaceAuthority_surplus (e4 (by omega) (by omega)) h
    · rename_i e; exact setRentClaimer_surplus (e4 (by omega) (by omega)) h
    · rename_i e; exact createSubV2_surplus (e4 (by omega) (by omega)) h
    · rename_i e; exact toggleSubV2_surplus (e4 (by omega) (by omega)) h
    · rename_i e; exact subSignV2_surplus (e4 (by omega) (by omega)) h
    · rename_i e; exact absurd e h21
    · exact create_surplus h

/-- The start of a session by a key or a program. -/
theorem C125_sessions (ho : Open m swig.key w) (h5 : rd ix 0 2 = 5)
    (hty : ∀ r, w.role? (rd ix 4 4) = some r → r.authType = T.ed25519Session ∨ r.authType = T.programExecSession)
    (hp : Plain m w more) (hl : (swig :: rest ++ more).length ≤ 254) (h : process env cpi m (swig :: rest) ix = .ok m') :
    process env cpi m (swig :: rest ++ more) ix = .ok m' := by
  unfold process at h ⊢
  obtain ⟨u, h1, h⟩ := bind_ok_iff.mp h
  obtain ⟨cls, h2, h⟩ := bind_ok_iff.mp h
  obtain ⟨cls', h3⟩ := classifyAll_surplus ho hp h2
  refine bind_ok_iff.mpr ⟨(), require_of hl, bind_ok_iff.mpr ⟨_, h3, ?_⟩⟩
  unfold dispatch at h ⊢
  rw [h5] at h ⊢
  split at h
  · cases h
  · rename_i hlen
    rw [if_neg hlen]
    exact createSession_surplus ho hty h

/-- A signing for the wallet by a role that may do everything, or everything but manage roles. -/
theorem C125_sign_free (ho : Open m swig.key w) (h11 : rd ix 0 2 = 11) (hb : ∀ r, w.role? (rd ix 4 4) = some r → ByTransaction r ∧ Free r)
    (hp : Plain m w more) (hl : (swig :: rest ++ more).length ≤ 254) (h : process env cpi m (swig :: rest) ix = .ok m') :
    process env cpi m (swig :: rest ++ more) ix = .ok m' := by
  unfold process at h ⊢
  obtain ⟨u, h1, h⟩ := bind_ok_iff.mp h
  obtain ⟨cls, h2, h⟩ := bind_ok_iff.mp h
  obtain ⟨cls', h3⟩ := classifyAll_surplus ho hp h2
  refine bind_ok_iff.mpr ⟨(), require_of hl, bind_ok_iff.mpr ⟨_, h3, ?_⟩⟩
  unfold dispatch at h ⊢
  rw [h11] at h ⊢
  split at h
  · cases h
  · rename_i hlen
    rw [if_neg hlen]
    exact sign_surplus ho (fun r hr => (hb r hr).1) (fun r hr => (hb r hr).2) h

end

section
open Sample

/-- The hypotheses of `C125_surplus_partial` are met: role 0, a key, removes role 1, with one more account, which nobody signs for. -/
example : Open (mem wallet) (K 1) wallet ∧ TakesNoList (rd removeIx 0 2) ∧ (∀ r, wallet.role? (actingRole removeIx) = some r → ByTransaction r) ∧
    Plain (mem wallet) wallet [⟨K 50, false, false⟩] ∧ (metas (K 10) ++ [(⟨K 50, false, false⟩ : Meta)]).length ≤ 254 ∧
    ∃ m', process env plainPay (mem wallet) (metas (K 10)) removeIx = .ok m' := by
  refine ⟨⟨by decide +kernel, by decide +kernel, by decide +kernel⟩, ?_, ?_, ?_, by decide, exists_of_ok (by decide +kernel)⟩
  · have e : rd removeIx 0 2 = 2 := by decide +kernel
    rw [e]
    unfold TakesNoList
    decide
  · intro r hr
    have e : wallet.role? (actingRole removeIx) = some root := by decide +kernel
    rw [e] at hr
    cases hr
    exact .inl rfl
  · unfold Plain
    decide +kernel

/-- Those of `C125_sessions`: role 2 starts a session of 60 slots. -/
example : Open (mem sessionWallet) (K 1) sessionWallet ∧ rd (sessionIx 60) 0 2 = 5 ∧
    (∀ r, sessionWallet.role? (rd (sessionIx 60) 4 4) = some r → r.authType = T.ed25519Session ∨ r.authType = T.programExecSession) ∧
    Plain (mem sessionWallet) sessionWallet [⟨K 50, false, false⟩] ∧
    ∃ m', process env plainPay (mem sessionWallet) (metas (K 11)) (sessionIx 60) = .ok m' := by
  refine ⟨⟨by decide +kernel, by decide +kernel, by decide +kernel⟩, by decide +kernel, ?_, by unfold Plain; decide +kernel,
    exists_of_ok (by decide +kernel)⟩
  intro r hr
  have e : (sessionWallet.role? (rd (sessionIx 60) 4 4)).map (·.authType) = some T.ed25519Session := by decide +kernel
  rw [hr] at e
  exact .inl (Option.some.inj e)

/-- Those of `C125_sign_free`: role 1 may do everything and pays 600. -/
example : Open (signMem [⟨P.all, []⟩]) (K 1) (signWallet [⟨P.all, []⟩]) ∧ rd (signReq 1 [payC 600] [4]) 0 2 = 11 ∧
    (∀ r, (signWallet [⟨P.all, []⟩]).role? (rd (signReq 1 [payC 600] [4]) 4 4) = some r → ByTransaction r ∧ Free r) ∧
    Plain (signMem [⟨P.all, []⟩]) (signWallet [⟨P.all, []⟩]) [⟨K 50, false, false⟩] ∧
    ∃ m', process signEnv moveCpi (signMem [⟨P.all, []⟩]) batchMetas (signReq 1 [payC 600] [4]) = .ok m' := by
  refine ⟨⟨rfl, by decide +kernel, rfl⟩, by decide +kernel, ?_, by unfold Plain; decide +kernel, exists_of_ok (by decide +kernel)⟩
  intro r hr
  have e : rd (signReq 1 [payC 600] [4]) 4 4 = 1 := by decide +kernel
  rw [e] at hr
  cases hr
  exact ⟨.inl rfl, .inl ⟨⟨P.all, []⟩, by decide, rfl⟩⟩

/-- C125 is false for all requests: the owner withdraws SOL from a sub-account; with one more account, of no meaning, the program takes the withdrawal for one
of tokens and refuses it. -/
theorem C125_refuted : ¬ ∀ (env : Env) (cpi : Cpi) (m : Mem) (swig : Meta) (rest more : List Meta) (ix : Bytes) (w : Wallet), Open m swig.key w →
    (∀ r, w.role? (actingRole ix) = some r → ByTransaction r) → Plain m w more → (swig :: rest ++ more).length ≤ 254 →
    Accepted env cpi m (swig :: rest) ix → Accepted env cpi m (swig :: rest ++ more) ix := by
  intro claim
  have h := claim subEnv sysCpi (v1Mem 1) ⟨K 1, false, true⟩ v1WithdrawMetas.tail [⟨K 50, false, false⟩] v1WithdrawIx (v1Wallet 1)
    ⟨by decide +kernel, by decide +kernel, by decide +kernel⟩
    (fun r hr => by
      have e : (v1Wallet 1).role? (actingRole v1WithdrawIx) = some root := by decide +kernel
      rw [e] at hr
      cases hr
      exact .inl rfl)
    (by unfold Plain; decide +kernel) (by decide) (exists_of_ok (by decide +kernel))
  obtain ⟨m', e⟩ := h
  have : ok (process subEnv sysCpi (v1Mem 1) (⟨K 1, false, true⟩ :: v1WithdrawMetas.tail ++ [⟨K 50, false, false⟩]) v1WithdrawIx) = false := by
    decide +kernel
  rw [e] at this
  cases this

end

end Verif
