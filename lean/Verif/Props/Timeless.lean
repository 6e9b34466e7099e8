import Verif.Proofs.Timeless
import Verif.Props.Wait
import Verif.Props.Manage

/-!
# Waiting and requests other than signings (C124)

Only a signing reads the slot for what a role may do (Verif/Props/Wait.lean), and only a new session stores it.  Every other request has the same result at a
later slot: the same ledger, or the same error.
-/

namespace Verif

section
variable {env : Env} {cpi : Cpi} {m : Mem} {swig : Meta} {rest : List Meta} {ix : Bytes} {w : Wallet} {t : Nat}

/-- A request that is neither a signing nor the start of a session has the same result at every later slot, whatever accounts it passes and whether it is
accepted or refused, if the credential of the role it acts as does not age. -/
theorem C124_others (ho : Open m swig.key w) (h5 : rd ix 0 2 ≠ 5) (h11 : rd ix 0 2 ≠ 11) (ha : ∀ r, w.role? (actingRole ix) = some r → Ageless r t)
    (hs : env.slot ≤ t) : process { env with slot := t } cpi m (swig :: rest) ix = process env cpi m (swig :: rest) ix := by
  have act : SameActing env m (swig :: rest) swig.key (actingRole ix) t := sameActing ho ha hs
  show process (env.later t) cpi m (swig :: rest) ix = _
  unfold process
  refine bind_congr_ok fun _ _ => bind_congr_ok fun cls _ => ?_
  unfold dispatch
  split
  · rfl
  · have e12 : rd ix 0 2 = 1 ∨ rd ix 0 2 = 10 → SameActing env m (swig :: rest) swig.key (rd ix 12 4) t := fun h => by
      rw [actingRole, if_pos h] at act
      exact act
    have e8 : rd ix 0 2 = 2 ∨ rd ix 0 2 = 3 → SameActing env m (swig :: rest) swig.key (rd ix 8 4) t := fun h => by
      rw [actingRole, if_neg (by omega), if_pos h] at act
      exact act
    have e4 : ¬ (rd ix 0 2 = 1 ∨ rd ix 0 2 = 10) → ¬ (rd ix 0 2 = 2 ∨ rd ix 0 2 = 3) → SameActing env m (swig :: rest) swig.key (rd ix 4 4) t := fun h h' => by
      rw [actingRole, if_neg h, if_neg h'] at act
      exact act
    split
    · rename_i e; exact addAuthority_later (e12 (by omega))
    · rename_i e; exact removeAuthority_later (e8 (by omega))
    · rename_i e; exact updateAuthority_later (e8 (by omega))
    · rfl
    · rename_i e; exact absurd e h5
    · rename_i e; exact createSub_later (e4 (by omega) (by omega))
    · rename_i e; exact withdrawSub_later (e4 (by omega) (by omega))
    · rename_i e; exact subSign_later (e4 (by omega) (by omega))
    · rename_i e; exact toggleSub_later (e12 (by omega))
    · rename_i e; exact absurd e h11
    · rename_i e; exact migrate_later (e4 (by omega) (by omega))
    · rename_i e; exact transferAssets_later (e4 (by omega) (by omega))
    · rename_i e; exact closeToken_later (e4 (by omega) (by omega))
    · rename_i e; exact closeSwig_later (e4 (by omega) (by omega))
    · rename_i e; exact replaceAuthority_later (e4 (by omega) (by omega))
    · rename_i e; exact setRentClaimer_later (e4 (by omega) (by omega))
    · rename_i e; exact createSubV2_later (e4 (by omega) (by omega))
    · rename_i e; exact toggleSubV2_later (e4 (by omega) (by omega))
    · rename_i e; exact subSignV2_later (e4 (by omega) (by omega))
    · rename_i e; exact withdrawSubV2_later (e4 (by omega) (by omega))
    · exact create_later

/-- A session that may be started may be started at any other slot, if the role is a key or a program that may start sessions. -/
theorem C124_sessions (ho : Open m swig.key w) (h5 : rd ix 0 2 = 5)
    (hty : ∀ r, w.role? (rd ix 4 4) = some r → r.authType = T.ed25519Session ∨ r.authType = T.programExecSession)
    (h : Accepted env cpi m (swig :: rest) ix) : Accepted { env with slot := t } cpi m (swig :: rest) ix := by
  obtain ⟨m', h⟩ := h
  unfold process at h
  obtain ⟨u, h1, h⟩ := bind_ok_iff.mp h
  obtain ⟨cls, h2, h⟩ := bind_ok_iff.mp h
  unfold dispatch at h
  split at h
  · cases h
  · rename_i hl
    rw [h5] at h
    obtain ⟨m2, h3⟩ := createSession_later (t := t) ho hty h
    refine ⟨m2, ?_⟩
    unfold process
    refine bind_ok_iff.mpr ⟨u, h1, bind_ok_iff.mpr ⟨cls, h2, ?_⟩⟩
    unfold dispatch
    rw [if_neg hl, h5]
    exact h3

end

section
open Sample

/-- The hypotheses of `C124_others` are met: role 0, a key, removes role 1 now or at any later time; and a request it does not sign is refused then as now. -/
example : Open (mem wallet) (K 1) wallet ∧ rd removeIx 0 2 ≠ 5 ∧ rd removeIx 0 2 ≠ 11 ∧ (∀ t r, wallet.role? (actingRole removeIx) = some r → Ageless r t) ∧
    Accepted env plainPay (mem wallet) (metas (K 10)) removeIx ∧ ¬ Accepted env plainPay (mem wallet) (metas (K 11)) removeIx := by
  refine ⟨⟨by decide +kernel, by decide +kernel, by decide +kernel⟩, by decide +kernel, by decide +kernel, ?_, exists_of_ok (by decide +kernel), ?_⟩
  · intro t r hr
    have e : wallet.role? (actingRole removeIx) = some root := by decide +kernel
    rw [e] at hr
    cases hr
    exact .inl rfl
  · rintro ⟨m', e⟩
    have : ok (process env plainPay (mem wallet) (metas (K 11)) removeIx) = false := by decide +kernel
    rw [e] at this
    cases this

/-- Those of `C124_sessions` are: role 2 starts a session of 60 slots, the most it may. -/
example : Open (mem sessionWallet) (K 1) sessionWallet ∧ rd (sessionIx 60) 0 2 = 5 ∧
    (∀ r, sessionWallet.role? (rd (sessionIx 60) 4 4) = some r → r.authType = T.ed25519Session ∨ r.authType = T.programExecSession) ∧
    Accepted env plainPay (mem sessionWallet) (metas (K 11)) (sessionIx 60) := by
  refine ⟨⟨by decide +kernel, by decide +kernel, by decide +kernel⟩, by decide +kernel, ?_, exists_of_ok (by decide +kernel)⟩
  intro r hr
  have e : (sessionWallet.role? (rd (sessionIx 60) 4 4)).map (·.authType) = some T.ed25519Session := by decide +kernel
  rw [hr] at e
  exact .inl (Option.some.inj e)

end

end Verif
