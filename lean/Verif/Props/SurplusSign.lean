import Verif.Proofs.SurplusSign
import Verif.Spec.SampleSign
import Verif.Props.Sub

/-!
# Further accounts in a signing for the wallet (C125)

For a role with limits the program watches the token accounts of the wallet among the accounts passed, also those no instruction uses.
-/

namespace Verif
open Client

section
variable {env : Env} {cpi : Cpi} {m m' : Mem} {swig : Meta} {rest more : List Meta} {ix : Bytes} {w : Wallet}

/-- A signing for the wallet that is accepted, of a role with or without limits, is accepted with any further accounts after the ones it passes, and leaves the
same ledger, if the credential of the role does not sign the list of accounts and none of the further accounts is a token account, a stake account or the target
of a program scope of the wallet. -/
theorem C125_sign (ho : Open m swig.key w) (h11 : rd ix 0 2 = 11) (hb : ∀ r, w.role? (rd ix 4 4) = some r → ByTransaction r)
    (hp : Plain m w more) (ht : ∀ a ∈ more, (m a.key).owner ≠ tokenId ∧ (m a.key).owner ≠ token2022Id)
    (hl : (swig :: rest ++ more).length ≤ 254) (h : process env cpi m (swig :: rest) ix = .ok m') :
    process env cpi m (swig :: rest ++ more) ix = .ok m' := by
  unfold process at h ⊢
  obtain ⟨u, h1, h⟩ := bind_ok_iff.mp h
  obtain ⟨cls, h2, h⟩ := bind_ok_iff.mp h
  unfold dispatch at h
  rw [h11] at h
  split at h
  · cases h
  · rename_i hlen
    have hr : rest ≠ [] := by
      rintro rfl
      cases h
    obtain ⟨g1, cls', g2, g3⟩ := classifyAll_unwatched ho hp ht h2 hr
    refine bind_ok_iff.mpr ⟨(), require_of hl, bind_ok_iff.mpr ⟨_, g2, ?_⟩⟩
    unfold dispatch
    rw [if_neg hlen, h11]
    exact sign_surplus_limited ho hb g1 g3 h

end

section
open Sample

/-- The hypotheses of `C125_sign` are met: role 1, with limits, pays 300 lamports, with one more account. -/
example : Open (signMem Sample.acts1) (K 1) (signWallet Sample.acts1) ∧ rd (signIx [paySol 300]) 0 2 = 11 ∧
    (∀ r, (signWallet Sample.acts1).role? (rd (signIx [paySol 300]) 4 4) = some r → ByTransaction r) ∧
    Plain (signMem Sample.acts1) (signWallet Sample.acts1) [⟨K 60, false, true⟩] ∧
    ((signMem Sample.acts1 (K 60)).owner ≠ tokenId ∧ (signMem Sample.acts1 (K 60)).owner ≠ token2022Id) ∧
    ∃ m', process signEnv demoCpi (signMem Sample.acts1) (signSwig :: signAddr :: signRest) (signIx [paySol 300]) = .ok m' := by
  refine ⟨⟨by decide +kernel, by decide +kernel, by decide +kernel⟩, by decide +kernel, ?_, by unfold Plain; decide +kernel, by decide +kernel,
    exists_of_ok (by decide +kernel)⟩
  intro r hr
  have e : ((signWallet Sample.acts1).role? (rd (signIx [paySol 300]) 4 4)).map (·.authType) = some T.ed25519 := by decide +kernel
  rw [hr] at e
  exact .inl (Option.some.inj e)

/-- A frozen token account of the wallet. -/
def frozenAcct : Acct := ⟨tokenId, 2039280, K 50 ++ K 2 ++ natLE 8 7 ++ zeros 36 ++ [2] ++ zeros 56⟩

def frozenMem : Mem := (signMem Sample.acts1).set (K 51) frozenAcct

/-- Token accounts cannot be allowed in `C125_sign`: a payment of SOL by a role with limits is refused if a frozen token account of the wallet is passed as a
further account, though no instruction uses it and it may not be written. -/
theorem C125_sign_refuted : ¬ ∀ (env : Env) (cpi : Cpi) (m : Mem) (swig : Meta) (rest more : List Meta) (ix : Bytes) (w : Wallet), Open m swig.key w →
    rd ix 0 2 = 11 → (∀ r, w.role? (rd ix 4 4) = some r → ByTransaction r) → Plain m w more → (∀ a ∈ more, a.writable = false ∧ a.signer = false) →
    (swig :: rest ++ more).length ≤ 254 → Accepted env cpi m (swig :: rest) ix → Accepted env cpi m (swig :: rest ++ more) ix := by
  intro claim
  have h := claim signEnv demoCpi frozenMem signSwig (signAddr :: signRest) [⟨K 51, false, false⟩] (signIx [paySol 300]) (signWallet Sample.acts1)
    ⟨by decide +kernel, by decide +kernel, by decide +kernel⟩ (by decide +kernel)
    (fun r hr => by
      have e : ((signWallet Sample.acts1).role? (rd (signIx [paySol 300]) 4 4)).map (·.authType) = some T.ed25519 := by decide +kernel
      rw [hr] at e
      exact .inl (Option.some.inj e))
    (by unfold Plain; decide +kernel) (by decide) (by decide) (exists_of_ok (by decide +kernel))
  obtain ⟨m', e⟩ := h
  have : ok (process signEnv demoCpi frozenMem (signSwig :: (signAddr :: signRest) ++ [⟨K 51, false, false⟩]) (signIx [paySol 300])) = false := by
    decide +kernel
  rw [e] at this
  cases this

end

end Verif
