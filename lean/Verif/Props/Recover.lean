import Verif.Props.Contain
import Verif.Props.ClientMore

/-!
# Property C103: a stolen role without administrative permissions can always be revoked, for good
-/

namespace Verif
open Client

theorem role?_removeRole (w : Wallet) (id j : Nat) : (w.removeRole id).role? j = if j = id then none else w.role? j := by
  unfold Wallet.role? Wallet.removeRole
  split
  · rename_i h
    subst h
    simp [List.find?_eq_none]
  · rename_i h
    rw [List.find?_filter]
    congr 1
    funext r
    by_cases hr : r.id = j <;> simp [hr, h]

section
variable {env : Env} {cpi : Cpi} {m m1 m2 m3 : Mem} {metas : List Meta} {k payer : Key} {w : Wallet} {o t : Nat} {r : Role} {a : Auth} {c : Caller}
  {pre post : List TxIx}

/-- Revocation.  Whatever was done with the stolen role `t`, a role `o` that may manage roles removes it with the request the client library
builds, with the credential as it was before the theft: the request succeeds, unless the thief has already removed the role themselves.
Afterwards the role is gone and every other role is as before the theft, apart from the use of the credential of `o`. -/
theorem C103_revoke (hh : HashLength env) (ho : Open m k w) (hp : Powerless w (· = t)) (h : StepsBy (· = t) k m m1)
    (hro : w.role? o = some r) (hot : o ≠ t) (h0 : t ≠ 0) (hadm : r.holds P.all ∨ r.holds P.manageAuthority)
    (hcred : a.WF ∧ a.ty = r.authType ∧ a.encode = r.auth) (hsent : Sent m1 metas (removeAuthority env k payer o t c) pre post)
    (hacts : ActsFor env a metas (removeAuthority env k payer o t c) pre c)
    (hplain : ∀ w1, Open m1 k w1 → Plain m1 w1 metas) (hsize : (m1 k).data.length ≤ 10485760) :
    (∃ w1, Open m1 k w1 ∧ w1.role? t = none) ∨
    ∃ m2 w2, process env cpi m1 metas (removeAuthority env k payer o t c).data = .ok m2 ∧ Open m2 k w2 ∧ w2.role? t = none ∧
      ∀ j, j ≠ t → w2.role? j = (w.used o).role? j := by
  obtain ⟨w1, h1, h2, _⟩ := C100_contained ho hp h
  cases ht : w1.role? t with
  | none => exact .inl ⟨w1, h1, ht⟩
  | some s =>
    right
    have hr1 : w1.role? o = some r := by rw [h2.others o hot, hro]
    obtain ⟨m2, e1, e2, e3⟩ := C70_remove (cpi := cpi) hh
      (⟨h1.data, h1.owner, h1.wf, by rw [← h1.data]; exact hsize, hr1, hcred, hsent, hplain w1 h1⟩ :
        Ready env m1 k w1 o r a metas (removeAuthority env k payer o t c) pre post) hacts (.inl hadm) ht h0
    refine ⟨m2, (w1.used o).removeRole t, e1, ⟨(e3 k).1.trans h1.owner, Wallet.removeRole_wf (Wallet.used_wf h1.wf o) t, e2⟩, ?_, ?_⟩
    · rw [role?_removeRole, if_pos rfl]
    · intro j hj
      rw [role?_removeRole, if_neg hj, Wallet.used_find, Wallet.used_find, h2.others j hj]

/-- For good: once the role is gone nothing done in its name changes any role. -/
theorem C103_final {w2 : Wallet} (ho : Open m2 k w2) (hgone : w2.role? t = none) (h : StepsBy (· = t) k m2 m3) :
    ∃ w3, Open m3 k w3 ∧ ∀ j, w3.role? j = w2.role? j := by
  have hp : Powerless w2 (· = t) := by
    rintro id rfl r hr
    rw [hgone] at hr
    cases hr
  obtain ⟨w3, h1, h2, _⟩ := C100_contained ho hp h
  refine ⟨w3, h1, fun j => ?_⟩
  by_cases hj : j = t
  · subst hj
    rw [hgone]
    cases e : w3.role? j with
    | none => rfl
    | some x =>
      obtain ⟨y, hy, _⟩ := h2.inside _ _ e
      rw [hgone] at hy
      cases hy
  · exact h2.others j hj

end

section
open Sample SampleClient

/-- The request with which the owner of the sample wallet removes role 1. -/
def revoke : Built := removeAuthority env1 (K 1) (K 10) 0 1 callerEd

/-- A thief pays with the stolen role 1; then the owner revokes it: all hypotheses of `C103_revoke` hold and the request succeeds, and those of
`C103_final` hold for what follows. -/
example (cpi : Cpi) : HashLength env1 ∧ Open (mem beforePay) (K 1) beforePay ∧ Powerless beforePay (· = 1) ∧
    StepsBy (· = 1) (K 1) (mem beforePay) (onLedger (mem afterPay) revoke) ∧
    ∃ m2 w2, process env1 cpi (onLedger (mem afterPay) revoke) revoke.accounts revoke.data = .ok m2 ∧ Open m2 (K 1) w2 ∧ w2.role? 1 = none ∧
      w2.role? 0 = some root ∧ StepsBy (· = 1) (K 1) m2 m2 := by
  have ho : Open (mem beforePay) (K 1) beforePay := ⟨rfl, by decide +kernel, rfl⟩
  have hp : Powerless beforePay (· = 1) := by
    rintro id rfl r hr a ha
    cases Option.some.inj hr
    revert a; decide
  have hs : StepsBy (· = 1) (K 1) (mem beforePay) (onLedger (mem afterPay) revoke) := by
    refine .trans (b := mem afterPay) ?_ (.outside ?_ ?_)
    · exact stepBy (swig := signSwig) (rest := signAddr :: signRest) (ix := signIx [paySol 7]) rfl rfl (by decide)
        (by decide +kernel) (by decide) (by decide) (by decide +kernel)
    · rw [onLedger_other (by decide +kernel)]
    · rw [onLedger_other (by decide +kernel)]
  have hopen : Open (onLedger (mem afterPay) revoke) (K 1) afterPay := by
    have e := onLedger_other (base := mem afterPay) (b := revoke) (k := K 1) (by decide +kernel)
    exact ⟨by rw [e]; rfl, by decide +kernel, by rw [e]; rfl⟩
  have hready : Ready env1 (onLedger (mem afterPay) revoke) (K 1) afterPay 0 root ⟨.ed25519 (K 10), none⟩ revoke.accounts revoke [] [] :=
    ready_on hopen.wf rfl rfl (by decide +kernel) (by decide +kernel) rfl ⟨⟨show (K 10).length = 32 from rfl, by intro s h; cases h⟩, rfl, by decide +kernel⟩ (by decide +kernel)
      (by decide +kernel) (by decide +kernel) (by decide +kernel)
  refine ⟨hash1, ho, hp, hs, ?_⟩
  rcases C103_revoke (cpi := cpi) (o := 0) (r := root) (a := ⟨.ed25519 (K 10), none⟩) (c := callerEd) (payer := K 10) hash1 ho hp hs rfl (by decide)
    (by decide) (.inl (by decide +kernel)) hready.cred hready.sent (.inl ⟨rfl, rfl⟩) (fun w1 h1 => by rw [h1.unique hopen]; exact hready.plain)
    (by rw [hopen.data]; decide +kernel) with ⟨w1, h1, h2⟩ | ⟨m2, w2, h1, h2, h3, h4⟩
  · rw [h1.unique hopen] at h2
    cases h2
  · exact ⟨m2, w2, h1, h2, h3, (h4 0 (by decide)).trans rfl, .refl _⟩

end
end Verif
