import Verif.Proofs.Contain

/-!
# C100: the theft of credentials without administrative permissions is contained
-/

namespace Verif

section
variable {m m' : Mem} {k : Key} {w : Wallet} {S : Nat → Prop}

/-- As long as every request for a wallet acts as one of the roles in `S`, none of which may administer the wallet, the wallet stays open, its identity, claimer and number of
roles ever given out stay as they are, every other role stays exactly as it is, and the roles in `S` keep their keys and gain no permission except over sub-accounts they
create.  In particular they still may not administer the wallet. -/
theorem C100_contained (ho : Open m k w) (hp : Powerless w S) (h : StepsBy S k m m') :
    ∃ w', Open m' k w' ∧ Contained S w w' ∧ Powerless w' S := by
  obtain ⟨h1, h2⟩ := stepsBy_hist ho.wf hp h ⟨ho.owner, .inl ⟨w, ho.wf, .refl, ho.data⟩⟩
  rcases h2 with ⟨w', hw, hl, hd⟩ | ⟨hd, _⟩
  · have hc := hl.contained ho.wf
    exact ⟨w', ⟨h1, hw, hd⟩, hc, hp.keep hc⟩
  · exact hd.elim

/-- Nothing new can be granted: a role that exists afterwards existed before. -/
theorem C100_no_new_roles (ho : Open m k w) (hp : Powerless w S) (h : StepsBy S k m m') {w' : Wallet} (ho' : Open m' k w') :
    ∀ r' ∈ w'.roles, ∃ r ∈ w.roles, r.id = r'.id := by
  obtain ⟨w1, h1, h2, _⟩ := C100_contained ho hp h
  rw [ho'.unique h1]
  intro r' hr'
  have : w1.role? r'.id ≠ none := by
    intro hn
    unfold Wallet.role? at hn
    have := List.find?_eq_none.mp hn r' hr'
    simp at this
  obtain ⟨x, hx⟩ := Option.ne_none_iff_exists'.mp this
  obtain ⟨r, hr, _⟩ := h2.inside _ _ hx
  exact ⟨r, (role?_mem hr).1, (role?_mem hr).2⟩

/-- Without any request for the wallet nothing in it changes at all. -/
theorem C100_unused (ho : Open m k w) (h : StepsBy (fun _ => False) k m m') : ∃ w', Open m' k w' ∧ ∀ j, w'.role? j = w.role? j := by
  obtain ⟨w', h1, h2, _⟩ := C100_contained ho (S := fun _ => False) (fun _ h => h.elim) h
  exact ⟨w', h1, fun j => h2.others j id⟩

end

namespace Sample

/-- A role leaves: RemoveAuthority acting as role 1 for role 1. -/
def leaveIx : Bytes := natLE 2 2 ++ natLE 2 1 ++ zeros 4 ++ natLE 4 1 ++ natLE 4 1 ++ [3]

theorem stepBy {S : Nat → Prop} {w w1 : Wallet} {swig : Meta} {rest : List Meta} {ix : Bytes} (hs : swig.key = K 1) (hw : swig.writable = true)
    (hk : ∀ a ∈ swig :: rest, a.key.length = 32) (hwf : w.WF) (hroom : w.roles.length + 1 < 2 ^ 16 ∧ w.roleCounter + 1 < 2 ^ 32) (hok : S (actingRole ix))
    (e : (match process signEnv demoCpi (mem w) (swig :: rest) ix with
      | .ok m' => decide ((m' (K 1)).data = w1.encode ∧ (m' (K 1)).owner = swigId)
      | _ => false) = true) : StepsBy S (K 1) (mem w) (mem w1) := by
  have ho : Open (mem w) (K 1) w := ⟨rfl, hwf, rfl⟩
  split at e
  · rename_i m' hm
    obtain ⟨h1, h2⟩ := of_decide_eq_true e
    refine .trans (.request (fun a ix b hb e => ?_) (fun _ => hok) ⟨?_, ?_, ?_⟩ hm) (.outside h1.symm h2.symm)
    · exact .outside (demoCpi_outside hb e).1 (demoCpi_outside hb e).2
    · intro s r es
      cases es
      exact ⟨mem_typed w, demoCpi_typed, hk, by decide, fun h => by rw [hw] at h; cases h⟩
    · intro s r w' es ho'
      cases es
      rw [hs] at ho'
      rw [ho'.unique ho]
      exact hroom
    · intro s wl r w' ixs m1 es _ _ _
      exact signEnv_noClash _ _
  · cases e

def afterLeave : Wallet := { wallet with roles := [root] }

end Sample

/-- The hypotheses of C100 hold: the role 1 of a wallet, which may only spend, pays and then removes itself. -/
example : Open (Sample.mem Sample.beforePay) (Sample.K 1) Sample.beforePay ∧ Powerless Sample.beforePay (· = 1) ∧
    StepsBy (· = 1) (Sample.K 1) (Sample.mem Sample.beforePay) (Sample.mem Sample.afterLeave) ∧
    Sample.beforePay.role? 0 = some Sample.root ∧ Open (Sample.mem Sample.afterLeave) (Sample.K 1) Sample.afterLeave := by
  refine ⟨⟨rfl, by decide +kernel, rfl⟩, ?_, ?_, rfl, ⟨rfl, by decide +kernel, rfl⟩⟩
  · rintro id rfl r hr a ha
    cases Option.some.inj hr
    revert a; decide
  · refine .trans (b := Sample.mem Sample.afterPay) ?_ ?_
    · exact Sample.stepBy (swig := Sample.signSwig) (rest := Sample.signAddr :: Sample.signRest) (ix := Sample.signIx [Sample.paySol 7]) rfl rfl (by decide)
        (by decide +kernel) (by decide) (by decide) (by decide +kernel)
    · exact Sample.stepBy (swig := ⟨Sample.K 1, false, true⟩) (rest := [⟨Sample.K 10, true, true⟩, ⟨systemId, false, false⟩, ⟨Sample.K 11, true, false⟩]) (ix := Sample.leaveIx) rfl rfl (by decide)
        (by decide +kernel) (by decide) (by decide) (by decide +kernel)

end Verif
