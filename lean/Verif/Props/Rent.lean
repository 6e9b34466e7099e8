import Verif.Spec.Rent
import Verif.Proofs.Rent
import Verif.Props.Isolation
import Verif.Props.Close
import Verif.Props.History
import Verif.Spec.SampleSdk

/-!
# Property C98: a configuration account is never left below its rent minimum

So the runtime never deletes it: an open wallet stays, as itself, until it is closed, and a closed one stays closed.  False in general
(`C98_refuted`, the attack of C64); true when no called program takes an account from the System program.
-/

namespace Verif

open Sample in
/-- The full claim of C98 is false: a request for another wallet leaves a configuration account, open and rent exempt before, without a
single lamport, and the runtime then deletes it.  Nobody signed for it. -/
theorem C98_refuted : ∃ env cpi m m' metas ix k w, process env cpi m metas ix = .ok m' ∧ Open m k w ∧ Kept env.rent m k ∧
    (∀ n, 0 < env.rent n) ∧ (∀ a ∈ metas, a.key = k → a.signer = false) ∧ ¬ Kept env.rent m' k ∧
    (m'.purge k).data = [] ∧ (m'.purge k).owner = systemId := by
  have key : (match process isoEnv demoCpi (isoMem ⟨swigId, 2000000000, victim.encode⟩) stealMetas (stealIx 2000000000) with
    | .ok m' => decide ((m' (K 80)).lamports = 0) | _ => false) = true := by decide +kernel
  have hpos : ∀ n, 0 < isoEnv.rent n := fun n => by simp only [isoEnv, signEnv, env]; omega
  have ho : Open (isoMem ⟨swigId, 2000000000, victim.encode⟩) (K 80) victim := ⟨by decide, by decide +kernel, rfl⟩
  split at key
  · rename_i m' hm
    have h1 := of_decide_eq_true key
    refine ⟨_, _, _, m', _, _, K 80, victim, hm, ho, ⟨.inl ⟨_, ho⟩, by decide +kernel⟩, hpos, by decide, fun h => ?_, ?_, ?_⟩
    · have h2 := h.exempt
      have h3 := hpos (m' (K 80)).data.length
      omega
    · simp [Mem.purge, h1]
    · simp [Mem.purge, h1]
  · cases key

section
variable {env : Env} {cpi : Cpi} {m m' : Mem} {metas : List Meta} {ix : Bytes} {k : Key}

theorem Kept.iff_keep {rent : Nat → Nat} : Kept rent m k ↔ Keep k (.solid rent) m := by
  constructor
  · rintro ⟨⟨w, h⟩ | h, hx⟩
    · exact ⟨h.owner, .inl ⟨w, h.wf, h.data⟩, hx⟩
    · exact ⟨h.owner, .inr h.data, hx⟩
  · rintro ⟨ho, ⟨w, hw, hd⟩ | hd, hx⟩
    · exact ⟨.inl ⟨w, ho, hw, hd⟩, hx⟩
    · exact ⟨.inr ⟨ho, hd⟩, hx⟩

/-- Partial (`Solvent` has the condition that `C98_refuted` needs broken): a request, for whichever wallet, leaves every configuration account, open or
closed, at its rent minimum or above, if the programs it calls do. -/
theorem C98_keeps_partial (h : Kept env.rent m k) (hf : Fine env cpi m metas ix) (hs : Solvent env.rent env cpi m metas)
    (hc : ∀ a ix b, Kept env.rent a k → cpi a ix = .ok b → Kept env.rent b k)
    (e : process env cpi m metas ix = .ok m') : Kept env.rent m' k := by
  have hna : ∀ a ix b k, (a k).owner = systemId → cpi a ix = .ok b → (b k).owner = systemId := fun a ix b k h1 h2 => hs.noAssign a ix b k h2 h1
  have hc' : ∀ a ix b, Keep k (.solid env.rent) a → cpi a ix = .ok b → Keep k (.solid env.rent) b :=
    fun a ix b h1 h2 => Kept.iff_keep.mp (hc a ix b (Kept.iff_keep.mpr h1) h2)
  have h0 := Kept.iff_keep.mp h
  refine Kept.iff_keep.mpr ?_
  by_cases hk : FirstIs metas k
  · obtain ⟨swig, rest, rfl, rfl⟩ := hk
    rcases h0.2.1 with ⟨w, hw, hd⟩ | hd
    · exact process_solid h0.1 hw hd h0.2.2 hs.supply hs.mono hf hc' hna e
    · exact (process_closed ⟨swig, rest, rfl, rfl⟩ h0.1 hd e).elim
  · exact process_keep hc' hna hk h0 hs.supply hs.mono (fun a rest h => hs.first a rest h) e

variable {rent : Nat → Nat} {ok : Bytes → Prop} {w : Wallet}

/-- Partial, over histories in which the runtime deletes accounts without lamports: an open rent-exempt wallet goes through changes of the
state machine, each of a kind that one of the requests considered may cause, or is closed; it is never deleted, never below its minimum. -/
theorem C98_evolves_partial (hpos : ∀ n, 0 < rent n) (ho : Open m k w) (hx : rent (m k).data.length ≤ (m k).lamports)
    (h : Lives rent ok k m m') : rent (m' k).data.length ≤ (m' k).lamports ∧
    (IsClosed m' k ∨ ∃ w', Open m' k w' ∧ Changes (fun kd => ∃ ix, ok ix ∧ Does ix kd) w w') := by
  obtain ⟨h1, h2, h3⟩ := lives_hist (mig := fun kd => ∃ ix, ok ix ∧ Does ix kd) hpos (fun ix hix kd hkd => ⟨ix, hix, hkd⟩) h
    ⟨ho.owner, .inl ⟨w, ho.wf, .refl, ho.data⟩, hx⟩
  refine ⟨h3, ?_⟩
  rcases h2 with ⟨w', hw, hl, hd⟩ | hd
  · exact .inr ⟨w', ⟨h1, hw, hd⟩, hl⟩
  · exact .inl ⟨h1, hd.2⟩

/-- Partial: with deletions in the histories, too, a closed wallet stays closed and no request for it succeeds (compare
`C43_stays_closed_partial`, whose histories have no deletions). -/
theorem C98_closed_partial (hpos : ∀ n, 0 < rent n) (hc : IsClosed m k) (hx : rent 1 ≤ (m k).lamports) (h : Lives rent ok k m m') :
    IsClosed m' k ∧ rent 1 ≤ (m' k).lamports ∧
    ∀ env cpi swig rest ix m'', swig.key = k → process env cpi m' (swig :: rest) ix ≠ .ok m'' := by
  have h0 : ∀ {a b : Mem}, Lives rent ok k a b → (IsClosed a k ∧ rent 1 ≤ (a k).lamports) → IsClosed b k ∧ rent 1 ≤ (b k).lamports := by
    intro a b h
    let Q : Upward := ⟨fun d l => d = [255] ∧ rent 1 ≤ l, fun _ _ _ h h' => ⟨h'.1, Nat.le_trans h'.2 h⟩, fun d _ _ h h' => by
      rw [h'.1] at h; exact absurd h (by decide)⟩
    induction h with
    | refl m => exact id
    | trans _ _ i1 i2 => exact fun h => i2 (i1 h)
    | outside h1 h2 h3 => exact fun ⟨h, hl⟩ => ⟨⟨h2.trans h.owner, h1.trans h.data⟩, Nat.le_trans hl h3⟩
    | purged m =>
      rintro ⟨h, hl⟩
      have := hpos 1
      have e : m.purge k = m k := by unfold Mem.purge; rw [if_neg (by omega)]
      exact ⟨⟨by rw [e]; exact h.owner, by rw [e]; exact h.data⟩, by rw [e]; exact hl⟩
    | @request env cpi m m' metas ix _ hok hf hso e hc =>
      rintro ⟨hcl, hl⟩
      by_cases hk : FirstIs metas k
      · exact (process_closed hk hcl.owner hcl.data e).elim
      · have hr := hso.rent
        subst hr
        have := process_keep (v := k) (Q := Q) (cpi := cpi) (fun a ix b ha hb => by
            have := hc a ix b ha.1 hb ⟨⟨ha.1, ha.2.1⟩, ha.2.2⟩
            exact ⟨this.1.owner, this.1.data, this.2⟩)
          (fun a ix b k h1 h2 => hso.noAssign a ix b k h2 h1) hk ⟨hcl.owner, hcl.data, hl⟩ hso.supply hso.mono (fun a rest h => hso.first a rest h) e
        exact ⟨⟨this.1, this.2.1⟩, this.2.2⟩
  obtain ⟨h1, h2⟩ := h0 h ⟨hc, hx⟩
  exact ⟨h1, h2, fun env cpi swig rest ix m'' hk e => process_closed ⟨swig, rest, rfl, hk⟩ h1.owner h1.data e⟩

/-- Where these histories start: a successful creation, paid for by an account that is neither of the two created, leaves an open
configuration account with exactly its rent minimum. -/
theorem C98_created {swig payer wallet : Meta} {rest : List Meta} (hn : rd ix 0 2 = 0) (h1 : payer.key ≠ swig.key) (h2 : payer.key ≠ wallet.key)
    (h3 : wallet.key ≠ swig.key) (h : process env cpi m (swig :: payer :: wallet :: rest) ix = .ok m') :
    Kept env.rent m' swig.key ∧ (m' swig.key).lamports = env.rent (m' swig.key).data.length := by
  obtain ⟨w, _, ho, _⟩ := C01_created hn h
  unfold process at h
  obtain ⟨_, _, e⟩ := bind_ok_iff.mp h
  clear h
  obtain ⟨cls, _, h⟩ := bind_ok_iff.mp e
  clear e
  unfold dispatch at h
  split at h
  · cases h
  rw [hn] at h
  simp only at h
  match rest, h with
  | sys :: rest, h =>
    have := (C42_create_rent h1 h2 h3 h).2.1
    exact ⟨⟨.inl ⟨w, ho⟩, Nat.le_of_eq this.symm⟩, this⟩
  | [], h => cases h

end

/-! ## The hypotheses are met -/

namespace Sample

/-- Hypotheses of `C98_created`. -/
example : rd createIx 0 2 = 0 ∧ ∃ m', process env demoCpi mem0 createMetas createIx = .ok m' :=
  ⟨rfl, exists_of_ok (by decide +kernel)⟩

/-- The sample System program without `Assign`. -/
def honestCpi : Cpi := fun m ix => if ix.program = systemId ∧ rd ix.data 0 4 = 2 then demoCpi m ix else .error .runtime

theorem honestCpi_ok {m m' : Mem} {ix : CpiIx} (h : honestCpi m ix = .ok m') :
    demoCpi m ix = .ok m' ∧ ∃ a b n, sysTransfer m a b n = .ok m' := by
  unfold honestCpi at h
  split at h
  · rename_i hc
    refine ⟨h, ?_⟩
    unfold demoCpi demoSystem at h
    rw [if_pos hc.1] at h
    split at h
    · cases h
    · rw [hc.2] at h
      simp only [if_true] at h
      rw [if_neg (by decide)] at h
      split at h
      · cases h
      · unfold demoTransfer at h
        split at h
        · exact ⟨_, _, _, h⟩
        · cases h
  · cases h

theorem honestCpi_system {a b : Mem} {ix : CpiIx} (k : Key) (h : honestCpi a ix = .ok b) : (b k).owner = (a k).owner := by
  obtain ⟨_, _, _, _, h⟩ := honestCpi_ok h
  exact (sysTransfer_data h _).2

/-- The honest program takes nothing from accounts of the wallet program. -/
theorem honestCpi_lives {rent : Nat → Nat} {ok : Bytes → Prop} {a b : Mem} {ix : CpiIx} {k : Key} (ho : (a k).owner = swigId)
    (h : honestCpi a ix = .ok b) : Lives rent ok k a b := by
  obtain ⟨_, _, _, _, h⟩ := honestCpi_ok h
  exact .outside (sysTransfer_data h _).1 (sysTransfer_data h _).2 (Keep.sysTransfer (v := k) (Q := .atLeast _) ⟨ho, Nat.le_refl _⟩ h).2

theorem honestCpi_kept {rent : Nat → Nat} {a b : Mem} {ix : CpiIx} {k : Key} (hk : Kept rent a k) (h : honestCpi a ix = .ok b) :
    Kept rent b k := by
  obtain ⟨_, _, _, _, h⟩ := honestCpi_ok h
  exact Kept.iff_keep.mpr (Keep.sysTransfer (Kept.iff_keep.mp hk) h)

theorem isoEnv_pos (n : Nat) : 0 < isoEnv.rent n := by simp only [isoEnv, signEnv, env]; omega

/-- The owner of one wallet pays 1000 lamports into the configuration account of another. -/
theorem give_fine {v : Acct} (ho : v.owner = swigId) (hl : v.lamports < 2 ^ 62) :
    Fine isoEnv honestCpi (isoMem v) stealMetas giveIx ∧ Solvent isoEnv.rent isoEnv honestCpi (isoMem v) stealMetas := by
  have hmem : ∀ k, (isoMem v k).owner.length = 32 ∧ (isoMem v k).lamports < 2 ^ 62 := by
    intro k
    simp only [isoMem, mem, Mem.set]
    split
    · decide
    · split
      · exact ⟨by rw [ho]; decide, hl⟩
      · (repeat' split) <;> decide
  have hwal : Open (isoMem v) (K 1) wallet := ⟨by rfl, by decide +kernel, by rfl⟩
  refine ⟨⟨?_, ?_, ?_⟩, rfl, fun a b h => by simp only [isoEnv, signEnv, env]; omega, fun a ix b k h hk => (honestCpi_system k h).trans hk,
    fun k => (hmem k).2, ?_⟩
  · intro s r es
    refine ⟨fun k => ⟨(hmem k).1, by have := (hmem k).2; omega⟩, fun a ix b h => demoCpi_typed a ix b (honestCpi_ok h).1, by decide, by decide, ?_⟩
    intro h
    have : s = ⟨K 1, false, true⟩ := by simp [stealMetas] at es; exact es.1.symm
    rw [this] at h; cases h
  · intro s r w' es hw
    have : s = ⟨K 1, false, true⟩ := by simp [stealMetas] at es; exact es.1.symm
    rw [this] at hw
    rw [hw.unique hwal]
    decide
  · intro _ _ _ _ _ _ _ _ _ _ h
    exact h.1 h.2
  · intro a rest es
    have : a = ⟨K 1, false, true⟩ := by simp [stealMetas] at es; exact es.1.symm
    rw [this]
    show isoEnv.rent (isoMem v (K 1)).data.length ≤ (isoMem v (K 1)).lamports
    have h1 : isoMem v (K 1) = isoMem ⟨swigId, 0, []⟩ (K 1) := rfl
    rw [h1]
    decide +kernel

/-- Hypotheses of `C98_keeps_partial`. -/
example : ∃ m', process isoEnv honestCpi (isoMem ⟨swigId, 2000000000, victim.encode⟩) stealMetas giveIx = .ok m' ∧
    Kept isoEnv.rent (isoMem ⟨swigId, 2000000000, victim.encode⟩) (K 80) ∧ (m' (K 80)).lamports = 2000001000 ∧ Kept isoEnv.rent m' (K 80) := by
  obtain ⟨m', h1, h2⟩ := SampleSdk.exists_of_leads (x := process isoEnv honestCpi (isoMem ⟨swigId, 2000000000, victim.encode⟩) stealMetas giveIx)
    (p := fun m' => decide ((m' (K 80)).lamports = 2000001000)) (by decide +kernel)
  have hk : Kept isoEnv.rent (isoMem ⟨swigId, 2000000000, victim.encode⟩) (K 80) :=
    ⟨.inl ⟨victim, by rfl, by decide +kernel, by rfl⟩, by decide +kernel⟩
  have hf := give_fine (v := ⟨swigId, 2000000000, victim.encode⟩) rfl (by decide)
  exact ⟨m', h1, hk, of_decide_eq_true h2, C98_keeps_partial hk hf.1 hf.2 (fun a ix b => honestCpi_kept) h1⟩

/-- Hypotheses of `C98_closed_partial`: a closed wallet at its minimum, another wallet's payment into it, and the runtime's deletions. -/
example : ∃ m', IsClosed (isoMem ⟨swigId, isoEnv.rent 1, [255]⟩) (K 80) ∧
    Lives isoEnv.rent (fun _ => True) (K 80) (isoMem ⟨swigId, isoEnv.rent 1, [255]⟩) m' ∧ (m' (K 80)).lamports = isoEnv.rent 1 + 1000 := by
  obtain ⟨m', h1, h2⟩ := SampleSdk.exists_of_leads (x := process isoEnv honestCpi (isoMem ⟨swigId, isoEnv.rent 1, [255]⟩) stealMetas giveIx)
    (p := fun m' => decide ((m' (K 80)).lamports = isoEnv.rent 1 + 1000)) (by decide +kernel)
  have h2 := of_decide_eq_true h2
  have hf := give_fine (v := ⟨swigId, isoEnv.rent 1, [255]⟩) rfl (by decide)
  refine ⟨m'.purge, ⟨by rfl, by rfl⟩, .trans (.request (fun a ix b ho h => honestCpi_lives ho h) trivial hf.1 hf.2 h1) (.purged _), ?_⟩
  have := isoEnv_pos 1
  unfold Mem.purge
  rw [if_neg (by omega)]
  exact h2

/-- Hypotheses of `C98_evolves_partial`: the owner closes the wallet, whose configuration account is exactly at its rent minimum (so that
everything above the minimum of one byte is paid out), and the runtime then deletes accounts without lamports, the wallet address among
them. -/
example : ∃ m', Open (closable wallet) (K 1) wallet ∧ env.rent (closable wallet (K 1)).data.length = (closable wallet (K 1)).lamports ∧
    (∀ n, 0 < env.rent n) ∧ Lives env.rent (fun _ => True) (K 1) (closable wallet) m' ∧ IsClosed m' (K 1) ∧ (m' (K 1)).lamports = env.rent 1 ∧
    (m' (K 2)).lamports = 0 := by
  obtain ⟨m', h1, h2⟩ := SampleSdk.exists_of_leads (x := process env noCpi (closable wallet) (closeMetas (K 20)) closeIx)
    (p := fun m' => decide ((m' (K 1)).lamports = env.rent 1 ∧ (m' (K 1)).data = [255] ∧ (m' (K 1)).owner = swigId ∧ (m' (K 2)).lamports = 0))
    (by decide +kernel)
  obtain ⟨h2, h3, h4, h5⟩ := of_decide_eq_true h2
  have hpos : ∀ n, 0 < env.rent n := fun n => by simp only [env]; omega
  have hp : m'.purge (K 1) = m' (K 1) := by
    have := hpos 1
    unfold Mem.purge
    rw [if_neg (by omega)]
  have hwal : Open (closable wallet) (K 1) wallet := ⟨by rfl, by decide +kernel, by rfl⟩
  have hx : env.rent (closable wallet (K 1)).data.length = (closable wallet (K 1)).lamports := by decide +kernel
  have hmem : ∀ k, (closable wallet k).owner.length = 32 ∧ (closable wallet k).lamports < 2 ^ 62 := by
    intro k
    by_cases e1 : k = K 1
    · subst e1; decide +kernel
    · by_cases e2 : k = K 2
      · subst e2; decide +kernel
      · unfold closable
        rw [Mem.setLamports_other _ _ e2, Mem.setLamports_other _ _ e1]
        simp only [mem]
        (repeat' split) <;> decide
  have hfirst : ∀ {s : Meta} {r : List Meta}, closeMetas (K 20) = s :: r → s = ⟨K 1, false, true⟩ := by
    intro s r es
    simp [closeMetas] at es; exact es.1.symm
  have hf : Fine env noCpi (closable wallet) (closeMetas (K 20)) closeIx := by
    refine ⟨?_, ?_, ?_⟩
    · intro s r es
      refine ⟨fun k => ⟨(hmem k).1, by have := (hmem k).2; omega⟩, (by intro _ _ _ h; cases h), by decide, by decide, ?_⟩
      intro h
      rw [hfirst es] at h; cases h
    · intro s r w' es hw
      rw [hfirst es] at hw
      rw [hw.unique hwal]
      decide
    · intro _ _ _ _ _ _ _ h _ _
      exact absurd h (by decide)
  refine ⟨m'.purge, hwal, hx, hpos, .trans (.request (fun a ix b ho h => (by cases h)) trivial hf ?_ h1) (.purged _), ⟨by rw [hp]; exact h4, by rw [hp]; exact h3⟩,
    by rw [hp]; exact h2, ?_⟩
  · refine ⟨rfl, fun a b h => by simp only [env]; omega, (fun _ _ _ _ h => (by cases h)), fun k => (hmem k).2, ?_⟩
    intro a rest es
    rw [hfirst es]
    unfold Exempt
    simp only [hx, Nat.le_refl]
  · unfold Mem.purge
    rw [if_pos h5]

end Sample
end Verif
