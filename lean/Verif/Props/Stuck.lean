import Verif.Props.ClientMore
import Verif.Props.ClientRefused
import Verif.Props.Lifetime

/-!
# Property C78: managing a role that has been used

Adding permissions to a role, removing some of them and creating V2 sub-accounts check every permission the role keeps with the
conditions for permissions newly submitted (Verif/Spec/Wallet.lean, `Act.Fresh`).
-/

namespace Verif
open Client

/-- A permission that has been used: a recurring SOL or stake limit (amount, window, last reset, remaining), a recurring token limit (mint,
window, amount, remaining, last reset) that is not full or has been refilled once, a V1 sub-account that has been created. -/
def Act.Spent (a : Act) : Prop :=
  ((a.ty = P.solRecurringLimit ∨ a.ty = P.stakeRecurringLimit) ∧ (rd a.data 24 8 ≠ rd a.data 0 8 ∨ rd a.data 16 8 ≠ 0)) ∨
  (a.ty = P.tokenRecurringLimit ∧ (rd a.data 48 8 ≠ rd a.data 40 8 ∨ rd a.data 56 8 ≠ 0)) ∨
  (a.ty = P.subAccount ∧ a.data.take 32 ≠ zeros 32)

instance (a : Act) : Decidable a.Spent := by unfold Act.Spent; infer_instance

theorem Act.Spent.not_fresh {a : Act} (h : a.Spent) : ¬ a.Fresh := by
  rintro ⟨_, h1, h2, _, _, h5⟩
  rcases h with ⟨h, e⟩ | ⟨h, e⟩ | ⟨h, e⟩
  · obtain ⟨k1, k2⟩ := h1 h
    rcases e with e | e
    · exact e (congrArg leNat k1)
    · exact e ((congrArg leNat k2).trans (leNat_zeros 8))
  · obtain ⟨k1, k2⟩ := h2 h
    rcases e with e | e
    · exact e (congrArg leNat k1)
    · exact e ((congrArg leNat k2).trans (leNat_zeros 8))
  · exact e (by simpa [sl] using h5 h)

theorem manageBy_data (env : Env) (swig payer : Key) (data : Bytes) (c : Caller) : ∃ payload, (manageBy env swig payer data c).data = data ++ payload := by
  cases c <;> exact ⟨_, rfl⟩

/-- Every request to add permissions to a role, or to remove some of its permissions, is refused when the role keeps a used one; only
replacing all permissions is left. -/
theorem C78_refused {env : Env} {cpi : Cpi} {m : Mem} {metas : List Meta} {swig payer : Key} {w : Wallet} {acting target : Nat}
    {t : Role} {x : Act} {ch : Client.Change} {c : Caller} (hw : w.WF) (hd : (m swig).data = w.encode) (ht : w.role? target = some t)
    (hacc : Promoted (updateAuthority env swig payer acting target ch c).accounts metas)
    (hin : ∀ x ∈ ch.acts, x.InRange) (hix : ∀ i ∈ ch.indices, i < 2 ^ 16) (hlen : ch.bytes.length < 2 ^ 16)
    (ha : acting < 2 ^ 32) (hx : x ∈ ch.result t.actions) (hs : x.Spent) :
    ∃ e, process env cpi m metas (updateAuthority env swig payer acting target ch c).data = .error e := by
  cases hp : process env cpi m metas (updateAuthority env swig payer acting target ch c).data with
  | error e => exact ⟨e, rfl⟩
  | ok m' =>
    exfalso
    obtain ⟨payload, e⟩ := manageBy_data env swig payer (Client.updateData acting target ch) c
    obtain ⟨s, p, y, rest, rfl, hrest, k1, _⟩ := manageBy_accounts hacc
    subst k1
    rw [show (updateAuthority env s.key payer acting target ch c).data = _ from e] at hp
    obtain ⟨cls, hp⟩ := process_dispatch hp
    rw [dispatch, if_neg (by simp [Client.updateData]), show rd (Client.updateData acting target ch ++ payload) 0 2 = 3 by
      simp only [Client.updateData, List.append_assoc]; exact rd_here 2 3 _ (by decide)] at hp
    have hparse := parseUpdate_built (payload := payload) ha (acting_lt hw ht) hlen (fun is h => by subst h; exact hix)
    obtain ⟨a, r, t', as, g1, _, _, g4, g5, g6, _⟩ := updateAuthorityV1_enc hw hd (show updateAuthorityV1 env m _ _ = .ok m' from hp)
    rw [hparse] at g1
    cases g1
    rw [ht] at g4
    cases g4
    rw [op_result_unique hin g5] at g6
    exact hs.not_fresh (g6 x hx)

theorem createSubV2_fresh {env : Env} {m m' : Mem} {swig payer state sub sys : Meta} {rest : List Meta} {ix : Bytes} {w : Wallet} {r : Role}
    (hw : w.WF) (hd : (m swig.key).data = w.encode) (hr : w.role? (rd ix 4 4) = some r)
    (hn : ¬ r.Scoped P.subAccountV2All false w.subCounter)
    (h : createSubV2 env m (swig :: payer :: state :: sub :: sys :: rest) ix = .ok m') : ∀ x ∈ r.actions, x.Fresh := by
  simp only [createSubV2] at h
  obtain ⟨_, ho, h⟩ := bind_ok_iff.mp h
  obtain ⟨_, hso, h⟩ := bind_ok_iff.mp h
  obtain ⟨_, hao, h⟩ := bind_ok_iff.mp h
  obtain ⟨_, _, h⟩ := bind_ok_iff.mp h
  obtain ⟨_, _, h⟩ := bind_ok_iff.mp h
  obtain ⟨_, _, h⟩ := bind_ok_iff.mp h
  have ho := require_ok_iff.mp ho
  have hso := require_ok_iff.mp hso
  have hne : state.key ≠ swig.key := by
    intro e
    rw [e, ho] at hso
    exact absurd hso (by decide)
  obtain ⟨⟨p, id, granted⟩, hdr, h⟩ := bind_ok_iff.mp h
  obtain ⟨r', hr1, hr2, hr3, hr4, rfl, hr6, rfl⟩ := drawSubId_enc hw hd hdr
  obtain rfl : r' = r := Option.some.inj (hr1.1.symm.trans hr)
  simp only [Wallet.parts_bytes] at h
  obtain ⟨b1, hb1, h⟩ := bind_ok_iff.mp h
  obtain ⟨b2, hb2, h⟩ := bind_ok_iff.mp h
  obtain ⟨m1, hm1, h⟩ := bind_ok_iff.mp h
  obtain ⟨m2, hm2, h⟩ := bind_ok_iff.mp h
  obtain ⟨m3, hm3, hfin⟩ := bind_ok_iff.mp h
  have f1 := fundState_data hm1
  have e2 := sysAllocAssign_ok hm2
  have f3 := fundWallet_data (show fundWallet env _ payer sub = .ok m3 from hm3)
  subst e2
  have hw1 : (w.used (rd ix 4 4)).drawn.WF := Wallet.drawn_wf (Wallet.used_wf hw _) hr4
  have hrole : (w.used (rd ix 4 4)).drawn.role? (rd ix 4 4) = some { r' with auth := usedCred r'.authType r'.auth } := by
    have : (w.used (rd ix 4 4)).role? (rd ix 4 4) = _ := Wallet.used_find w _ _
    show (w.used (rd ix 4 4)).role? (rd ix 4 4) = _
    rw [this, hr1.1]
    simp [(role?_mem hr1.1).2]
  have g1 : (m3 swig.key).data = (w.used (rd ix 4 4)).drawn.encode := by
    rw [(f3 swig.key).1, Mem.setData_other _ _ hne.symm, Mem.set_other _ _ hne.symm, (f1 swig.key).1]
    simp
  unfold grantAll at hfin
  have hgr : ¬ granted = true := by rw [hr6, decide_eq_true_iff]; exact hn
  rw [if_neg hgr] at hfin
  obtain ⟨t, extra, k1, _, k3, _⟩ := appendActions_enc hw1 g1 hfin
  rw [hrole] at k1
  cases k1
  exact fun x hx => k3 x (List.mem_append_left _ hx)

/-- Every request of a role to create a V2 sub-account is refused when one of its permissions has been used (unless the role already holds
the permission All for the sub-account to be created). -/
theorem C78_refused_create {env : Env} {cpi : Cpi} {m : Mem} {metas : List Meta} {swig payer state sub : Key} {w : Wallet} {role : Nat}
    {r : Role} {x : Act} {sb ab : UInt8} {c : Caller} {b : Built} (hw : w.WF) (hd : (m swig).data = w.encode) (hr : w.role? role = some r)
    (hb : Client.createSubV2 env swig payer state sub role sb ab c = some b) (hacc : Promoted b.accounts metas)
    (hn : ¬ ∃ a ∈ r.actions, a.ty = P.subAccountV2All ∧ leNat (a.data.take 4) = w.subCounter) (hx : x ∈ r.actions) (hs : x.Spent) :
    ∃ e, process env cpi m metas b.data = .error e := by
  cases hp : process env cpi m metas b.data with
  | error e => exact ⟨e, rfl⟩
  | ok m' =>
    exfalso
    obtain ⟨payload, e⟩ : ∃ payload, b.data = createSubV2Data role sb ab ++ payload := by
      cases c <;> cases hb <;> exact ⟨_, rfl⟩
    obtain ⟨tl, e2⟩ : ∃ tl, b.accounts = Client.w swig :: ws payer :: Client.w state :: Client.w sub :: ro systemId :: tl := by
      cases c <;> cases hb <;> exact ⟨_, rfl⟩
    rw [e2] at hacc
    obtain ⟨s, rest, rfl, k1, _, _, hacc⟩ := hacc.cons
    obtain ⟨p, rest, rfl, k2, _, _, hacc⟩ := hacc.cons
    obtain ⟨x3, rest, rfl, k3, _, _, hacc⟩ := hacc.cons
    obtain ⟨x4, rest, rfl, k4, _, _, hacc⟩ := hacc.cons
    obtain ⟨x5, rest, rfl, k5, _, _, hacc⟩ := hacc.cons
    have k1 : s.key = swig := k1
    subst k1
    rw [e] at hp
    obtain ⟨cls, hp⟩ := process_dispatch hp
    rw [dispatch, if_neg (by simp [createSubV2Data]), show rd (createSubV2Data role sb ab ++ payload) 0 2 = 18 by
      simp only [createSubV2Data, List.append_assoc]; exact rd_here 2 18 _ (by decide)] at hp
    have r4 : rd (createSubV2Data role sb ab ++ payload) 4 4 = role := by
      have := rd_full 4 role (by simpa using acting_lt hw hr) (natLE 2 18 ++ zeros 2) ([sb] ++ [ab] ++ zeros 6 ++ payload) (i := 4) (by simp)
      simpa [List.append_assoc, createSubV2Data] using this
    refine hs.not_fresh (createSubV2_fresh hw hd (by rw [r4]; exact hr) ?_ (show Verif.createSubV2 env m _ _ = .ok m' from hp) x hx)
    rintro ⟨a, ha, h1⟩
    exact hn ⟨a, ha, by simpa using h1⟩

/-! ## Paying makes a role unmanageable -/

/-- A recurring SOL limit that is not full or has been refilled. -/
def SolRecurringLimit.Used (l : SolRecurringLimit) : Prop := l.currentAmount ≠ l.recurringAmount ∨ l.lastReset ≠ 0

theorem solRec_used {l l' : SolRecurringLimit} {c : Charge} (h : l.charge c = .ok l') (hc : l.currentAmount ≤ l.recurringAmount) :
    l'.currentAmount ≤ l'.recurringAmount ∧ (0 < c.amount ∨ l.Used → l'.Used) := by
  unfold SolRecurringLimit.charge SolRecurringLimit.run at h
  obtain ⟨l1, e1, h⟩ := bind_ok_iff.mp h
  unfold SolRecurringLimit.refill at e1
  split at h
  · cases h
  · cases h
    rename_i hle
    split at e1
    · rename_i hg
      split at e1
      · cases e1
      · rename_i hw
        cases e1
        refine ⟨by dsimp only; omega, fun _ => .inr ?_⟩
        have h1 : 1 ≤ c.slot / l.window := (Nat.le_div_iff_mul_le (by omega)).mpr (by omega)
        have h2 : 0 < c.slot / l.window * l.window := Nat.mul_pos (by omega) (by omega)
        dsimp only
        omega
    · cases e1
      refine ⟨by dsimp only; omega, ?_⟩
      rintro (h | h | h)
      · exact .inl (by dsimp only at hle ⊢; omega)
      · exact .inl (by dsimp only at hle ⊢; omega)
      · exact .inr h

theorem play_len {σ ι : Type} (run : σ → ι → R σ) : ∀ (is : List ι) (s : σ), (play run s is).2.length ≤ is.length := by
  intro is
  induction is with
  | nil => intro s; exact Nat.le_refl 0
  | cons i is ih =>
    intro s
    unfold play
    split
    · exact Nat.succ_le_succ (ih _)
    · exact Nat.le_succ_of_le (ih _)

theorem solRec_play_used : ∀ (cs : List Charge) {l l' : SolRecurringLimit}, play SolRecurringLimit.charge l cs = (l', cs) →
    l.currentAmount ≤ l.recurringAmount → 0 < Charge.total cs ∨ l.Used → l'.Used := by
  intro cs
  induction cs with
  | nil =>
    intro l l' h _ hp
    cases h
    exact hp.resolve_left (by simp [Charge.total])
  | cons c cs ih =>
    intro l l' h hc hp
    unfold play at h
    split at h
    · rename_i l1 h1
      obtain ⟨g1, g2⟩ := solRec_used h1 hc
      have e : play SolRecurringLimit.charge l1 cs = (l', cs) := by
        have a := congrArg Prod.fst h
        have b := congrArg Prod.snd h
        exact Prod.ext a (List.cons.inj b).2
      refine ih e g1 ?_
      rcases hp with hp | hp
      · by_cases h0 : 0 < c.amount
        · exact .inr (g2 (.inl h0))
        · left
          unfold Charge.total at hp ⊢
          rw [List.map_cons, List.sum_cons] at hp
          omega
      · exact .inr (g2 (.inr hp))
    · have b := congrArg (fun x => x.2.length) h
      have := play_len SolRecurringLimit.charge cs l
      simp only [List.length_cons] at b
      omega

theorem payload?_mem {as : List Act} {ty : Nat} {key d : Bytes} (h : payload? as ty key = some d) : ∃ a ∈ as, a.ty = ty ∧ a.data = d := by
  obtain ⟨a, h1, h2⟩ := Option.map_eq_some_iff.mp h
  have h3 : a.grants ty key := by have := List.find?_some h1; exact of_decide_eq_true this
  exact ⟨a, List.mem_of_find?_eq_some h1, h3.1, h2⟩

/-- As soon as a role with a recurring SOL limit has paid anything out of the wallet, every request to add permissions to it is refused, from
whomever, whichever permissions they are (or two versions of the configuration account collide). -/
theorem C78_after_payment {env env2 : Env} {cpi cpi2 : Cpi} {m m' : Mem} {swig wallet : Meta} {rest metas : List Meta} {ix : Bytes} {w : Wallet} {r : Role}
    {payer : Key} {acting : Nat} {acts : List Action} {c : Caller} {d : Bytes}
    (h : RestrictedSign env cpi m m' swig wallet rest ix w r) (hn : r.limit? P.solLimit [] = none) (hl : r.limit? P.solRecurringLimit [] = some d)
    (hc : rd d 24 8 ≤ rd d 0 8) (hpaid : (m' wallet.key).lamports < (m wallet.key).lamports)
    (hacc : Promoted (updateAuthority env2 swig.key payer acting (rd ix 4 4) (.addActions acts) c).accounts metas)
    (hin : ∀ x ∈ acts, x.InRange) (hlen : (writeActions acts).length + 1 < 2 ^ 16) (ha : acting < 2 ^ 32) :
    ∃ ixs m1, AfterCalls env cpi m (swig :: wallet :: rest) swig wallet ix w ixs m1 ∧ (ConfigClash env m m1 swig ix w ∨
      ∃ e, process env2 cpi2 m' metas (updateAuthority env2 swig.key payer acting (rd ix 4 4) (.addActions acts) c).data = .error e) := by
  obtain ⟨ixs, m1, h1, h2 | ⟨w', r', d', cs, ⟨k1, k2, k3⟩, h3, h4, h5, h6⟩⟩ := C52_sol_recurring h hn hl
  · exact ⟨ixs, m1, h1, .inl h2⟩
  · refine ⟨ixs, m1, h1, .inr ?_⟩
    have hu := solRec_play_used cs h4 hc (.inl (by omega))
    obtain ⟨x, x1, x2, x3⟩ := payload?_mem h3
    refine C78_refused (ch := .addActions acts) (x := x) k1 k2 k3 hacc hin (by intro i hi; cases hi) ?_ ha (List.mem_append_left _ x1) ?_
    · simpa [Change.bytes] using hlen
    · refine .inl ⟨.inl x2, ?_⟩
      rw [x3]
      exact hu

/-! ## Roles that stay manageable -/

theorem solRecDest_run_le {l l' : SolRecurringDestinationLimit} {n s : Nat} (h : l.run n s = .ok l')
    (hc : l.currentAmount ≤ l.recurringAmount) : l'.currentAmount ≤ l.recurringAmount := by
  unfold SolRecurringDestinationLimit.run at h
  dsimp only at h
  split at h
  · split at h
    · cases h
    · cases h; dsimp only; omega
  · split at h
    · cases h
    · cases h; dsimp only; omega

theorem tokenRecDest_run_le {l l' : TokenRecurringDestinationLimit} {n s : Nat} (h : l.run n s = .ok l')
    (hc : l.currentAmount ≤ l.recurringAmount) : l'.currentAmount ≤ l.recurringAmount := by
  unfold TokenRecurringDestinationLimit.run at h
  dsimp only at h
  split at h
  · split at h
    · cases h
    · cases h; dsimp only; omega
  · split at h
    · cases h
    · cases h; dsimp only; omega

theorem chargeFn_fresh {a : Act} {n slot : Nat} {d : Bytes} (hs : slot < 2 ^ 64) (hf : a.Fresh)
    (hn : a.ty ≠ P.solRecurringLimit ∧ a.ty ≠ P.stakeRecurringLimit ∧ a.ty ≠ P.tokenRecurringLimit)
    (h : chargeFn a.ty n slot a.data = .ok d) : ({ a with data := d } : Act).Fresh := by
  obtain ⟨hw, _, _, f4, f5, _⟩ := hf
  have hch := (chargeFn_charged h hw).1
  refine ⟨by unfold Act.WF at hw ⊢; dsimp only; rw [hch.len]; exact hw, ?_, fun e => absurd e hn.2.2, ?_, ?_, ?_⟩
  · rintro (e | e)
    · exact absurd e hn.1
    · exact absurd e hn.2.1
  · intro e
    have e : a.ty = P.solRecurringDestinationLimit := e
    have hl : a.data.length = 64 := by unfold Act.WF at hw; rw [e] at hw; exact (Option.some.inj hw).symm
    rw [e] at h
    obtain ⟨l', g1, rfl⟩ := chargeSolRecDest_ok hl (show chargeSolRecDest n slot a.data = .ok d from h)
    obtain ⟨b1, b2⟩ := solRecDest_run_bounds g1 hs (rd8_lt _ _) (rd8_lt _ _) (rd8_lt _ _)
    obtain ⟨r1, r2⟩ := rd_two (a.data.take 48) l'.lastReset l'.currentAmount (k := 48) (by simp; omega) b1 b2
    obtain ⟨q1, q2⟩ := f4 e
    dsimp only
    rw [rd_pre (k := 48) (i := 40) (by omega) (by omega), rd_pre (k := 48) (i := 32) (by omega) (by omega)]
    refine ⟨q1, Nat.le_trans (Nat.le_of_eq r2) ?_⟩
    exact solRecDest_run_le g1 q2
  · intro e
    have e : a.ty = P.tokenRecurringDestinationLimit := e
    have hl : a.data.length = 96 := by unfold Act.WF at hw; rw [e] at hw; exact (Option.some.inj hw).symm
    rw [e] at h
    obtain ⟨l', g1, rfl⟩ := chargeTokenRecDest_ok hl (show chargeTokenRecDest n slot a.data = .ok d from h)
    obtain ⟨b1, b2⟩ := tokenRecDest_run_bounds g1 hs (rd8_lt _ _) (rd8_lt _ _) (rd8_lt _ _)
    obtain ⟨r1, r2⟩ := rd_two (a.data.take 80) l'.lastReset l'.currentAmount (k := 80) (by simp; omega) b1 b2
    obtain ⟨q1, q2⟩ := f5 e
    dsimp only
    rw [rd_pre (k := 80) (i := 72) (by omega) (by omega), rd_pre (k := 80) (i := 64) (by omega) (by omega)]
    refine ⟨q1, Nat.le_trans (Nat.le_of_eq r2) ?_⟩
    exact tokenRecDest_run_le g1 q2
  · intro e
    have e : a.ty = P.subAccount := e
    rw [e] at h
    cases (show (Except.error _ : R Bytes) = .ok d from h)

theorem plays_fresh {slot : Nat} (hs : slot < 2 ^ 64) {as as' : List Act} {cs : List Chg} (h : Plays slot as cs as') :
    (∀ a ∈ as, a.ty ≠ P.solRecurringLimit ∧ a.ty ≠ P.stakeRecurringLimit ∧ a.ty ≠ P.tokenRecurringLimit) → (∀ a ∈ as, a.Fresh) →
    ∀ a ∈ as', a.Fresh := by
  induction h with
  | nil => exact fun _ h => h
  | cons c h1 _ ih =>
    intro hn hf
    rcases chargeFirst_ok h1 with ⟨e, _⟩ | ⟨ab, a, aa, d, rfl, g1, _, g3, e⟩
    · cases e
    · cases e
      refine ih (fun x hx => ?_) (fun x hx => ?_)
      · rcases List.mem_append.mp hx with hx | hx
        · exact hn x (List.mem_append_left _ hx)
        · rcases List.mem_cons.mp hx with rfl | hx
          · exact hn a (by simp)
          · exact hn x (by simp [hx])
      · rcases List.mem_append.mp hx with hx | hx
        · exact hf x (List.mem_append_left _ hx)
        · rcases List.mem_cons.mp hx with rfl | hx
          · exact chargeFn_fresh hs (hf a (by simp)) (hn a (by simp)) (by rw [g1.1]; exact g3)
          · exact hf x (by simp [hx])

/-- A role without recurring limits for SOL, stake and tokens (those bound to a destination do not matter) keeps permissions that are accepted as new ones when it signs,
whatever it spends (so C70_update applies to it).  Missing: the property for roles with such limits, which is false (`C78_refuted`). -/
theorem C78_stays_manageable_partial {env : Env} {cpi : Cpi} {m m' : Mem} {swig wallet : Meta} {rest : List Meta} {ix : Bytes} {w : Wallet} {r : Role}
    (h : RestrictedSign env cpi m m' swig wallet rest ix w r) (hf : ∀ a ∈ r.actions, a.Fresh)
    (hn : ∀ a ∈ r.actions, a.ty ≠ P.solRecurringLimit ∧ a.ty ≠ P.stakeRecurringLimit ∧ a.ty ≠ P.tokenRecurringLimit) :
    ∃ ixs m1, AfterCalls env cpi m (swig :: wallet :: rest) swig wallet ix w ixs m1 ∧ (ConfigClash env m m1 swig ix w ∨
      ∃ w' r', StoredAs m' swig ix w' r' ∧ ∀ a ∈ r'.actions, a.Fresh) := by
  obtain ⟨ixs, m1, h1, h2 | ⟨x, cls, hs, total, acc, as', o⟩⟩ := h.out
  · exact ⟨ixs, m1, h1, .inl h2⟩
  · exact ⟨ixs, m1, h1, .inr ⟨_, _, o.stored, plays_fresh h.runtime.slot o.plays hn hf⟩⟩

/-! ## The hypotheses are met; the property is false -/

namespace Stuck
open Sample

/-- 500 lamports every 10 slots; may call every program. -/
def actsR : List Act := [⟨2, natLE 8 500 ++ natLE 8 10 ++ natLE 8 0 ++ natLE 8 500⟩, ⟨P.programAll, []⟩]

/-- The owner lets role 1 call program `K 60`. -/
def more : Built := updateAuthority signEnv (K 1) (K 10) 0 1 (.addActions [.program (K 60)]) (.ed25519 (K 10))

/-- The owner takes the permission to call every program from role 1. -/
def less : Built := updateAuthority signEnv (K 1) (K 10) 0 1 (.removeByIndex [1]) (.ed25519 (K 10))

/-- Whether a request is accepted. -/
def accepted (p : R Mem) : Bool := match p with | .ok _ => true | .error _ => false

/-- What holds after a request, `false` if it is refused. -/
def after (p : R Mem) (f : Mem → Bool) : Bool := match p with | .ok m => f m | .error _ => false

theorem accepted_iff {p : R Mem} : accepted p = true ↔ ∃ m, p = .ok m := by
  cases p with
  | ok m => exact ⟨fun _ => ⟨m, rfl⟩, fun _ => rfl⟩
  | error e => exact ⟨fun h => (Bool.noConfusion h), fun ⟨_, h⟩ => nomatch h⟩

theorem not_accepted {p : R Mem} (h : accepted p = false) : ∃ e, p = .error e := by
  cases p with
  | ok m => cases h
  | error e => exact ⟨e, rfl⟩

end Stuck

open Stuck Sample in
/-- The owner can add a permission to role 1 and take one away; after role 1 has paid a single lamport within its recurring limit, the
same two requests are refused. -/
theorem C78_refuted : ∃ (env : Env) (cpi : Cpi) (m paid : Mem) (metas : List Meta) (ix : Bytes) (add remove : Built) (w : Wallet) (t : Role),
    add = updateAuthority env (K 1) (K 10) 0 1 (.addActions [.program (K 60)]) (.ed25519 (K 10)) ∧
    remove = updateAuthority env (K 1) (K 10) 0 1 (.removeByIndex [1]) (.ed25519 (K 10)) ∧
    w.WF ∧ (m (K 1)).data = w.encode ∧ w.role? 1 = some t ∧ t.actions = actsR ∧
    (∃ m', process env cpi m add.accounts add.data = .ok m') ∧ (∃ m', process env cpi m remove.accounts remove.data = .ok m') ∧
    process env cpi m metas ix = .ok paid ∧ (paid (K 2)).lamports + 1 = (m (K 2)).lamports ∧
    (∃ e, process env cpi paid add.accounts add.data = .error e) ∧ ∃ e, process env cpi paid remove.accounts remove.data = .error e := by
  have key : after (runSign actsR [paySol 1]) (fun m => decide ((m (K 2)).lamports + 1 = (signMem actsR (K 2)).lamports) &&
      (!accepted (process signEnv demoCpi m more.accounts more.data) && !accepted (process signEnv demoCpi m less.accounts less.data))) = true := by
    decide +kernel
  unfold after at key
  split at key
  · rename_i paid hp
    simp only [Bool.and_eq_true, Bool.not_eq_true', decide_eq_true_eq] at key
    exact ⟨signEnv, demoCpi, signMem actsR, paid, _, _, more, less, signWallet actsR, _, rfl, rfl, by decide +kernel, by decide +kernel, rfl, rfl,
      accepted_iff.mp (by decide +kernel), accepted_iff.mp (by decide +kernel), hp, key.1, not_accepted key.2.1, not_accepted key.2.2⟩
  · cases key

open Stuck Sample in
/-- The hypotheses of `C78_after_payment` (300 lamports paid) and its conclusion without the collision. -/
example : ∃ m', RestrictedSign signEnv demoCpi (signMem actsR) m' signSwig signAddr signRest (signIx [paySol 300]) (signWallet actsR) ⟨1, 1, K 11, actsR⟩ ∧
    ((m' (K 2)).lamports < (signMem actsR (K 2)).lamports ∧ (m' (K 2)).lamports = 4999999700) :=
  runSign_exists actsR [paySol 300] (fun m' => (m' (K 2)).lamports < (signMem actsR (K 2)).lamports ∧ (m' (K 2)).lamports = 4999999700)
    (by decide +kernel) (by decide +kernel)

open Stuck Sample in
example : ∃ e, process signEnv demoCpi (signMem acts2) more.accounts more.data = .error e :=
  C78_refused (x := ⟨2, natLE 8 500 ++ natLE 8 10 ++ natLE 8 0 ++ natLE 8 200⟩) (w := signWallet acts2) (t := ⟨1, 1, K 11, acts2⟩)
    (by decide +kernel) (by decide +kernel) rfl (promoted_self _) (by decide +kernel) (by decide +kernel) (by decide +kernel)
    (by decide) (by decide +kernel) (by decide +kernel)

open Stuck Sample in
/-- `C78_stays_manageable_partial`: a role with destination limits that pays. -/
example : ∃ m', RestrictedSign signEnv demoCpi (signMem acts3) m' signSwig signAddr signRest (signIx [paySol 300]) (signWallet acts3) ⟨1, 1, K 11, acts3⟩ ∧
    (∀ a ∈ acts3, a.Fresh) ∧ (∀ a ∈ acts3, a.ty ≠ P.solRecurringLimit ∧ a.ty ≠ P.stakeRecurringLimit ∧ a.ty ≠ P.tokenRecurringLimit) ∧
    accepted (process signEnv demoCpi m' more.accounts more.data) = true := by
  obtain ⟨m', h1, h2⟩ := runSign_exists acts3 [paySol 300] (fun m' => accepted (process signEnv demoCpi m' more.accounts more.data) = true)
    (by decide +kernel) (by decide +kernel)
  exact ⟨m', h1, by decide +kernel, by decide +kernel, h2⟩

open Stuck Sample in
/-- The request of role 1 to create a V2 sub-account. -/
example : ∃ b e, Client.createSubV2 signEnv (K 1) (K 11) (K 21) (K 22) 1 254 253 (.ed25519 (K 11)) = some b ∧
    process signEnv demoCpi (signMem (⟨P.subAccountV2Create, []⟩ :: acts2)) b.accounts b.data = .error e := by
  obtain ⟨e, h⟩ := C78_refused_create (env := signEnv) (cpi := demoCpi) (m := signMem (⟨P.subAccountV2Create, []⟩ :: acts2))
    (w := signWallet (⟨P.subAccountV2Create, []⟩ :: acts2)) (r := ⟨1, 1, K 11, ⟨P.subAccountV2Create, []⟩ :: acts2⟩)
    (x := ⟨2, natLE 8 500 ++ natLE 8 10 ++ natLE 8 0 ++ natLE 8 200⟩) (role := 1) (swig := K 1) (payer := K 11) (state := K 21) (sub := K 22)
    (sb := 254) (ab := 253) (c := .ed25519 (K 11)) (by decide +kernel) (by decide +kernel) rfl rfl (promoted_self _) (by decide +kernel)
    (by decide +kernel) (by decide +kernel)
  exact ⟨_, e, rfl, h⟩

end Verif
