import Verif.Props.Wait
import Verif.Proofs.Refill
import Verif.Props.Lifetime

/-!
# A recurring limit comes back in full (C123)

Whatever a role spent, once more than the window of a recurring limit has passed since it was last refilled, the role may again do everything it could do
when the limit was new: any request that was accepted with the limits as they were is accepted with the used ones.  `Recovered` is in Verif/Spec/Wait.lean.
-/

namespace Verif
open Client

section
variable {env : Env} {cpi : Cpi} {m : Mem} {swig : Meta} {rest : List Meta} {ix : Bytes} {w : Wallet} {r : Role} {t : Nat}

theorem setActions_scopeOn_same {id : Nat} {acts : List Act} (hr : w.role? id = some r)
    (hp : ∀ k, payload? acts P.programScope k = payload? r.actions P.programScope k) (k : Key) : (w.setActions id acts).scopeOn k = w.scopeOn k := by
  unfold Wallet.scopeOn
  have e : ∀ j, ((w.setActions id acts).role? j).bind (fun r => payload? r.actions P.programScope k) =
      (w.role? j).bind fun r => payload? r.actions P.programScope k := by
    intro j
    by_cases hj : j = id
    · subst hj
      rw [setActions_role j acts hr, hr]
      exact hp k
    · have := mapRole_find w id j (fun r => { r with actions := acts }) (fun _ => rfl)
      unfold Wallet.setActions
      rw [this]
      cases h : w.role? j with
      | none => rfl
      | some q =>
        have hq : q.id = j := by simpa using List.find?_some h
        simp [hq, hj]
  simp only [e]
  rfl

theorem Better.refl (acts : List Act) : Better acts acts :=
  ⟨acts, [], by simp, by induction acts with | nil => exact .nil | cons x l ih => exact .cons (.inl rfl) ih, by simp⟩

/-- A request that is accepted with the permissions of the role as they are is accepted at a later slot with the permissions `acts`, which differ in recurring
limits only: those that differ have been used since, and more than their window has passed since they were last refilled.  Assumed: as for C122, and the called
programs do not look into the configuration account, which is the only difference between the two ledgers. -/
theorem C123_comes_back {acts : List Act} (ho : Open m swig.key w) (hl : (swig :: rest).length ≤ 254) (hi : rd ix 0 2 = 11)
    (hk : ∀ a ∈ swig :: rest, a.key.length = 32) (hkeep : cpi.Keeps swig.key) (hblind : cpi.Blind swig.key) (hsys : swig.key ≠ instructionsSysvarId)
    (hr : w.role? (rd ix 4 4) = some r) (ha : Ageless r t) (hin : InTime env.slot r.actions) (hs : env.slot ≤ t) (ht : t < 2 ^ 64)
    (hb : All2 (Recovered t) r.actions acts) (hw : (w.setActions (rd ix 4 4) acts).WF) (h : Accepted env cpi m (swig :: rest) ix) :
    Accepted { env with slot := t } cpi (m.setData swig.key (w.setActions (rd ix 4 4) acts).encode) (swig :: rest) ix := by
  have hwait := Recovered.waits hs ht hin hb
  have hr2 := setActions_role (rd ix 4 4) acts hr
  have ho2 : Open (m.setData swig.key (w.setActions (rd ix 4 4) acts).encode) swig.key (w.setActions (rd ix 4 4) acts) :=
    ⟨by rw [Mem.setData_owner]; exact ho.owner, hw, Mem.setData_data ..⟩
  have hsc := setActions_scopeOn_same hr (Recovered.scope hb)
  have hset : ∀ d : Bytes, ((m.setData swig.key (w.setActions (rd ix 4 4) acts).encode).setData swig.key d) =
      (m.setData swig.key (w.used (rd ix 4 4)).encode).setData swig.key d := by
    intro d
    funext x
    unfold Mem.setData Mem.set
    by_cases h : x = swig.key <;> simp [h]
  have speaks : Speaks env m (swig :: rest) w (rd ix 4 4) (ix.drop (8 + rd ix 2 2)) (innerBytes ix) r →
      Speaks { env with slot := t } (m.setData swig.key (w.setActions (rd ix 4 4) acts).encode) (swig :: rest) (w.setActions (rd ix 4 4) acts) (rd ix 4 4)
        (ix.drop (8 + rd ix 2 2)) (innerBytes ix) { r with actions := acts } := by
    intro h3
    refine ⟨hr2, ?_⟩
    rw [Mem.setData_other _ _ (Ne.symm hsys)]
    exact (h3.wait ha).2
  have holds : ∀ ty, ({ r with actions := acts } : Role).holds ty ↔ r.holds ty := fun ty => has_wait hwait
  by_cases free : r.holds P.all ∨ r.holds P.allButManageAuthority
  · have hf : ∀ q, w.role? (rd ix 4 4) = some q → q.holds P.all ∨ q.holds P.allButManageAuthority := fun q hq => by rw [hr] at hq; cases hq; exact free
    have hf2 : ∀ q, (w.setActions (rd ix 4 4) acts).role? (rd ix 4 4) = some q → q.holds P.all ∨ q.holds P.allButManageAuthority := by
      intro q hq
      rw [hr2] at hq
      cases hq
      rw [holds, holds]
      exact free
    obtain ⟨wallet, x3, more, r', ixs, h1, h2, h3, h4, h5, h6, h7, m', h8⟩ := (C114_sign_free ho hl hi hf).mp h
    have e := h6.1
    rw [hr] at e
    cases e
    refine (C114_sign_free (env := { env with slot := t }) ho2 hl hi hf2).mpr ⟨wallet, x3, more, _, ixs, h1, h2, h3, by rw [Mem.setData_owner]; exact h4,
      h5.same ho.owner hsc, speaks h6, h7, m'.setData swig.key ((w.setActions (rd ix 4 4) acts).used (rd ix 4 4)).encode, ?_⟩
    rw [execAll_slot, hset]
    exact (execAll_blind hblind _ h8).1
  · have lim : ∀ q, w.role? (rd ix 4 4) = some q → ¬ q.holds P.all ∧ ¬ q.holds P.allButManageAuthority := by
      intro q hq
      rw [hr] at hq
      cases hq
      exact ⟨fun x => free (.inl x), fun x => free (.inr x)⟩
    have lim2 : ∀ q, (w.setActions (rd ix 4 4) acts).role? (rd ix 4 4) = some q → ¬ q.holds P.all ∧ ¬ q.holds P.allButManageAuthority := by
      intro q hq
      rw [hr2] at hq
      cases hq
      rw [holds, holds]
      exact ⟨fun x => free (.inl x), fun x => free (.inr x)⟩
    obtain ⟨wallet, x3, more, r', ixs, h1, h2, h3, h4, h5, h6, h7, m', h8⟩ := (C114_sign_limited ho hl hi lim hk hkeep).mp h
    have e := h6.1
    rw [hr] at e
    cases e
    refine (C114_sign_limited (env := { env with slot := t }) ho2 hl hi lim2 hk hkeep).mpr ⟨wallet, x3, more, _, ixs, h1, h2, h3, by rw [Mem.setData_owner]; exact h4,
      h5.same ho.owner hsc, speaks h6, h7, m'.setData swig.key ((w.setActions (rd ix 4 4) acts).used (rd ix 4 4)).encode, ?_⟩
    rw [hset]
    have hne : wallet.key ≠ swig.key := by
      intro e
      rw [e, ho.owner] at h4
      exact absurd h4 (by decide +kernel)
    have h9 := h8.waitTo (Nat.lt_of_le_of_lt hs ht) ht hwait (Recovered.scope hb)
    exact h9.better (env := { env with slot := t }) ht (by rw [Mem.setData_owner]; exact ho.owner) hsc hne hblind (Better.refl acts)

/-- All recurring limits of the role were last refilled by slot `s`, and their windows, counted from there, are over before slot `t`.  Then at `t` the role may do
all it could do with any other amounts left: every request that would be accepted at some slot up to `t` if `acts` were the permissions of the role is accepted at `t` with
its permissions as they are. -/
theorem C123_ready {s : Nat} {acts : List Act} (ho : Open m swig.key w) (hl : (swig :: rest).length ≤ 254) (hi : rd ix 0 2 = 11)
    (hk : ∀ a ∈ swig :: rest, a.key.length = 32) (hkeep : cpi.Keeps swig.key) (hblind : cpi.Blind swig.key) (hsys : swig.key ≠ instructionsSysvarId)
    (hr : w.role? (rd ix 4 4) = some r) (ha : Ageless r t) (hin : InTime s r.actions) (hd : ReadyBy s t r.actions) (hs : env.slot ≤ t) (ht : t < 2 ^ 64)
    (hb : All2 Restored acts r.actions) (hin0 : InTime env.slot acts) (hw : (w.setActions (rd ix 4 4) acts).WF)
    (h : Accepted env cpi (m.setData swig.key (w.setActions (rd ix 4 4) acts).encode) (swig :: rest) ix) :
    Accepted { env with slot := t } cpi m (swig :: rest) ix := by
  have ho0 : Open (m.setData swig.key (w.setActions (rd ix 4 4) acts).encode) swig.key (w.setActions (rd ix 4 4) acts) :=
    ⟨by rw [Mem.setData_owner]; exact ho.owner, hw, Mem.setData_data ..⟩
  have hself : (w.setActions (rd ix 4 4) acts).setActions (rd ix 4 4) r.actions = w := by
    have e : (w.setActions (rd ix 4 4) acts).setActions (rd ix 4 4) r.actions = w.setActions (rd ix 4 4) r.actions := by
      unfold Wallet.setActions Wallet.mapRole
      simp only [List.map_map]
      congr 1
      apply List.map_congr_left
      intro q _
      by_cases hq : q.id = rd ix 4 4 <;> simp [hq]
    rw [e, setActions_self ho.wf hr]
  have hmem : (m.setData swig.key (w.setActions (rd ix 4 4) acts).encode).setData swig.key w.encode = m := by
    funext x
    by_cases hx : x = swig.key
    · subst hx
      have := ho.data
      simp only [Mem.setData, Mem.set, if_pos]
      rw [← this]
    · simp [Mem.setData, Mem.set, hx]
  have := C123_comes_back ho0 hl hi hk hkeep hblind hsys (setActions_role (rd ix 4 4) acts hr) ha hin0 hs ht (Restored.recovered hin hd hb)
    (by rw [hself]; exact ho.wf) h
  rw [hself, hmem] at this
  exact this

/-- Nothing a role spends puts this off: whatever history of signings by the role, each at a slot up to `s`, and of other requests that do not update or remove the role,
its recurring limits are in order at `s` and ready by `t` afterwards if they were so before. -/
theorem C123_history {k : Key} {id s : Nat} {m' : Mem} {es : List Signing} (ho : Open m k w) (hr : w.role? id = some r) (hres : Restricted r)
    (h : Spending k id m es m') (hs : ∀ e ∈ es, e.env.slot ≤ s) (h64 : s < 2 ^ 64) (hin : InTime s r.actions) (hd : ReadyBy s t r.actions) :
    IsClosed m' k ∨ ∃ w' r', Open m' k w' ∧ w'.role? id = some r' ∧ InTime s r'.actions ∧ ReadyBy s t r'.actions := by
  induction h generalizing w r with
  | nil => exact .inr ⟨w, r, ho, hr, hin, hd⟩
  | other hb hrest ih =>
    rcases quiet ho hr hb with hc | ⟨w', r', h1, h2, h3⟩
    · have hes := hrest.closed hc
      left
      clear ih hs hb
      induction hrest with
      | nil => exact hc
      | other hb' hrest' ih' => exact ih' (between_closed hb' hc) hes
      | sign => cases hes
    · obtain ⟨k1, k2⟩ := kept_limits h3 hin hd
      exact ih h1 h2 (restricted_limits h3 hres) hs k1 k2
  | @sign e es c hb hrest ih =>
    obtain ⟨w', r', h1, h2, h3, h4⟩ := hb.after ho hr hres
    obtain ⟨ixs, m1, g1, g2 | ⟨x, cls, hsn, total, acc, as', o⟩⟩ := (hb.restricted ho hr hres).out
    · exact (hb.noClash ho g1 g2).elim
    · have e1 := hb.same h1 h2 o.stored
      have hacts : as' = r'.actions := by rw [← e1]
      obtain ⟨k1, k2⟩ := o.plays.kept (hb.restricted ho hr hres).acts (hs e (List.mem_cons_self ..)) h64 hin hd
      rw [hacts] at k1 k2
      exact ih h1 h2 h3 (fun e he => hs e (List.mem_cons_of_mem _ he)) k1 k2

end

section
open Sample

namespace Sample

/-- Leave to pay 500 lamports in any 100 slots, unused. -/
def newActs : List Act := [⟨P.programAll, []⟩, (Action.solRecurringLimit 500 100 0 500).toAct]

/-- The same in slot 250, when all of it was spent since slot 200. -/
def emptyActs : List Act := [⟨P.programAll, []⟩, (Action.solRecurringLimit 500 100 200 0).toAct]

end Sample

/-- The hypotheses are met, and the conclusion is not trivial: with nothing left no lamport can be paid in slot 300, and 500 in slot 301. -/
example : Open (signMem newActs) (K 1) (signWallet newActs) ∧ (signSwig :: signAddr :: signRest).length ≤ 254 ∧
    (∀ a ∈ signSwig :: signAddr :: signRest, a.key.length = 32) ∧ plainPay.Keeps (K 1) ∧ plainPay.Blind (K 1) ∧ Ageless ⟨1, 1, K 11, newActs⟩ 301 ∧
    InTime signEnv.slot newActs ∧ All2 (Recovered 301) newActs emptyActs ∧ ((signWallet newActs).setActions 1 emptyActs).WF ∧
    Accepted signEnv plainPay (signMem newActs) (signSwig :: signAddr :: signRest) (signIx [paySol 500]) ∧
    ¬ Accepted { signEnv with slot := 300 } plainPay ((signMem newActs).setData (K 1) ((signWallet newActs).setActions 1 emptyActs).encode)
      (signSwig :: signAddr :: signRest) (signIx [paySol 1]) ∧
    Accepted { signEnv with slot := 301 } plainPay ((signMem newActs).setData (K 1) ((signWallet newActs).setActions 1 emptyActs).encode)
      (signSwig :: signAddr :: signRest) (signIx [paySol 500]) := by
  have rej : ∀ {env cpi m metas ix}, ok (process env cpi m metas ix) = false → ¬ Accepted env cpi m metas ix := by
    rintro env cpi m metas ix h ⟨m', e⟩
    rw [e] at h
    cases h
  refine ⟨⟨by decide +kernel, by decide +kernel, by decide +kernel⟩, by decide +kernel, by decide +kernel, plainPay_keeps _, plainPay_blind _, .inl rfl, ?_,
    .cons (.inl rfl) (.cons (.inr ⟨.solRecurringLimit 500 100 0 500, .solRecurringLimit 500 100 200 0, by decide, by decide,
      .sol (by decide) (by decide) (by decide) (by decide), rfl, rfl⟩) .nil), by decide +kernel, exists_of_ok (by decide +kernel), rej (by decide +kernel),
    exists_of_ok (by decide +kernel)⟩
  intro a ha hm
  rcases List.mem_cons.mp hm with e | e
  · have : a = .programAll := toAct_inj ha (by decide) e
    subst this
    trivial
  · have : a = .solRecurringLimit 500 100 0 500 := toAct_inj ha (by decide) (List.mem_singleton.mp e)
    subst this
    exact ⟨by decide, by decide⟩

/-- The hypotheses of C123_ready are met: the role with nothing left, compared with the new limit. -/
example : Open (signMem emptyActs) (K 1) (signWallet emptyActs) ∧ InTime 250 emptyActs ∧ ReadyBy 200 301 emptyActs ∧ All2 Restored newActs emptyActs ∧
    InTime signEnv.slot newActs ∧ ((signWallet emptyActs).setActions 1 newActs).WF ∧
    Accepted signEnv plainPay ((signMem emptyActs).setData (K 1) ((signWallet emptyActs).setActions 1 newActs).encode) (signSwig :: signAddr :: signRest)
      (signIx [paySol 500]) := by
  have only : ∀ {r c : Nat} (a : Action), a.InRange → r < 2 ^ 64 → c < 2 ^ 64 →
      a.toAct ∈ ([⟨P.programAll, []⟩, (Action.solRecurringLimit 500 100 r c).toAct] : List Act) → a = .programAll ∨ a = .solRecurringLimit 500 100 r c := by
    intro r c a ha hr hc hm
    rcases List.mem_cons.mp hm with e | e
    · exact .inl (toAct_inj ha (by decide) e)
    · exact .inr (toAct_inj ha ⟨by decide, by decide, hr, hc⟩ (List.mem_singleton.mp e))
  refine ⟨⟨by decide +kernel, by decide +kernel, by decide +kernel⟩, ?_, ?_, .cons (.inl rfl) (.cons (.inr ⟨.solRecurringLimit 500 100 0 500,
    .solRecurringLimit 500 100 200 0, by decide, by decide, .sol (by decide), rfl, rfl⟩) .nil), ?_, by decide +kernel, exists_of_ok (by decide +kernel)⟩
  · intro a ha hm
    rcases only a ha (by decide) (by decide) hm with rfl | rfl
    · trivial
    · exact ⟨by decide, by decide⟩
  · intro a ha hm
    rcases only a ha (by decide) (by decide) hm with rfl | rfl
    · trivial
    · exact ⟨by decide, by decide⟩
  · intro a ha hm
    rcases only a ha (by decide) (by decide) hm with rfl | rfl
    · trivial
    · exact ⟨by decide, by decide⟩

/-- Those of C123_history are met: two signings in slot 100 use up recurring limits of 500 lamports and 100 tokens in any 10 slots, which are back in slot 111. -/
example : (∃ m1 m2, Open (signMem acts2) (K 1) (signWallet acts2) ∧ Spending (K 1) 1 (signMem acts2)
      [⟨signEnv, demoCpi, signMem acts2, m1, signSwig, signAddr, signRest, signIx [paySol 300, payToken 70]⟩,
        ⟨signEnv, demoCpi, signMem acts2', m2, signSwig, signAddr, signRest, signIx [payToken 30, paySol 200]⟩] m2 ∧
    (m1 (K 2)).lamports + 300 = (signMem acts2 (K 2)).lamports) ∧ signEnv.slot ≤ 100 ∧ InTime 100 acts2 ∧ ReadyBy 100 111 acts2 := by
  have only : ∀ a : Action, a.InRange → a.toAct ∈ acts2 →
      a = .solRecurringLimit 500 10 0 200 ∨ a = .tokenRecurringLimit (K 50) 10 100 20 0 ∨ a = .programAll := by
    intro a ha hm
    have e : acts2 = [(Action.solRecurringLimit 500 10 0 200).toAct, (Action.tokenRecurringLimit (K 50) 10 100 20 0).toAct, Action.programAll.toAct] := by
      decide +kernel
    rw [e] at hm
    rcases List.mem_cons.mp hm with e | hm
    · exact .inl (toAct_inj ha (by decide) e)
    · rcases List.mem_cons.mp hm with e | hm
      · exact .inr (.inl (toAct_inj ha (by decide +kernel) e))
      · exact .inr (.inr (toAct_inj ha (by decide) (List.mem_singleton.mp hm)))
  refine ⟨spending2 (acts' := acts2') (fun m1 _ => (m1 (K 2)).lamports + 300 = (signMem acts2 (K 2)).lamports) (by decide +kernel) (by decide +kernel),
    by decide, ?_, ?_⟩
  · intro a ha hm
    rcases only a ha hm with rfl | rfl | rfl
    · exact ⟨by decide, by decide⟩
    · exact ⟨by decide, by decide⟩
    · trivial
  · intro a ha hm
    rcases only a ha hm with rfl | rfl | rfl
    · exact ⟨by decide, by decide⟩
    · exact ⟨by decide, by decide⟩
    · trivial

end

end Verif
