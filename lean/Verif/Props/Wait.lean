import Verif.Proofs.Wait
import Verif.Props.More

/-!
# Does waiting take something away? (C122)

A signing request that the program would carry out now should not be refused because it arrives later, as long as nothing else has changed: limits that come
back can only get larger with time.  The claim is made for credentials that do not age themselves (`Ageless`).  It is false of the code (`C122_refuted`): the
program accepts a recurring limit for a destination that says it was last refilled in the future; the time since then is computed modulo 2^64, so the limit is
refilled until that slot is reached, and not after it.  It holds for roles whose recurring limits are in order (`C122_waiting_partial`), and limits in order
stay so whenever they are charged (`C122_stays`, `C122_later`).  `InTime` and `Ageless` are in Verif/Spec/Wait.lean.
-/

namespace Verif
open Client

section
variable {env : Env} {cpi : Cpi} {m : Mem} {swig : Meta} {rest : List Meta} {ix : Bytes} {w : Wallet} {r : Role} {t : Nat}

/-- A signing request that is accepted at one slot is accepted at every later slot by the same ledger, whatever accounts it passes, if the credential does not
age and the recurring limits of the role are in order. -/
theorem C122_waiting_partial (ho : Open m swig.key w) (hl : (swig :: rest).length ≤ 254) (hi : rd ix 0 2 = 11) (hk : ∀ a ∈ swig :: rest, a.key.length = 32)
    (hkeep : cpi.Keeps swig.key) (hr : w.role? (rd ix 4 4) = some r) (ha : Ageless r t) (hin : InTime env.slot r.actions) (hs : env.slot ≤ t) (ht : t < 2 ^ 64)
    (h : Accepted env cpi m (swig :: rest) ix) : Accepted { env with slot := t } cpi m (swig :: rest) ix := by
  by_cases free : r.holds P.all ∨ r.holds P.allButManageAuthority
  · have hf : ∀ q, w.role? (rd ix 4 4) = some q → q.holds P.all ∨ q.holds P.allButManageAuthority := fun q hq => by rw [hr] at hq; cases hq; exact free
    obtain ⟨wallet, x3, more, r', ixs, h1, h2, h3, h4, h5, h6, h7, m', h8⟩ := (C114_sign_free ho hl hi hf).mp h
    have e := h6.1
    rw [hr] at e
    cases e
    exact (C114_sign_free (env := { env with slot := t }) ho hl hi hf).mpr
      ⟨wallet, x3, more, r, ixs, h1, h2, h3, h4, h5, h6.wait ha, h7, m', by rw [execAll_slot]; exact h8⟩
  · have lim : ∀ q, w.role? (rd ix 4 4) = some q → ¬ q.holds P.all ∧ ¬ q.holds P.allButManageAuthority := by
      intro q hq
      rw [hr] at hq
      cases hq
      exact ⟨fun x => free (.inl x), fun x => free (.inr x)⟩
    obtain ⟨wallet, x3, more, r', ixs, h1, h2, h3, h4, h5, h6, h7, m', h8⟩ := (C114_sign_limited ho hl hi lim hk hkeep).mp h
    have e := h6.1
    rw [hr] at e
    cases e
    exact (C114_sign_limited (env := { env with slot := t }) ho hl hi lim hk hkeep).mpr
      ⟨wallet, x3, more, r, ixs, h1, h2, h3, h4, h5, h6.wait ha, h7, m', h8.wait hs ht hin⟩

/-- Limits that are in order stay so as time passes. -/
theorem C122_later {s : Nat} {acts : List Act} (hst : s ≤ t) (h : InTime s acts) : InTime t acts := by
  intro a ha hm
  have := h a ha hm
  cases a with
  | solRecurringDestinationLimit d f w r c => exact ⟨this.1, Nat.le_trans this.2 hst⟩
  | tokenRecurringDestinationLimit m d f w r c => exact ⟨this.1, Nat.le_trans this.2 hst⟩
  | _ => exact this

/-- They stay so when one of them is charged. -/
theorem C122_stays {s n : Nat} {acts acts' : List Act} {lim lim' : Action} (hs : s < 2 ^ 64) (h : InTime s acts) (hsp : Takes acts acts' lim lim' n s) :
    InTime s acts' := by
  obtain ⟨hin, hsp, pre, post, rfl, rfl, _⟩ := hsp
  have h0 : lim.InTime s := h lim hin (by simp)
  have old : ∀ a : Action, a.InRange → a.toAct ∈ pre ∨ a.toAct ∈ post → a.InTime s := fun a ha hm => h a ha (by
    rcases hm with hm | hm <;> simp [hm])
  suffices hnew : lim'.InRange ∧ lim'.InTime s by
    intro a ha hm
    rcases List.mem_append.mp hm with hm | hm
    · exact old a ha (.inl hm)
    · rcases List.mem_cons.mp hm with hm | hm
      · have := toAct_inj ha hnew.1 hm
        subst this
        exact hnew.2
      · exact old a ha (.inr hm)
  have wait : ∀ a : Action, Waits s s a a → a.InRange → ∀ a', a.spend n s = some a' → a'.InRange ∧ ∃ b', Waits s s a' b' := by
    intro a hw ha a' hsp
    obtain ⟨b', _, k1, k2, _⟩ := hw.spend hs hs ha ha hsp
    exact ⟨k2, b', k1⟩
  cases lim with
  | solRecurringLimit f w r c =>
    obtain ⟨k1, b', k2⟩ := wait _ (.sol h0.1 h0.2 h0.2 id fun _ => .inr (Nat.le_refl _)) hin _ hsp
    simp only [Action.spend] at hsp
    split at hsp <;> cases hsp
    cases k2 with
    | sol g1 g2 _ _ _ => exact ⟨k1, g1, g2⟩
  | stakeRecurringLimit f w r c =>
    obtain ⟨k1, b', k2⟩ := wait _ (.stake h0.1 h0.2 h0.2 id fun _ => .inr (Nat.le_refl _)) hin _ hsp
    simp only [Action.spend] at hsp
    split at hsp <;> cases hsp
    cases k2 with
    | stake g1 g2 _ _ _ => exact ⟨k1, g1, g2⟩
  | tokenRecurringLimit m w f c r =>
    obtain ⟨k1, b', k2⟩ := wait _ (.token h0.1 h0.2 h0.2 id fun _ => .inr (Nat.le_refl _)) hin _ hsp
    simp only [Action.spend] at hsp
    split at hsp <;> cases hsp
    cases k2 with
    | token g1 g2 _ _ _ => exact ⟨k1, g1, g2⟩
  | solRecurringDestinationLimit d f w r c =>
    obtain ⟨k1, b', k2⟩ := wait _ (.solDest h0.1 h0.1 id fun _ => .inr (Nat.le_refl _)) hin _ hsp
    have hr := h0.2
    simp only [Action.spend] at hsp
    split at hsp <;> cases hsp
    cases k2 with
    | solDest g1 _ _ _ => exact ⟨k1, g1, by unfold refilledDest; split <;> simp only <;> omega⟩
  | tokenRecurringDestinationLimit m d f w r c =>
    obtain ⟨k1, b', k2⟩ := wait _ (.tokenDest h0.1 h0.1 id fun _ => .inr (Nat.le_refl _)) hin _ hsp
    have hr := h0.2
    simp only [Action.spend] at hsp
    split at hsp <;> cases hsp
    cases k2 with
    | tokenDest g1 _ _ _ => exact ⟨k1, g1, by unfold refilledDest; split <;> simp only <;> omega⟩
  | programScope c l w r p k st nt fs fe =>
    by_cases hst : st % 256 = 2
    · obtain ⟨k1, b', k2⟩ := wait _ (.scope hst (h0 hst) id fun _ => .inr (Nat.le_refl _)) hin _ hsp
      refine ⟨k1, ?_⟩
      cases k2 with
      | scope g1 g2 _ _ => exact fun _ => g2
      | _ => exact absurd (spend_header hsp) (by simp only [Action.header]; decide)
    · obtain ⟨_, k1, k2⟩ := Steady.spend (t := s) (show Steady (.programScope c l w r p k st nt fs fe) from hst) hin hsp
      exact ⟨k2, k1.inTime⟩
  | _ =>
    obtain ⟨_, k1, k2⟩ := Steady.spend (t := s) (by exact trivial) hin hsp
    exact ⟨k2, k1.inTime⟩

end

/-! ## A limit that waiting uses up -/

/-- The claim: waiting does not turn an accepted request into a refused one.  The permissions of the role are such as the program accepts when the role is
created. -/
def WaitingIsFree : Prop :=
  ∀ (env : Env) (cpi : Cpi) (m : Mem) (swig : Meta) (rest : List Meta) (ix : Bytes) (w : Wallet) (r : Role) (t : Nat), Open m swig.key w →
    (swig :: rest).length ≤ 254 → rd ix 0 2 = 11 → (∀ a ∈ swig :: rest, a.key.length = 32) → cpi.Keeps swig.key → w.role? (rd ix 4 4) = some r →
    (∀ x ∈ r.actions, x.Fresh) → Ageless r t → env.slot ≤ t → t < 2 ^ 64 →
    Accepted env cpi m (swig :: rest) ix → Accepted { env with slot := t } cpi m (swig :: rest) ix

section
open Sample

namespace Sample

/-- Leave to pay 500 lamports to `K 40` in any 100 slots, of which nothing is left; last refilled in slot 150. -/
def futureActs : List Act := [⟨P.programAll, []⟩, (Action.solRecurringDestinationLimit (K 40) 500 100 150 0).toAct]

/-- The same with 200 left, last refilled in slot 50. -/
def pastActs : List Act := [⟨P.programAll, []⟩, (Action.solRecurringDestinationLimit (K 40) 500 100 50 200).toAct]

end Sample

/-- Not so: the request is accepted in slot 100 and refused in slot 150. -/
theorem C122_refuted : ¬ WaitingIsFree := by
  intro h
  have hyes : ok (process signEnv plainPay (signMem futureActs) (signSwig :: signAddr :: signRest) (signIx [paySol 100])) = true := by decide +kernel
  have hno : ok (process { signEnv with slot := 150 } plainPay (signMem futureActs) (signSwig :: signAddr :: signRest) (signIx [paySol 100])) = false := by
    decide +kernel
  obtain ⟨m', e⟩ := h signEnv plainPay (signMem futureActs) signSwig (signAddr :: signRest) (signIx [paySol 100]) (signWallet futureActs) ⟨1, 1, K 11, futureActs⟩ 150
    ⟨by decide +kernel, by decide +kernel, by decide +kernel⟩ (by decide +kernel) (by decide +kernel) (by decide +kernel) (plainPay_keeps _) (by decide +kernel)
    (by decide +kernel) (.inl rfl) (by decide +kernel) (by decide) (exists_of_ok hyes)
  replace e : process { signEnv with slot := 150 } plainPay (signMem futureActs) (signSwig :: signAddr :: signRest) (signIx [paySol 100]) = .ok m' := e
  rw [e] at hno
  cases hno

/-- The hypotheses of `C122_waiting_partial` are met by a role with a limit that comes back: in slot 100 there are 200 left, in slot 151 there are 500. -/
example : Open (signMem pastActs) (K 1) (signWallet pastActs) ∧ (signSwig :: signAddr :: signRest).length ≤ 254 ∧
    (∀ a ∈ signSwig :: signAddr :: signRest, a.key.length = 32) ∧ plainPay.Keeps (K 1) ∧ Ageless ⟨1, 1, K 11, pastActs⟩ 151 ∧ InTime signEnv.slot pastActs ∧
    Accepted signEnv plainPay (signMem pastActs) (signSwig :: signAddr :: signRest) (signIx [paySol 200]) ∧
    ¬ Accepted signEnv plainPay (signMem pastActs) (signSwig :: signAddr :: signRest) (signIx [paySol 201]) ∧
    Accepted { signEnv with slot := 151 } plainPay (signMem pastActs) (signSwig :: signAddr :: signRest) (signIx [paySol 500]) := by
  have rej : ∀ {env cpi m metas ix}, ok (process env cpi m metas ix) = false → ¬ Accepted env cpi m metas ix := by
    rintro env cpi m metas ix h ⟨m', e⟩
    rw [e] at h
    cases h
  refine ⟨⟨by decide +kernel, by decide +kernel, by decide +kernel⟩, by decide +kernel, by decide +kernel, plainPay_keeps _, .inl rfl, ?_, exists_of_ok (by decide +kernel),
    rej (by decide +kernel), exists_of_ok (by decide +kernel)⟩
  intro a ha hm
  rcases List.mem_cons.mp hm with e | e
  · have : a = .programAll := toAct_inj ha (by decide) e
    subst this
    trivial
  · have : a = .solRecurringDestinationLimit (K 40) 500 100 50 200 := toAct_inj ha (by decide +kernel) (List.mem_singleton.mp e)
    subst this
    exact ⟨by decide, by decide⟩

end

end Verif
