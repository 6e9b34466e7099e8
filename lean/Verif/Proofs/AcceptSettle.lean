import Verif.Proofs.AcceptFull

/-! The settlement of all accounts in both directions (property C114). -/

namespace Verif
open Client

/-! ## Snapshots -/

theorem hashExcept_stake_iff {env : Env} {a : Acct} {h : Bytes} : hashExcept env a [(0, 4), (124, 200)] = .ok h ↔
    124 ≤ a.data.length ∧ h = env.sha256 (a.owner ++ exceptBytes a.data 0 [(0, 4), (124, 200)]) := by
  unfold hashExcept
  simp only [exceptGo, segment]
  rw [if_neg (by omega), if_pos (by omega)]
  by_cases hl : 124 ≤ a.data.length
  · rw [slice_ok (by omega) hl]
    exact ⟨fun h => by cases h; exact ⟨hl, rfl⟩, fun h => by rw [h.2]; rfl⟩
  · have : slice a.data 4 124 = .error .panic := by
      unfold slice
      rw [if_neg (by omega)]
    rw [this]
    exact ⟨fun h => (by cases h), fun h => absurd h.1 hl⟩

theorem hashExcept_range {env : Env} {a : Acct} {i j : Nat} (h1 : i < j) (h2 : j ≤ a.data.length) :
    hashExcept env a [(i, j)] = .ok (env.sha256 (a.owner ++ exceptBytes a.data 0 [(i, j)])) := by
  unfold hashExcept
  simp only [exceptGo, segment]
  by_cases hi : 0 < i
  · rw [if_pos hi, slice_ok (by omega) (by omega)]
    rfl
  · have : i = 0 := by omega
    subst this
    rfl

/-- The snapshot of an account. -/
def snapF (env : Env) (m : Mem) (acts : List Act) (e : Meta × Class) : Option Bytes :=
  if e.1.writable = false then none
  else match e.2 with
    | .thisSwig _ => some (env.sha256 ((m e.1.key).owner ++ exceptBytes (m e.1.key).data 0 []))
    | .token _ _ => some (env.sha256 ((m e.1.key).owner ++ exceptBytes (m e.1.key).data 0 [(64, 72)]))
    | .stake .. => some (env.sha256 ((m e.1.key).owner ++ exceptBytes (m e.1.key).data 0 [(0, 4), (124, 200)]))
    | .scope .. =>
      if (scopeAt acts e.1.key).balanceFieldStart < (scopeAt acts e.1.key).balanceFieldEnd ∧
          (scopeAt acts e.1.key).balanceFieldEnd ≤ (m e.1.key).data.length then
        some (env.sha256 ((m e.1.key).owner ++ exceptBytes (m e.1.key).data 0
          [((scopeAt acts e.1.key).balanceFieldStart, (scopeAt acts e.1.key).balanceFieldEnd)]))
      else none
    | _ => none

/-- What the snapshots need. -/
def SnapOk (x : SignCtx) (m : Mem) (acts : List Act) (e : Meta × Class) : Prop :=
  match e.2 with
  | .token .. => 72 ≤ (m e.1.key).data.length
  | .stake .. => 124 ≤ (m e.1.key).data.length
  | .scope .. => x.loc.find m P.programScope e.1.key = .ok (payload? acts P.programScope e.1.key)
  | _ => True

theorem scopeAt_none {acts : List Act} {k : Key} (h : payload? acts P.programScope k = none) :
    ¬ (scopeAt acts k).balanceFieldStart < (scopeAt acts k).balanceFieldEnd := by
  unfold scopeAt
  rw [h]
  decide

theorem scopeAt_some {acts : List Act} {k : Key} {s : Bytes} (h : payload? acts P.programScope k = some s) :
    scopeAt acts k = ProgramScope.decode s := by
  unfold scopeAt
  rw [h]
  rfl

theorem snap_full {x : SignCtx} {m : Mem} {acts : List Act} {i : Nat} {e : Meta × Class} (h : SnapOk x m acts e) (o : Option Bytes) :
    snap x m i e.1 e.2 = .ok o ↔ o = snapF x.env m acts e ∧ (snapF x.env m acts e ≠ none → i < 100) := by
  obtain ⟨a, c⟩ := e
  have step : ∀ v : Bytes, (if i ≥ 100 then (.error E.invalidAccountsLength : R (Option Bytes)) else .ok (some v)) = .ok o ↔
      o = some v ∧ (some v ≠ none → i < 100) := by
    intro v
    split
    · exact ⟨fun h => (by cases h), fun h => absurd (h.2 (by simp)) (by omega)⟩
    · exact ⟨fun h => (by cases h; exact ⟨rfl, fun _ => by omega⟩), fun h => by rw [h.1]⟩
  have non : (Except.ok none : R (Option Bytes)) = .ok o ↔ o = none ∧ ((none : Option Bytes) ≠ none → i < 100) :=
    ⟨fun h => (by cases h; exact ⟨rfl, fun h => absurd rfl h⟩), fun h => by rw [h.1]⟩
  unfold snap snapF
  dsimp only
  by_cases hw : a.writable = false
  · rw [if_pos hw, if_pos hw]
    exact non
  · rw [if_neg hw, if_neg hw]
    cases c with
    | none => exact non
    | wallet => exact non
    | thisSwig _ =>
      simp only [snapRanges, ok_bind, snapHash, hashExcept_nil]
      exact step _
    | token b s =>
      simp only [snapRanges, ok_bind, snapHash]
      rw [hashExcept_token x.env (show 72 ≤ (m a.key).data.length from h), ok_bind]
      exact step _
    | stake st b l s =>
      simp only [snapRanges, ok_bind, snapHash]
      rw [hashExcept_stake_iff.mpr ⟨h, rfl⟩, ok_bind]
      exact step _
    | scope ro b s =>
      have hf : x.loc.find m P.programScope a.key = .ok (payload? acts P.programScope a.key) := h
      simp only [snapRanges]
      rw [hf, ok_bind, ok_bind]
      cases hp : payload? acts P.programScope a.key with
      | none =>
        rw [if_neg (fun h => scopeAt_none hp h.1)]
        exact non
      | some d =>
        simp only [Option.bind_some]
        unfold scopeRange
        rw [scopeAt_some hp]
        by_cases hr : (ProgramScope.decode d).balanceFieldStart < (ProgramScope.decode d).balanceFieldEnd ∧
            (ProgramScope.decode d).balanceFieldEnd ≤ (m a.key).data.length
        · rw [if_pos hr, if_pos hr]
          simp only [snapHash]
          rw [hashExcept_range hr.1 hr.2, ok_bind]
          exact step _
        · rw [if_neg hr, if_neg hr]
          exact non

theorem snapAll_full {x : SignCtx} {m : Mem} {acts : List Act} : ∀ {l : List (Meta × Class)} {i : Nat}, (∀ e ∈ l, SnapOk x m acts e) →
    ∀ hs, snapAll x m i l = .ok hs ↔ hs = l.map (snapF x.env m acts) ∧
      ∀ j e, l[j]? = some e → snapF x.env m acts e ≠ none → i + j < 100 := by
  intro l
  induction l with
  | nil =>
    intro i _ hs
    simp only [snapAll]
    exact ⟨fun h => (by cases h; exact ⟨rfl, fun j e h => by simp at h⟩), fun h => by rw [h.1]; rfl⟩
  | cons e l ih =>
    intro i h hs
    have h2 := snap_full (i := i) (h e (by simp))
    obtain ⟨a, c⟩ := e
    simp only [snapAll]
    constructor
    · intro g
      obtain ⟨o, g1, g⟩ := bind_ok_iff.mp g
      obtain ⟨hs', g2, g⟩ := bind_ok_iff.mp g
      cases g
      obtain ⟨rfl, k1⟩ := (h2 o).mp g1
      obtain ⟨rfl, k2⟩ := (ih (fun e he => h e (by simp [he])) _).mp g2
      refine ⟨rfl, ?_⟩
      intro j e hj ht
      cases j with
      | zero =>
        simp only [List.getElem?_cons_zero, Option.some.injEq] at hj
        subst hj
        exact k1 ht
      | succ j =>
        simp only [List.getElem?_cons_succ] at hj
        have := k2 j e hj ht
        omega
    · rintro ⟨rfl, k⟩
      have g := (h2 _).mpr ⟨rfl, fun ht => by have := k 0 (a, c) rfl ht; omega⟩
      dsimp only at g
      rw [g, ok_bind,
        (ih (fun e he => h e (by simp [he])) _).mpr ⟨rfl, fun j e hj ht => by
          have := k (j + 1) e (by simpa using hj) ht
          omega⟩, ok_bind]
      rfl

/-! ## The checks afterwards -/

theorem recheck_iff {x : SignCtx} {m : Mem} {a : Meta} {hh : Option Bytes} {rs : List (Nat × Nat)} :
    recheck x m a hh rs = .ok () ↔ (a.writable = true → ∃ h, hashExcept x.env (m a.key) rs = .ok h ∧ hh = some h) := by
  unfold recheck
  by_cases hw : a.writable = false
  · rw [if_pos hw]
    exact ⟨fun _ h => absurd (hw.symm.trans h) (by decide), fun _ => rfl⟩
  · have hw' : a.writable = true := by simpa using hw
    rw [if_neg hw]
    constructor
    · intro h _
      obtain ⟨v, h1, h⟩ := bind_ok_iff.mp h
      obtain ⟨v', h2, h⟩ := bind_ok_iff.mp h
      have h3 := orErr_ok h2
      have h4 := require_ok_iff.mp h
      subst h4
      exact ⟨_, h1, h3⟩
    · intro h
      obtain ⟨v, h1, rfl⟩ := h hw'
      rw [h1, ok_bind]
      simp only [orErr, ok_bind]
      exact require_of trivial

section
variable {x : SignCtx} {w : Wallet} {id : Nat} {r : Role} {before after : List Role}

theorem writable_ne {a : Meta} (h : a.writable = true) : ¬ a.writable = false := by rw [h]; decide

theorem recheckF_token {m m1 : Mem} {acts : List Act} {a : Meta} {b s : Nat} (hl : 72 ≤ (m1 a.key).data.length) :
    recheck x m1 a (snapF x.env m acts (a, .token b s)) [(64, 72)] = .ok () ↔
      (a.writable = true → x.env.sha256 ((m1 a.key).owner ++ exceptBytes (m1 a.key).data 0 [(64, 72)]) =
        x.env.sha256 ((m a.key).owner ++ exceptBytes (m a.key).data 0 [(64, 72)])) := by
  rw [recheck_iff]
  refine forall_congr' fun hw => ?_
  unfold snapF
  dsimp only
  rw [if_neg (writable_ne hw), hashExcept_token x.env hl]
  exact ⟨fun ⟨h, h1, h2⟩ => by rw [Except.ok.inj h1, Option.some.inj h2], fun h => ⟨_, rfl, by rw [h]⟩⟩

theorem recheckF_stake {m m1 : Mem} {acts : List Act} {a : Meta} {st b l s : Nat} :
    recheck x m1 a (snapF x.env m acts (a, .stake st b l s)) [(0, 4), (124, 200)] = .ok () ↔
      (a.writable = true → 124 ≤ (m1 a.key).data.length ∧
        x.env.sha256 ((m1 a.key).owner ++ exceptBytes (m1 a.key).data 0 [(0, 4), (124, 200)]) =
          x.env.sha256 ((m a.key).owner ++ exceptBytes (m a.key).data 0 [(0, 4), (124, 200)])) := by
  rw [recheck_iff]
  refine forall_congr' fun hw => ?_
  unfold snapF
  dsimp only
  rw [if_neg (writable_ne hw)]
  constructor
  · rintro ⟨h, h1, h2⟩
    obtain ⟨h3, h4⟩ := hashExcept_stake_iff.mp h1
    exact ⟨h3, by rw [← h4, Option.some.inj h2]⟩
  · rintro ⟨h1, h2⟩
    exact ⟨_, hashExcept_stake_iff.mpr ⟨h1, rfl⟩, by rw [h2]⟩

theorem recheckF_scope {m m1 : Mem} {acts : List Act} {a : Meta} {ro b s : Nat}
    (h1 : (scopeAt acts a.key).balanceFieldStart < (scopeAt acts a.key).balanceFieldEnd)
    (h2 : (scopeAt acts a.key).balanceFieldEnd ≤ (m1 a.key).data.length) :
    recheck x m1 a (snapF x.env m acts (a, .scope ro b s))
        [((scopeAt acts a.key).balanceFieldStart, (scopeAt acts a.key).balanceFieldEnd)] = .ok () ↔
      (a.writable = true → (scopeAt acts a.key).balanceFieldEnd ≤ (m a.key).data.length ∧
        x.env.sha256 ((m1 a.key).owner ++ exceptBytes (m1 a.key).data 0
            [((scopeAt acts a.key).balanceFieldStart, (scopeAt acts a.key).balanceFieldEnd)]) =
          x.env.sha256 ((m a.key).owner ++ exceptBytes (m a.key).data 0
            [((scopeAt acts a.key).balanceFieldStart, (scopeAt acts a.key).balanceFieldEnd)])) := by
  rw [recheck_iff]
  refine forall_congr' fun hw => ?_
  unfold snapF
  dsimp only
  rw [if_neg (writable_ne hw), hashExcept_range h1 h2]
  by_cases h3 : (scopeAt acts a.key).balanceFieldEnd ≤ (m a.key).data.length
  · rw [if_pos ⟨h1, h3⟩]
    exact ⟨fun ⟨h, k1, k2⟩ => ⟨h3, by rw [Except.ok.inj k1, Option.some.inj k2]⟩, fun h => ⟨_, rfl, by rw [h.2]⟩⟩
  · rw [if_neg (fun h => h3 h.2)]
    exact ⟨fun ⟨h, _, k2⟩ => (by cases k2), fun h => absurd h.1 h3⟩

/-- The scope found after some charges has the same balance field. -/
theorem scopeAt_charged {acts as : List Act} (h : All2 Act.Charged acts as) {k : Key} {s : Bytes} (hs : payload? as P.programScope k = some s) :
    (∃ s0, payload? acts P.programScope k = some s0) ∧ (ProgramScope.decode s).balanceFieldStart = (scopeAt acts k).balanceFieldStart ∧
      (ProgramScope.decode s).balanceFieldEnd = (scopeAt acts k).balanceFieldEnd := by
  obtain ⟨s0, h1, h2⟩ := payload?_chargedTo h hs
  obtain ⟨e1, e2, _⟩ := scope_decode_fixed h2
  rw [scopeAt_some h1]
  exact ⟨⟨s0, h1⟩, e1, e2⟩

theorem scopeTakes_iff {acts acts' : List Act} {k : Key} {n slot : Nat} (hw : ∀ a ∈ acts, a.WF) {s : Bytes}
    (hs : payload? acts P.programScope k = some s) :
    Plays slot acts [⟨P.programScope, k, n⟩] acts' ↔
      ∃ lim lim', Takes acts acts' lim lim' n slot ∧ lim.header.1 = P.programScope ∧ lim.key = k := by
  have hseg : eitherSeg acts P.programScope P.programScope k n = [⟨P.programScope, k, n⟩] := by
    unfold eitherSeg
    rw [hs]
    rfl
  have key := takesOf_iff (t1 := P.programScope) (t2 := P.programScope) (key := k) (acts := acts) (acts' := acts') (n := n) (slot := slot) hw
    (by decide) (by decide) (fun h => by cases h) (fun h => by cases h)
  rw [hseg] at key
  constructor
  · intro h
    obtain ⟨lim, lim', h1, h2, h3⟩ := key.mpr ⟨by simp, h⟩
    exact ⟨lim, lim', h1, by rcases h3 with h | h; exacts [h, h.1], h2⟩
  · rintro ⟨lim, lim', h1, h2, h3⟩
    exact (key.mp ⟨lim, lim', h1, h3, .inl h2⟩).2


/-- One account in both directions. -/
theorem Placed.settleOne_iff (h : Placed x.loc w id r before after) (hk : Keys32 x) {as : List Act}
    (hc : All2 Act.Charged r.actions as) {m m' : Mem} {a : Meta} {c : Class} {hh : Option Bytes} {total : Nat}
    (h0 : c.isSwig = false) (ha : c.tracked = true → a.key ≠ x.loc.swig ∧ a.key.length = 32)
    (hs : ∀ b s, c = .token b s → s < 2 ^ 64) :
    Verif.settleOne x (cfgMem x.loc w id m as) a c hh total = .ok m' ↔
      ∃ mid, m' = cfgMem x.loc w id m mid ∧ All2 Act.Charged as mid ∧ OkOf x m as a hh c ∧ Plays x.env.slot as (segOf x m as a c) mid := by
  constructor
  · intro g
    obtain ⟨as1, rfl, q1, q2, q3⟩ := h.settleOne hk hc h0 ha g
    exact ⟨as1, rfl, q2, q3, q1⟩
  · rintro ⟨mid, rfl, _, o1, o2⟩
    exact h.settleOne_of hk hc h0 ha hs o1 o2

theorem tokenStep {m1 : Mem} {as mid : List Act} {a : Meta} {hh : Option Bytes} {b sp : Nat} (hw : ∀ a ∈ as, a.WF) {Q : Prop}
    (hr : 165 ≤ (m1 a.key).data.length → (recheck x m1 a hh [(64, 72)] = .ok () ↔ Q)) :
    (OkOf x m1 as a hh (.token b sp) ∧ Plays x.env.slot as (segOf x m1 as a (.token b sp)) mid) ↔
      ((∃ y ∈ as, y.ty = P.closeSwigAuthority) ∧ (m1 a.key).lamports = 0 ∧ (m1 a.key).owner = systemId ∧ mid = as) ∨
      ((m1 a.key).lamports ≠ 0 ∧ 165 ≤ (m1 a.key).data.length ∧ Q ∧ sl (m1 a.key).data 32 64 = x.wallet ∧
        (m1 a.key).data.getD 108 0 = 1 ∧
        ((sp = 0 ∧ mid = as) ∨ (sp ≠ 0 ∧ TokensSettled (sl (m1 a.key).data 0 32) (x.ixs.filterMap (tokenTransferFrom a.key)) as mid sp x.env.slot))) := by
  constructor
  · rintro ⟨q3, q1⟩
    rcases q3 with ⟨k1, k2, k3, k4⟩ | ⟨k1, k2, k3, k4, k5, k6⟩
    · simp only [segOf, if_pos (Or.inl k1 : Gone (m1 a.key) ∨ sp = 0)] at q1
      cases q1
      exact .inl ⟨(payload?_isSome_iff rfl []).mp k2, k3, k4, rfl⟩
    · refine .inr ⟨fun e => k1 (.inr e), k2, (hr k2).mp k3, k4, k5, ?_⟩
      simp only [segOf] at q1
      by_cases hz : sp = 0
      · rw [if_pos (.inr hz)] at q1
        cases q1
        exact .inl ⟨hz, rfl⟩
      · rw [if_neg (by rintro (h | h); exacts [k1 h, hz h])] at q1
        refine .inr ⟨hz, ?_⟩
        have := (tokens_settled hw).mp ⟨k6 hz, q1⟩
        rwa [tokenTransfers_eq] at this
  · rintro (⟨h2, h3, h4, rfl⟩ | ⟨h2, h3, h4, h5, h6, h7⟩)
    · refine ⟨.inl ⟨.inr h3, (payload?_isSome_iff rfl []).mpr h2, h3, h4⟩, ?_⟩
      simp only [segOf, if_pos (Or.inl (.inr h3) : Gone (m1 a.key) ∨ sp = 0)]
      exact .nil _
    · have hng : ¬ Gone (m1 a.key) := by
        rintro (e | e)
        · rw [e] at h3; simp at h3
        · exact h2 e
      rcases h7 with ⟨hz, rfl⟩ | ⟨hz, ht⟩
      · refine ⟨.inr ⟨hng, h3, (hr h3).mpr h4, h5, h6, fun e => absurd hz e⟩, ?_⟩
        simp only [segOf, if_pos (Or.inr hz : Gone (m1 a.key) ∨ sp = 0)]
        exact .nil _
      · rw [← tokenTransfers_eq] at ht
        obtain ⟨t1, t2⟩ := (tokens_settled (x := x) hw).mpr ht
        refine ⟨.inr ⟨hng, h3, (hr h3).mpr h4, h5, h6, fun _ => t1⟩, ?_⟩
        simp only [segOf]
        rw [if_neg (by rintro (h | h); exacts [hng h, hz h])]
        exact t2

theorem stakeStep {m1 : Mem} {as mid : List Act} {a : Meta} {hh : Option Bytes} {st b l sp : Nat} (hw : ∀ a ∈ as, a.WF) :
    (OkOf x m1 as a hh (.stake st b l sp) ∧ Plays x.env.slot as (segOf x m1 as a (.stake st b l sp)) mid) ↔
      recheck x m1 a hh [(0, 4), (124, 200)] = .ok () ∧
        ((sp = 0 ∧ mid = as) ∨ (sp ≠ 0 ∧ StakeSettled as mid sp x.env.slot)) := by
  have hall : (payload? as P.stakeAll []).isSome = true ↔ ∃ y ∈ as, y.ty = P.stakeAll := payload?_isSome_iff rfl []
  have htk := takesOf_iff (t1 := P.stakeLimit) (t2 := P.stakeRecurringLimit) (key := []) (acts := as) (acts' := mid) (n := sp)
    (slot := x.env.slot) hw (by decide) (by decide) (fun _ => rfl) (fun _ => rfl)
  simp only [segOf, OkOf]
  by_cases hz : sp = 0
  · rw [if_pos (.inl hz)]
    constructor
    · rintro ⟨⟨q1, _⟩, q2⟩
      cases q2
      exact ⟨q1, .inl ⟨hz, rfl⟩⟩
    · rintro ⟨q1, ⟨_, rfl⟩ | ⟨h, _⟩⟩
      · exact ⟨⟨q1, fun h => absurd hz h⟩, .nil _⟩
      · exact absurd hz h
  · by_cases ha : (payload? as P.stakeAll []).isSome = true
    · rw [if_pos (.inr ha)]
      constructor
      · rintro ⟨⟨q1, _⟩, q2⟩
        cases q2
        exact ⟨q1, .inr ⟨hz, .inl ⟨hall.mp ha, rfl⟩⟩⟩
      · rintro ⟨q1, ⟨h, _⟩ | ⟨_, ⟨_, rfl⟩ | ⟨h, _⟩⟩⟩
        · exact absurd h hz
        · exact ⟨⟨q1, fun _ => .inl ha⟩, .nil _⟩
        · exact absurd (hall.mp ha) h
    · rw [if_neg (by rintro (h | h); exacts [hz h, ha h])]
      constructor
      · rintro ⟨⟨q1, q2⟩, q3⟩
        refine ⟨q1, .inr ⟨hz, .inr ⟨fun h => ha (hall.mpr h), htk.mpr ⟨?_, q3⟩⟩⟩⟩
        rcases q2 hz with h | h
        · exact absurd h ha
        · exact h
      · rintro ⟨q1, ⟨h, _⟩ | ⟨_, ⟨h, _⟩ | ⟨_, h⟩⟩⟩
        · exact absurd h hz
        · exact absurd (hall.mpr h) ha
        · exact ⟨⟨q1, fun _ => .inr (htk.mp h).1⟩, (htk.mp h).2⟩

theorem scopeStep {m1 : Mem} {as mid : List Act} {a : Meta} {hh : Option Bytes} {ro b sp : Nat} (hw : ∀ a ∈ as, a.WF) :
    (OkOf x m1 as a hh (.scope ro b sp) ∧ Plays x.env.slot as (segOf x m1 as a (.scope ro b sp)) mid) ↔
      ∃ s, payload? as P.programScope a.key = some s ∧
        (ProgramScope.decode s).balanceFieldStart < (ProgramScope.decode s).balanceFieldEnd ∧
        (ProgramScope.decode s).balanceFieldEnd ≤ (m1 a.key).data.length ∧
        recheck x m1 a hh [((ProgramScope.decode s).balanceFieldStart, (ProgramScope.decode s).balanceFieldEnd)] = .ok () ∧
        ((sp = 0 ∧ mid = as) ∨
          (sp ≠ 0 ∧ ∃ lim lim', Takes as mid lim lim' sp x.env.slot ∧ lim.header.1 = P.programScope ∧ lim.key = a.key)) := by
  simp only [segOf, OkOf]
  constructor
  · rintro ⟨⟨s, rs, k1, k2, k3⟩, q⟩
    unfold scopeRange at k2
    split at k2
    · rename_i hr
      cases k2
      refine ⟨s, k1, hr.1, hr.2, k3, ?_⟩
      by_cases hz : sp = 0
      · rw [if_pos hz] at q
        cases q
        exact .inl ⟨hz, rfl⟩
      · rw [if_neg hz] at q
        exact .inr ⟨hz, (scopeTakes_iff hw k1).mp q⟩
    · cases k2
  · rintro ⟨s, k1, k2, k3, k4, k5⟩
    refine ⟨⟨s, _, k1, by unfold scopeRange; rw [if_pos ⟨k2, k3⟩], k4⟩, ?_⟩
    rcases k5 with ⟨hz, rfl⟩ | ⟨hz, k5⟩
    · rw [if_pos hz]; exact .nil _
    · rw [if_neg hz]
      exact (scopeTakes_iff hw k1).mpr k5

/-- The amounts counted when the accounts go through the given states. -/
def movedF (acts : List Act) (m : Mem) (states : Key → List Acct) : Moved where
  token a := if a.writable = true then min (2 ^ 64 - 1) (takenFrom (rd (m a.key).data 64 8) (states a.key)) else 0
  stake a := if a.writable = true then min (2 ^ 64 - 1) (stakeMoved (rd (m a.key).data 156 8) (m a.key).lamports (states a.key)) else 0
  scope a s0 := if a.writable = true then
    min (2 ^ 128 - 1) (fieldLost (scopeAt acts a.key) (((ProgramScope.decode s0).noted (m a.key).data).getD 0) (states a.key)) else 0

theorem not_writable {a : Meta} (h : ¬ a.writable = true) : a.writable = false := by simpa using h

theorem Placed.settlesAll_iff (h : Placed x.loc w id r before after) (hk : Keys32 x) {W : Wallet} {m m1 : Mem} {total : Nat}
    {states : Key → List Acct} :
    ∀ {l : List Meta} {cls : List Class} {as : List Act}, All2 Act.Charged r.actions as → All2 (FullClass m W x.loc.swig x.wallet) l cls →
    (∀ a ∈ l, a.key.length = 32) → (m x.loc.swig).owner = swigId →
    ((∃ m', Verif.settleAll x total (cfgMem x.loc w id m1 as) ((l.zip cls).map fun e => lookFAll r.actions e (states e.1.key))
        ((l.zip cls).map (snapF x.env m r.actions)) = .ok m') ↔
      ∃ as', SettlesAll x.env m m1 W x.loc.swig x.wallet (movedF r.actions m states)
        (fun a => x.ixs.filterMap (tokenTransferFrom a.key)) as l as') := by
  intro l
  induction l with
  | nil =>
    intro cls as _ _ _ _
    exact ⟨fun _ => ⟨as, .nil⟩, fun _ => ⟨_, rfl⟩⟩
  | cons a l ih =>
    intro cls as hc hpc h32 hown
    obtain ⟨c, cls, rfl, p1, p2⟩ := hpc.uncons
    have hwf := All2.wf hc h.roleWf.acts
    have ha32 := h32 a (by simp)
    have hrest := fun (mid : List Act) (hm : All2 Act.Charged as mid) =>
      ih (as := mid) (charged_trans hc hm) p2 (fun a ha => h32 a (by simp [ha])) hown
    simp only [List.zip_cons_cons, List.map_cons]
    have step : ∀ {c' : Class}, lookFAll r.actions (a, c) (states a.key) = (a, c') → c'.isSwig = false →
        (c'.tracked = true → a.key ≠ x.loc.swig) → (∀ b s, c' = .token b s → s < 2 ^ 64) →
        ((∃ m', Verif.settleAll x total (cfgMem x.loc w id m1 as)
            (lookFAll r.actions (a, c) (states a.key) :: (l.zip cls).map fun e => lookFAll r.actions e (states e.1.key))
            (snapF x.env m r.actions (a, c) :: (l.zip cls).map (snapF x.env m r.actions)) = .ok m') ↔
          ∃ mid, (OkOf x m1 as a (snapF x.env m r.actions (a, c)) c' ∧ Plays x.env.slot as (segOf x m1 as a c') mid) ∧
            ∃ as', SettlesAll x.env m m1 W x.loc.swig x.wallet (movedF r.actions m states)
              (fun a => x.ixs.filterMap (tokenTransferFrom a.key)) mid l as') := by
      intro c' e h0 hne hs
      rw [e]
      simp only [Verif.settleAll]
      have one := fun m' => h.settleOne_iff (m' := m') (m := m1) (a := a) (hh := snapF x.env m r.actions (a, c)) (total := total) hk hc h0
        (fun t => ⟨hne t, ha32⟩) hs
      constructor
      · rintro ⟨m', g⟩
        obtain ⟨m2, g1, g2⟩ := bind_ok_iff.mp g
        obtain ⟨mid, rfl, q1, q2, q3⟩ := (one m2).mp g1
        exact ⟨mid, ⟨q2, q3⟩, (hrest mid q1).mp ⟨m', g2⟩⟩
      · rintro ⟨mid, ⟨q2, q3⟩, q4⟩
        have q1 := q3.charged hwf
        obtain ⟨m', g⟩ := (hrest mid q1).mpr q4
        refine ⟨m', ?_⟩
        rw [(one _).mpr ⟨mid, rfl, q1, q2, q3⟩, ok_bind]
        exact g
    by_cases hwat : Watched m x.loc.swig x.wallet a
    · obtain rfl := p1.token hwat
      have hne : a.key ≠ x.loc.swig := by
        intro e
        have := (token_not (watched_owner hwat).1).1
        rw [e] at this
        exact this hown
      obtain ⟨b', e⟩ : ∃ b', lookFAll r.actions (a, .token (rd (m a.key).data 64 8) 0) (states a.key) =
          (a, .token b' ((movedF r.actions m states).token a)) := by
        unfold movedF
        dsimp only
        by_cases hwr : a.writable = true
        · rw [if_pos hwr]
          have := lookFAll_token r.actions hwr (states a.key) (rd (m a.key).data 64 8) 0 (by decide)
          rwa [Nat.zero_add] at this
        · rw [if_neg hwr]
          exact ⟨_, lookFAll_ro _ _ (not_writable hwr)⟩
      rw [step e rfl (fun _ => hne) (by
        intro b s h
        cases h
        unfold movedF
        dsimp only
        split <;> omega)]
      simp only [tokenStep (x := x) (a := a) (m1 := m1) (as := as) (b := b') hwf (fun hl => recheckF_token (m := m) (acts := r.actions) (by omega))]
      constructor
      · rintro ⟨mid, ⟨k1, k2, k3, rfl⟩ | ⟨k1, k2, k3, k4, k5, k6⟩, as', q⟩
        · exact ⟨as', .closed hwat k1 k2 k3 q⟩
        · exact ⟨as', .kept hwat k1 k2 k3 k4 k5 k6 q⟩
      · rintro ⟨as', q⟩
        cases q with
        | skip h1 => exact absurd hwat h1
        | closed _ k1 k2 k3 q => exact ⟨as, .inl ⟨k1, k2, k3, rfl⟩, as', q⟩
        | kept _ k1 k2 k3 k4 k5 k6 q => exact ⟨_, .inr ⟨k1, k2, k3, k4, k5, k6⟩, as', q⟩
        | stake h1 =>
          exact absurd (stakeWatched_owner h1) (token_not (watched_owner hwat).1).2.1
        | scope h1 => exact absurd (.inr (.inr (watched_owner hwat))) h1.1
    · by_cases hst : StakeWatched m x.loc.swig x.wallet a
      · obtain ⟨st, rfl⟩ := p1.stake hst
        have hso := stakeWatched_owner hst
        have hne : a.key ≠ x.loc.swig := by
          intro e
          rw [e, hown] at hso
          exact stake_not.1 hso.symm
        obtain ⟨b', n', e⟩ : ∃ b' n', lookFAll r.actions (a, .stake st (rd (m a.key).data 156 8) (m a.key).lamports 0) (states a.key) =
            (a, .stake st b' n' ((movedF r.actions m states).stake a)) := by
          unfold movedF
          dsimp only
          by_cases hwr : a.writable = true
          · rw [if_pos hwr]
            have := lookFAll_stake r.actions hwr (st := st) (states a.key) (rd (m a.key).data 156 8) (m a.key).lamports 0 (by decide)
            rwa [Nat.zero_add] at this
          · rw [if_neg hwr]
            exact ⟨_, _, lookFAll_ro _ _ (not_writable hwr)⟩
        rw [step e rfl (fun _ => hne) (by intro b s h; cases h)]
        simp only [stakeStep (x := x) (a := a) (m1 := m1) (as := as) hwf, recheckF_stake]
        constructor
        · rintro ⟨mid, ⟨k1, k2⟩, as', q⟩
          exact ⟨as', .stake hst k1 k2 q⟩
        · rintro ⟨as', q⟩
          cases q with
          | skip _ h1 => exact absurd hst h1
          | closed h1 => exact absurd h1 hwat
          | kept h1 => exact absurd h1 hwat
          | stake _ k1 k2 q => exact ⟨_, ⟨k1, k2⟩, as', q⟩
          | scope h1 => exact absurd (.inr (.inl hso)) h1.1
      · by_cases hsc : ∃ s, TargetOf m W a s
        · obtain ⟨s0, hsc⟩ := hsc
          obtain ⟨ro, b, hn, rfl⟩ := p1.scope s0 hsc
          have hne : a.key ≠ x.loc.swig := by
            intro e
            apply hsc.1
            rw [e]
            exact .inl hown
          obtain ⟨b', e⟩ : ∃ b', lookFAll r.actions (a, .scope ro b 0) (states a.key) =
              (a, .scope ro b' ((movedF r.actions m states).scope a s0)) := by
            unfold movedF
            dsimp only
            by_cases hwr : a.writable = true
            · rw [if_pos hwr, hn]
              have := lookFAll_scope r.actions hwr (ro := ro) (states a.key) b 0 (by decide)
              rwa [Nat.zero_add] at this
            · rw [if_neg hwr]
              exact ⟨_, lookFAll_ro _ _ (not_writable hwr)⟩
          rw [step e rfl (fun _ => hne) (by intro b s h; cases h)]
          simp only [scopeStep (x := x) (a := a) (m1 := m1) (as := as) hwf]
          constructor
          · rintro ⟨mid, ⟨s, k1, k2, k3, k4, k5⟩, as', q⟩
            obtain ⟨_, e1, e2⟩ := scopeAt_charged hc k1
            rw [e1, e2] at k4
            rw [e1, e2] at k2
            rw [e2] at k3
            exact ⟨as', .scope hsc k1 e1.symm e2.symm k2 k3 ((recheckF_scope k2 k3).mp k4) k5 q⟩
          · rintro ⟨as', q⟩
            cases q with
            | skip _ _ h1 => exact absurd hsc (h1 s0)
            | closed h1 => exact absurd h1 hwat
            | kept h1 => exact absurd h1 hwat
            | stake h1 => exact absurd h1 hst
            | scope h1 k1 ei ej k2 k3 k4 k5 q =>
              rename_i s1 s i j
              have hs : s1 = s0 := Option.some.inj (h1.2.symm.trans hsc.2)
              subst hs
              subst ei
              subst ej
              obtain ⟨_, e1, e2⟩ := scopeAt_charged hc k1
              refine ⟨_, ⟨s, k1, k2, k3, ?_, k5⟩, as', q⟩
              rw [e1, e2]
              rw [e1, e2] at k2 k4
              rw [e2] at k3
              exact (recheckF_scope k2 k3).mpr k4
        · have hsc' : ∀ s, ¬ TargetOf m W a s := fun s t => hsc ⟨s, t⟩
          obtain ⟨n1, n2⟩ := p1.other hwat hst hsc'
          rw [step (lookFAll_other _ _ n1) n2 (fun t => by rw [n1] at t; cases t) (by rintro b s rfl; cases n1)]
          have hseg : OkOf x m1 as a (snapF x.env m r.actions (a, c)) c ∧ segOf x m1 as a c = [] := by
            cases c with
            | none => exact ⟨trivial, rfl⟩
            | wallet => exact ⟨trivial, rfl⟩
            | thisSwig _ => cases n2
            | token => cases n1
            | stake => cases n1
            | scope => cases n1
          rw [hseg.2]
          constructor
          · rintro ⟨mid, ⟨_, q1⟩, as', q⟩
            cases q1
            exact ⟨as', .skip hwat hst hsc' q⟩
          · rintro ⟨as', q⟩
            cases q with
            | skip _ _ _ q => exact ⟨as, ⟨hseg.1, .nil _⟩, as', q⟩
            | closed h1 => exact absurd h1 hwat
            | kept h1 => exact absurd h1 hwat
            | stake h1 => exact absurd h1 hst
            | scope h1 => exact absurd h1 (hsc' _)

end

end Verif
