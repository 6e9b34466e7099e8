import Verif.Spec.AcceptSign
import Verif.Proofs.LiveAllowed
import Verif.Proofs.Accept

/-! When signing requests are accepted: the settlement of a restricted signing as an equivalence. -/

namespace Verif
open Client

/-! ## Stored limits are limits -/

theorem data8 {d : Bytes} (h : d.length = 8) : natLE 8 (rd d 0 8) = d := by
  have := natLE_rd (b := d) (i := 0) (k := 8) (by omega)
  rw [this]
  unfold sl
  simp
  exact List.take_of_length_le (by omega)

theorem sl_cat (d : Bytes) {i j k : Nat} (h1 : i ≤ j) (h2 : j ≤ k) : sl d i j ++ sl d j k = sl d i k := by
  unfold sl
  apply List.ext_getElem?
  intro n
  simp only [List.getElem?_append, List.length_drop, List.length_take, List.getElem?_drop, List.getElem?_take]
  split <;> rename_i h
  · rw [if_pos (by omega), if_pos (by omega)]
  · by_cases hd : j ≤ d.length
    · have e : min (j - i) (d.length - i) = j - i := by omega
      rw [e] at h ⊢
      have : j + (n - (j - i)) = i + n := by omega
      rw [this]
      by_cases hk : n < k - i
      · rw [if_pos hk, if_pos (by omega)]
      · rw [if_neg hk, if_neg (by omega)]
    · rw [List.getElem?_eq_none (by omega), List.getElem?_eq_none (by omega)]
      split <;> split <;> rfl

theorem sl_whole {d : Bytes} {n : Nat} (h : d.length = n) : sl d 0 n = d := by
  unfold sl
  simp
  exact List.take_of_length_le (by omega)

/-- The kinds of limits that are charged by amount. -/
def limitTypes : List Nat := [P.solLimit, P.solRecurringLimit, P.solDestinationLimit, P.solRecurringDestinationLimit, P.tokenLimit,
  P.tokenRecurringLimit, P.tokenDestinationLimit, P.tokenRecurringDestinationLimit, P.stakeLimit, P.stakeRecurringLimit, P.programScope]

theorem limit_of {a : Act} (hw : a.WF) (ht : a.ty ∈ limitTypes) : ∃ lim : Action, lim.InRange ∧ lim.toAct = a ∧ lim.header.1 = a.ty := by
  obtain ⟨ty, d⟩ := a
  unfold Act.WF at hw
  simp only at hw ht
  simp only [limitTypes, List.mem_cons, List.not_mem_nil, or_false] at ht
  have r8 : ∀ i, rd d i 8 < 2 ^ 64 := fun i => rd_lt _ _ 8
  rcases ht with e | e | e | e | e | e | e | e | e | e | e <;> subst e
  · have hl : d.length = 8 := (Option.some.inj hw).symm
    exact ⟨.solLimit (rd d 0 8), r8 0, by simp only [Action.toAct, Action.header, Action.bytes, data8 hl], rfl⟩
  · have hl : d.length = 32 := (Option.some.inj hw).symm
    refine ⟨.solRecurringLimit (rd d 0 8) (rd d 8 8) (rd d 16 8) (rd d 24 8), ⟨r8 _, r8 _, r8 _, r8 _⟩, ?_, rfl⟩
    simp only [Action.toAct, Action.header, Action.bytes]
    congr 1
    rw [natLE_rd (by omega), natLE_rd (by omega), natLE_rd (by omega), natLE_rd (by omega), sl_cat d (by omega) (by omega),
      sl_cat d (by omega) (by omega), sl_cat d (by omega) (by omega), sl_whole hl]
  · have hl : d.length = 40 := (Option.some.inj hw).symm
    refine ⟨.solDestinationLimit (sl d 0 32) (rd d 32 8), ⟨sl_length_of_le (by omega), r8 _⟩, ?_, rfl⟩
    simp only [Action.toAct, Action.header, Action.bytes]
    congr 1
    rw [natLE_rd (by omega), sl_cat d (by omega) (by omega), sl_whole hl]
  · have hl : d.length = 64 := (Option.some.inj hw).symm
    refine ⟨.solRecurringDestinationLimit (sl d 0 32) (rd d 32 8) (rd d 40 8) (rd d 48 8) (rd d 56 8),
      ⟨sl_length_of_le (by omega), r8 _, r8 _, r8 _, r8 _⟩, ?_, rfl⟩
    simp only [Action.toAct, Action.header, Action.bytes]
    congr 1
    rw [natLE_rd (by omega), natLE_rd (by omega), natLE_rd (by omega), natLE_rd (by omega), sl_cat d (by omega) (by omega),
      sl_cat d (by omega) (by omega), sl_cat d (by omega) (by omega), sl_cat d (by omega) (by omega), sl_whole hl]
  · have hl : d.length = 40 := (Option.some.inj hw).symm
    refine ⟨.tokenLimit (sl d 0 32) (rd d 32 8), ⟨sl_length_of_le (by omega), r8 _⟩, ?_, rfl⟩
    simp only [Action.toAct, Action.header, Action.bytes]
    congr 1
    rw [natLE_rd (by omega), sl_cat d (by omega) (by omega), sl_whole hl]
  · have hl : d.length = 64 := (Option.some.inj hw).symm
    refine ⟨.tokenRecurringLimit (sl d 0 32) (rd d 32 8) (rd d 40 8) (rd d 48 8) (rd d 56 8),
      ⟨sl_length_of_le (by omega), r8 _, r8 _, r8 _, r8 _⟩, ?_, rfl⟩
    simp only [Action.toAct, Action.header, Action.bytes]
    congr 1
    rw [natLE_rd (by omega), natLE_rd (by omega), natLE_rd (by omega), natLE_rd (by omega), sl_cat d (by omega) (by omega),
      sl_cat d (by omega) (by omega), sl_cat d (by omega) (by omega), sl_cat d (by omega) (by omega), sl_whole hl]
  · have hl : d.length = 72 := (Option.some.inj hw).symm
    refine ⟨.tokenDestinationLimit (sl d 0 32) (sl d 32 64) (rd d 64 8), ⟨sl_length_of_le (by omega), sl_length_of_le (by omega), r8 _⟩, ?_, rfl⟩
    simp only [Action.toAct, Action.header, Action.bytes]
    congr 1
    rw [natLE_rd (by omega), sl_cat d (by omega) (by omega), sl_cat d (by omega) (by omega), sl_whole hl]
  · have hl : d.length = 96 := (Option.some.inj hw).symm
    refine ⟨.tokenRecurringDestinationLimit (sl d 0 32) (sl d 32 64) (rd d 64 8) (rd d 72 8) (rd d 80 8) (rd d 88 8),
      ⟨sl_length_of_le (by omega), sl_length_of_le (by omega), r8 _, r8 _, r8 _, r8 _⟩, ?_, rfl⟩
    simp only [Action.toAct, Action.header, Action.bytes]
    congr 1
    rw [natLE_rd (by omega), natLE_rd (by omega), natLE_rd (by omega), natLE_rd (by omega), sl_cat d (by omega) (by omega),
      sl_cat d (by omega) (by omega), sl_cat d (by omega) (by omega), sl_cat d (by omega) (by omega), sl_cat d (by omega) (by omega), sl_whole hl]
  · have hl : d.length = 8 := (Option.some.inj hw).symm
    exact ⟨.stakeLimit (rd d 0 8), r8 0, by simp only [Action.toAct, Action.header, Action.bytes, data8 hl], rfl⟩
  · have hl : d.length = 32 := (Option.some.inj hw).symm
    refine ⟨.stakeRecurringLimit (rd d 0 8) (rd d 8 8) (rd d 16 8) (rd d 24 8), ⟨r8 _, r8 _, r8 _, r8 _⟩, ?_, rfl⟩
    simp only [Action.toAct, Action.header, Action.bytes]
    congr 1
    rw [natLE_rd (by omega), natLE_rd (by omega), natLE_rd (by omega), natLE_rd (by omega), sl_cat d (by omega) (by omega),
      sl_cat d (by omega) (by omega), sl_cat d (by omega) (by omega), sl_whole hl]
  · have hl : d.length = 144 := (Option.some.inj hw).symm
    have r16 : ∀ i, rd d i 16 < 2 ^ 128 := fun i => rd_lt _ _ 16
    refine ⟨.programScope (rd d 0 16) (rd d 16 16) (rd d 32 8) (rd d 40 8) (sl d 48 80) (sl d 80 112) (rd d 112 8) (rd d 120 8) (rd d 128 8)
      (rd d 136 8), ⟨r16 _, r16 _, r8 _, r8 _, sl_length_of_le (by omega), sl_length_of_le (by omega), r8 _, r8 _, r8 _, r8 _⟩, ?_, rfl⟩
    simp only [Action.toAct, Action.header, Action.bytes]
    congr 1
    rw [natLE_rd (by omega), natLE_rd (by omega), natLE_rd (by omega), natLE_rd (by omega), natLE_rd (by omega), natLE_rd (by omega),
      natLE_rd (by omega), natLE_rd (by omega)]
    repeat rw [sl_cat d (by omega) (by omega)]
    rw [sl_whole hl]

/-- A charge to the first limit of a kind is a spending under it. -/
theorem charge_takes {ty : Nat} {key : Bytes} {acts acts' : List Act} {n slot : Nat} (hw : ∀ a ∈ acts, a.WF) (ht : ty ∈ limitTypes)
    (hk : repeatable ty = false → key = []) (h : chargeFirst ty key (chargeFn ty n slot) acts = .ok (some acts')) :
    ∃ lim lim', Takes acts acts' lim lim' n slot ∧ lim.key = key ∧ lim.header.1 = ty := by
  rcases chargeFirst_ok h with ⟨e, _⟩ | ⟨ab, a, aa, d, e, hg, hn, hf, ho⟩
  · cases e
  have hty : a.ty = ty := hg.1
  obtain ⟨lim, l1, l2, l3⟩ := limit_of (hw a (by simp [e])) (by rw [hty]; exact ht)
  have hkey : lim.key = key := by
    by_cases hr : repeatable ty = true
    · have k1 := C69_key lim l1 (by rw [l3, hty]; exact hr)
      have k2 := hg.2 hr
      rw [← l2] at k2
      rw [l3, hty] at k1
      exact k1.symm.trans k2
    · have hr : repeatable ty = false := by simpa using hr
      rw [hk hr]
      rw [hty] at l3
      rw [← l3] at hr
      cases lim <;> first | rfl | cases hr
  have hb : lim.bytes = a.data := by rw [← l2]; rfl
  rw [← hty, ← l3, ← hb] at hf
  obtain ⟨lim', s1, rfl⟩ := (charge_spend l1 d).mp hf
  refine ⟨lim, lim', ⟨l1, s1, ab, aa, by rw [l2]; exact e, ?_, ?_⟩, hkey, l3.trans hty⟩
  · have := Option.some.inj ho
    rw [this]
    congr 2
    obtain ⟨t, x⟩ := a
    simp only [Action.toAct]
    rw [spend_header s1, l3]
  · rw [l3, hty, hkey]
    exact hn

theorem payload?_none_iff {as : List Act} {ty : Nat} {key : Bytes} : payload? as ty key = none ↔ ∀ a ∈ as, ¬ a.grants ty key := by
  unfold payload?
  rw [Option.map_eq_none_iff, List.find?_eq_none]
  simp

theorem takesOf_iff {t1 t2 : Nat} {key : Bytes} {acts acts' : List Act} {n slot : Nat} (hw : ∀ a ∈ acts, a.WF) (h1 : t1 ∈ limitTypes)
    (h2 : t2 ∈ limitTypes) (k1 : repeatable t1 = false → key = []) (k2 : repeatable t2 = false → key = []) :
    TakesOf t1 t2 key acts acts' n slot ↔ eitherSeg acts t1 t2 key n ≠ [] ∧ Plays slot acts (eitherSeg acts t1 t2 key n) acts' := by
  refine ⟨takesOf_plays, ?_⟩
  rintro ⟨hne, hp⟩
  unfold eitherSeg at hne hp
  by_cases p1 : (payload? acts t1 key).isSome = true
  · rw [if_pos p1] at hp
    cases hp with
    | cons _ e1 e2 =>
      cases e2
      obtain ⟨lim, lim', c1, c2, c3⟩ := charge_takes hw h1 k1 e1
      exact ⟨lim, lim', c1, c2, .inl c3⟩
  · rw [if_neg p1] at hp hne
    by_cases p2 : (payload? acts t2 key).isSome = true
    · rw [if_pos p2] at hp
      cases hp with
      | cons _ e1 e2 =>
        cases e2
        obtain ⟨lim, lim', c1, c2, c3⟩ := charge_takes hw h2 k2 e1
        exact ⟨lim, lim', c1, c2, .inr ⟨c3, payload?_none_iff.mp (by simpa using p1)⟩⟩
    · rw [if_neg p2] at hne
      exact absurd rfl hne

theorem eitherSeg_nil {t1 t2 : Nat} {key : Bytes} {acts : List Act} {n : Nat} : eitherSeg acts t1 t2 key n = [] ↔ NoneOf t1 t2 key acts := by
  refine ⟨fun h => ?_, noneOf_seg⟩
  unfold eitherSeg at h
  split at h
  · cases h
  · split at h
    · cases h
    · rename_i p1 p2
      have q1 := payload?_none_iff.mp (by simpa using p1)
      have q2 := payload?_none_iff.mp (by simpa using p2)
      exact fun x hx => ⟨q1 x hx, q2 x hx⟩

/-- What one kind of asset takes, as charges, and as spendings. -/
theorem settled_iff {g1 g2 d1 d2 : Nat} {key : Bytes} {kf : Key → Bytes} {held : Bool} {ts : List (Key × Nat)} {acts acts' : List Act} {n slot : Nat}
    (hw : ∀ a ∈ acts, a.WF) (t1 : g1 ∈ limitTypes) (t2 : g2 ∈ limitTypes) (t3 : d1 ∈ limitTypes) (t4 : d2 ∈ limitTypes)
    (k1 : repeatable g1 = false → key = []) (k2 : repeatable g2 = false → key = []) (k3 : repeatable d1 = true) (k4 : repeatable d2 = true) :
    (SpendOk acts g1 g2 d1 d2 key kf held n ts ∧ Plays slot acts (spendSeg acts g1 g2 d1 d2 key kf held n ts) acts') ↔
      ∃ mid, (TakesOf g1 g2 key acts mid n slot ∨ (mid = acts ∧ NoneOf g1 g2 key acts ∧ held = true)) ∧
        ((held = false ∧ acts' = mid) ∨
          (held = true ∧ ts ≠ [] ∧ (ts.map Prod.snd).sum = n ∧
            TakesEach (fun d a a' n => TakesOf d1 d2 (kf d) a a' n slot) mid ts acts')) := by
  have each : ∀ (ts : List (Key × Nat)) (as as' : List Act), (∀ a ∈ as, a.WF) →
      (TakesEach (fun d a a' n => TakesOf d1 d2 (kf d) a a' n slot) as ts as' ↔
        (∀ t ∈ ts, eitherSeg as d1 d2 (kf t.1) t.2 ≠ []) ∧ Plays slot as (ts.flatMap fun t => eitherSeg as d1 d2 (kf t.1) t.2) as') := by
    intro ts
    induction ts with
    | nil =>
      intro as as' _
      constructor
      · intro h; cases h; exact ⟨by simp, .nil _⟩
      · rintro ⟨_, h⟩; cases h; exact .nil
    | cons t ts ih =>
      intro as as' hwf
      obtain ⟨d, n⟩ := t
      constructor
      · intro h
        cases h with
        | cons h1 h2 =>
          rename_i mid
          have hc := h1.charged hwf
          obtain ⟨a1, a2⟩ := takesOf_plays h1
          obtain ⟨b1, b2⟩ := (ih _ _ (All2.wf hc hwf)).mp h2
          simp only [eitherSeg_congr hc] at b1 b2
          refine ⟨?_, ?_⟩
          · intro t ht
            rcases List.mem_cons.mp ht with rfl | ht
            · exact a1
            · exact b1 t ht
          · simp only [List.flatMap_cons]
            exact a2.append b2
      · rintro ⟨h1, h2⟩
        simp only [List.flatMap_cons] at h2
        obtain ⟨mid, p1, p2⟩ := h2.split
        have hc := p1.charged hwf
        have ht := (takesOf_iff hwf t3 t4 (fun h => by rw [k3] at h; cases h) (fun h => by rw [k4] at h; cases h)).mpr ⟨h1 (d, n) (by simp), p1⟩
        refine .cons ht ((ih _ _ (All2.wf hc hwf)).mpr ⟨?_, ?_⟩)
        · intro t h; rw [eitherSeg_congr hc]; exact h1 t (by simp [h])
        · simp only [eitherSeg_congr hc]; exact p2
  constructor
  · rintro ⟨hok, hp⟩
    unfold spendSeg at hp
    obtain ⟨mid, p1, p2⟩ := hp.split
    have hc := p1.charged hw
    refine ⟨mid, ?_, ?_⟩
    · by_cases hn : eitherSeg acts g1 g2 key n = []
      · right
        have : held = true := by
          rcases hok.some with h | h
          · exact absurd hn h
          · exact h
        rw [hn] at p1
        cases p1
        exact ⟨rfl, eitherSeg_nil.mp hn, this⟩
      · exact .inl ((takesOf_iff hw t1 t2 k1 k2).mpr ⟨hn, p1⟩)
    · cases hb : held with
      | false =>
        rw [hb] at p2
        cases p2
        exact .inl ⟨rfl, rfl⟩
      | true =>
        obtain ⟨q1, q2, q3⟩ := hok.dest hb
        rw [hb, if_pos rfl] at p2
        refine .inr ⟨rfl, q1, q2, (each ts mid acts' (All2.wf hc hw)).mpr ⟨?_, ?_⟩⟩
        · intro t h; rw [eitherSeg_congr hc]; exact q3 t h
        · simp only [eitherSeg_congr hc]; exact p2
  · rintro ⟨mid, hg, hd⟩
    have hm : All2 Act.Charged acts mid ∧ Plays slot acts (eitherSeg acts g1 g2 key n) mid ∧ (eitherSeg acts g1 g2 key n ≠ [] ∨ held = true) := by
      rcases hg with hg | ⟨rfl, hn, hh⟩
      · exact ⟨hg.charged hw, (takesOf_plays hg).2, .inl (takesOf_plays hg).1⟩
      · rw [noneOf_seg hn]
        exact ⟨All2.refl' Act.Charged.refl _, .nil _, .inr hh⟩
    obtain ⟨hc, hp, hs⟩ := hm
    rcases hd with ⟨hb, rfl⟩ | ⟨hb, q1, q2, q3⟩
    · subst hb
      refine ⟨⟨hs, fun h => by cases h⟩, ?_⟩
      unfold spendSeg
      simpa using hp
    · subst hb
      obtain ⟨e1, e2⟩ := (each ts mid acts' (All2.wf hc hw)).mp q3
      simp only [eitherSeg_congr hc] at e1 e2
      refine ⟨⟨hs, fun _ => ⟨q1, q2, e1⟩⟩, ?_⟩
      unfold spendSeg
      rw [if_pos rfl]
      exact hp.append e2

theorem solDestHeld_iff {acts : List Act} : solDestHeld acts = false ↔ NoSolDest acts := by
  refine ⟨fun h => ?_, solDestHeld_false⟩
  unfold solDestHeld at h
  rw [List.any_eq_false] at h
  intro a ha
  have := h a ha
  simpa using this

theorem tokenDestHeld_iff {mint : Key} {acts : List Act} : tokenDestHeld mint acts = false ↔ NoTokenDest mint acts := by
  refine ⟨fun h => ?_, tokenDestHeld_false⟩
  unfold tokenDestHeld at h
  rw [List.any_eq_false] at h
  intro a ha ht e
  have := h a ha
  apply this
  simp only [Bool.and_eq_true, Bool.or_eq_true, beq_iff_eq]
  exact ⟨ht, e.symm⟩

theorem sol_settled {x : SignCtx} {acts acts' : List Act} {n slot : Nat} (hw : ∀ a ∈ acts, a.WF) :
    (SolOk x acts n ∧ Plays slot acts (solSeg x acts n) acts') ↔ SolSettled (solTransfers x.wallet x.ixs) acts acts' n slot := by
  have h1 : solDestHeld acts = true ↔ ¬ NoSolDest acts := by rw [← solDestHeld_iff]; simp
  unfold SolOk solSeg SolSettled
  rw [settled_iff hw (by decide) (by decide) (by decide) (by decide) (fun _ => rfl) (fun _ => rfl) rfl rfl, h1, solDestHeld_iff]
  rfl

theorem tokens_settled {x : SignCtx} {src mint : Key} {acts acts' : List Act} {n slot : Nat} (hw : ∀ a ∈ acts, a.WF) :
    (TokenOk x acts src mint n ∧ Plays slot acts (tokenSeg x acts src mint n) acts') ↔
      TokensSettled mint (tokenTransfers src x.ixs) acts acts' n slot := by
  have h1 : tokenDestHeld mint acts = true ↔ ¬ NoTokenDest mint acts := by rw [← tokenDestHeld_iff]; simp
  unfold TokenOk tokenSeg TokensSettled
  rw [settled_iff hw (by decide) (by decide) (by decide) (by decide) (fun h => by cases h) (fun h => by cases h) rfl rfl, h1, tokenDestHeld_iff]
  rfl

/-! ## Programs that may be called -/

theorem programOk_iff {env : Env} {m : Mem} {metas : List Meta} {wallet : Key} {bump : UInt8} {loc : ActLoc} {ixs : List Inner} {i : Inner}
    {w : Wallet} {id : Nat} {r r0 : Role} {before after : List Role} (hp : Placed loc w id r before after) (hd : (m loc.swig).data = w.encode)
    (hr0 : r0.actions = r.actions) (hlen : i.program.length = 32)
    (hu : i.usesSigner = true ↔ ∃ a ∈ i.accounts, a.key = wallet) :
    programOk (signCtx env metas loc.swig wallet bump loc ixs r0) m i = .ok true ↔
      ((∃ a ∈ i.accounts, a.key = wallet) → MayInvoke r.actions i.program) := by
  constructor
  · intro h hw
    have hu := hu.mpr hw
    have hc : All2 Act.Charged r.actions r.actions := All2.refl' Act.Charged.refl _
    have hm := hp.start hd
    unfold programOk at h
    by_cases h1 : (payload? r.actions P.programAll []).isSome = true
    · obtain ⟨a, ha, e⟩ := (payload?_isSome_iff rfl []).mp h1
      exact ⟨a, ha, .inl e⟩
    · have hn : ¬ ((signCtx env metas loc.swig wallet bump loc ixs r0).programAll = true ∨ i.usesSigner = false) := by
        rintro (e | e)
        · exact h1 (by rw [← hr0]; exact e)
        · rw [hu] at e; cases e
      rw [if_neg hn] at h
      by_cases h2 : (signCtx env metas loc.swig wallet bump loc ixs r0).curated = true ∧ isCurated i.program = true
      · have h3 : (!(payload? r0.actions P.programAll []).isSome && (payload? r0.actions P.programCurated []).isSome) = true := h2.1
        rw [Bool.and_eq_true, hr0] at h3
        obtain ⟨a, ha, e⟩ := (payload?_isSome_iff rfl []).mp h3.2
        exact ⟨a, ha, .inr (.inl ⟨e, h2.2⟩)⟩
      · rw [if_neg h2] at h
        have h : loc.has m P.program i.program = .ok true := h
        have h4 := hp.has hc m P.program i.program (fun _ => hlen)
        rw [← hm] at h4
        rw [h4] at h
        have h5 := Except.ok.inj h
        unfold payload? at h5
        rw [Option.isSome_map, List.find?_isSome] at h5
        obtain ⟨a, ha, e⟩ := h5
        obtain ⟨e1, e2⟩ := of_decide_eq_true e
        refine ⟨a, ha, .inr (.inr ⟨e1, ?_⟩)⟩
        have hk : a.data.take 32 = i.program := e2 rfl
        have hl : a.data.length = 32 := by
          have := hp.roleWf.acts a ha
          unfold Act.WF at this
          rw [e1] at this
          exact (Option.some.inj this).symm
        rw [List.take_of_length_le (by omega)] at hk
        exact hk
  · intro h
    by_cases hw : ∃ a ∈ i.accounts, a.key = wallet
    · exact program_ok hp hd hr0 (h hw) hlen
    · have : i.usesSigner = false := by
        cases hb : i.usesSigner with
        | false => rfl
        | true => exact absurd (hu.mp hb) hw
      unfold programOk
      rw [if_pos (.inr this)]

/-! ## What the calls did to the accounts -/

/-- One look at an account. -/
def lookAt (a : Acct) (e : Meta × Class) : Meta × Class :=
  match e.2 with
  | .token b s =>
    if e.1.writable = false ∨ a.data.length < 72 then e
    else (e.1, .token (rd a.data 64 8) (if rd a.data 64 8 < b then satAdd64 s (b - rd a.data 64 8) else s))
  | _ => e

/-- The looks at an account after each of the calls. -/
def lookAll : Meta × Class → List Acct → Meta × Class
  | e, [] => e
  | e, a :: l => lookAll (lookAt a e) l

theorem lookAt_key (a : Acct) (e : Meta × Class) : (lookAt a e).1 = e.1 := by
  unfold lookAt
  split
  · split <;> rfl
  · rfl

theorem lookAll_key : ∀ (l : List Acct) (e : Meta × Class), (lookAll e l).1 = e.1
  | [], _ => rfl
  | a :: l, e => (lookAll_key l _).trans (lookAt_key a e)

theorem lookAt_simple {a : Acct} {e : Meta × Class} (h : e.2.simple = true ∨ e.2.isSwig = true) :
    (lookAt a e).2.simple = true ∨ (lookAt a e).2.isSwig = true := by
  unfold lookAt
  split
  · split
    · exact h
    · exact .inl rfl
  · exact h

theorem lookAll_other : ∀ (l : List Acct) {a : Meta} {c : Class}, (∀ b s, c ≠ .token b s) → lookAll (a, c) l = (a, c)
  | [], _, _, _ => rfl
  | x :: l, a, c, h => by
    have : lookAt x (a, c) = (a, c) := by
      unfold lookAt
      split
      · rename_i b s e; exact absurd e (h b s)
      · rfl
    simp only [lookAll, this]
    exact lookAll_other l h

theorem lookAll_token : ∀ (l : List Acct) (a : Meta) (b s : Nat), s < 2 ^ 64 →
    ∃ b', lookAll (a, .token b s) l = (a, .token b' (if a.writable = true then min (2 ^ 64 - 1) (s + takenFrom b l) else s))
  | [], a, b, s, hs => by
    refine ⟨b, ?_⟩
    simp only [lookAll, takenFrom]
    congr 2
    split <;> omega
  | x :: l, a, b, s, hs => by
    simp only [lookAll]
    by_cases hw : a.writable = true
    · by_cases hx : x.data.length < 72
      · have : lookAt x (a, Class.token b s) = (a, .token b s) := by unfold lookAt; dsimp only; rw [if_pos (.inr hx)]
        rw [this]
        obtain ⟨b', e⟩ := lookAll_token l a b s hs
        refine ⟨b', e.trans ?_⟩
        simp only [takenFrom, if_pos hx]
      · have : lookAt x (a, Class.token b s) =
            (a, .token (rd x.data 64 8) (if rd x.data 64 8 < b then satAdd64 s (b - rd x.data 64 8) else s)) := by
          unfold lookAt
          dsimp only
          rw [if_neg (by rintro (h | h); exacts [absurd (hw.symm.trans h) (by decide), hx h])]
        rw [this]
        obtain ⟨b', e⟩ := lookAll_token l a (rd x.data 64 8) (if rd x.data 64 8 < b then satAdd64 s (b - rd x.data 64 8) else s)
          (by unfold satAdd64; split <;> omega)
        refine ⟨b', e.trans ?_⟩
        simp only [takenFrom, if_neg hx, if_pos hw]
        congr 2
        unfold satAdd64
        split <;> omega
    · have hf : a.writable = false := by simpa using hw
      have : lookAt x (a, Class.token b s) = (a, .token b s) := by unfold lookAt; dsimp only; rw [if_pos (.inl hf)]
      rw [this]
      obtain ⟨b', e⟩ := lookAll_token l a b s hs
      refine ⟨b', e.trans ?_⟩
      simp only [if_neg hw]

theorem runIxs_exact {x : SignCtx} {cpi : Cpi} {good : Mem → Prop}
    (hg : ∀ i ∈ x.ixs, ∀ m m', good m → execInner x.env cpi m x.metas x.wallet x.seeds i = .ok m' → good m') {may : Inner → Prop}
    (hm : ∀ i ∈ x.ixs, ∀ m, good m → (programOk x m i = .ok true ↔ may i)) :
    ∀ {ixs : List Inner} {m : Mem} {l : List (Meta × Class)} {total : Nat}, (∀ i ∈ ixs, i ∈ x.ixs) → good m → total < 2 ^ 64 →
    (∀ e ∈ l, e.2.simple = true ∨ e.2.isSwig = true) →
    ∀ z, runIxs x cpi m l total ixs = .ok z ↔ (∀ i ∈ ixs, may i) ∧
      ∃ m1, execAll x.env cpi x.metas x.wallet x.seeds m ixs = .ok m1 ∧
        z = (m1, l.map fun e => lookAll e (statesEach x.env cpi x.metas x.wallet x.seeds e.1.key m ixs),
          min (2 ^ 64 - 1) (total + (lostEach x.env cpi x.metas x.wallet x.seeds x.wallet m ixs).sum)) := by
  intro ixs
  induction ixs with
  | nil =>
    intro m l total _ _ ht _ z
    simp only [runIxs, execAll, statesEach, lookAll, lostEach, List.sum_nil]
    constructor
    · intro h
      cases h
      exact ⟨by simp, m, rfl, by rw [List.map_id']; congr 2; omega⟩
    · rintro ⟨_, m1, h1, h2⟩
      cases h1
      rw [h2, List.map_id']
      congr 3
      omega
  | cons i ixs ih =>
    intro m l total hin hgm ht hl z
    have hi := hin i (by simp)
    simp only [runIxs]
    constructor
    · intro h
      obtain ⟨b, h1, g1⟩ := bind_ok_iff.mp h
      obtain ⟨_, h2, g2⟩ := bind_ok_iff.mp g1
      obtain ⟨m2, h3, g3⟩ := bind_ok_iff.mp g2
      obtain ⟨l2, h4, g4⟩ := bind_ok_iff.mp g3
      have hb := require_ok_iff.mp h2
      subst hb
      rw [trackAll_simple hl] at h4
      cases h4
      have hg2 := hg i hi m m2 hgm h3
      obtain ⟨k1, m1, k2, rfl⟩ := (ih (fun j hj => hin j (by simp [hj])) hg2 (by unfold satAdd64; omega) (by
        intro e he
        obtain ⟨e0, h0, rfl⟩ := List.mem_map.mp he
        exact lookAt_simple (a := m2 e0.1.key) (hl e0 h0)) z).mp g4
      refine ⟨?_, m1, by simp only [execAll, h3, ok_bind]; exact k2, ?_⟩
      · intro j hj
        rcases List.mem_cons.mp hj with rfl | hj
        · exact (hm _ hi m hgm).mp h1
        · exact k1 j hj
      · simp only [lostEach, statesEach, h3, List.sum_cons, List.map_map]
        congr 2
        · apply List.map_congr_left
          intro e he
          show lookAll (lookAt (m2 e.1.key) e) (statesEach x.env cpi x.metas x.wallet x.seeds (lookAt (m2 e.1.key) e).1.key m2 ixs) = _
          rw [lookAt_key]
          rfl
        · unfold satAdd64; omega
    · rintro ⟨h1, m1, h2, rfl⟩
      simp only [execAll] at h2
      obtain ⟨m2, h3, h4⟩ := bind_ok_iff.mp h2
      have hg2 := hg i hi m m2 hgm h3
      rw [(hm _ hi m hgm).mpr (h1 i (by simp)), ok_bind, require_of rfl, ok_bind, h3, ok_bind, trackAll_simple hl, ok_bind]
      refine (ih (fun j hj => hin j (by simp [hj])) hg2 (by unfold satAdd64; omega) (by
        intro e he
        obtain ⟨e0, h0, rfl⟩ := List.mem_map.mp he
        exact lookAt_simple (a := m2 e0.1.key) (hl e0 h0)) _).mpr ⟨fun j hj => h1 j (by simp [hj]), m1, h4, ?_⟩
      simp only [lostEach, statesEach, h3, List.sum_cons, List.map_map]
      congr 2
      · apply List.map_congr_left
        intro e he
        show _ = lookAll (lookAt (m2 e.1.key) e) (statesEach x.env cpi x.metas x.wallet x.seeds (lookAt (m2 e.1.key) e).1.key m2 ixs)
        rw [lookAt_key]
        rfl
      · unfold satAdd64; omega

/-! ## Snapshots -/

theorem snapAll_exact {x : SignCtx} {m : Mem} : ∀ {l : List (Meta × Class)} {i : Nat},
    (∀ e ∈ l, (e.2.simple = true ∨ e.2.isSwig = true) ∧ (e.2.tracked = true → 72 ≤ (m e.1.key).data.length)) →
    ∀ hs, snapAll x m i l = .ok hs ↔ hs = l.map (snapPure x.env m) ∧
      ∀ j e, l[j]? = some e → e.1.writable = true → e.2.tracked = true ∨ e.2.isSwig = true → i + j < 100 := by
  intro l
  induction l with
  | nil =>
    intro i _ hs
    simp only [snapAll]
    exact ⟨fun h => by cases h; exact ⟨rfl, fun j e h => by simp at h⟩, fun h => by rw [h.1]; rfl⟩
  | cons e l ih =>
    intro i h hs
    obtain ⟨a, c⟩ := e
    obtain ⟨h0, h1⟩ := h (a, c) (by simp)
    have h2 : ∀ o, snap x m i a c = .ok o ↔ o = snapPure x.env m (a, c) ∧ (a.writable = true → c.tracked = true ∨ c.isSwig = true → i < 100) := by
      intro o
      unfold snap snapPure
      by_cases hw : a.writable = false
      · rw [if_pos hw, if_pos hw]
        exact ⟨fun h => (by cases h; exact ⟨rfl, fun h => absurd (hw.symm.trans h) (by decide)⟩), fun h => by rw [h.1]⟩
      · rw [if_neg hw, if_neg hw]
        have hw' : a.writable = true := by simpa using hw
        cases c with
        | none => exact ⟨fun h => by cases h; exact ⟨rfl, fun _ h => by rcases h with h | h <;> cases h⟩, fun h => by rw [h.1]; rfl⟩
        | wallet => exact ⟨fun h => by cases h; exact ⟨rfl, fun _ h => by rcases h with h | h <;> cases h⟩, fun h => by rw [h.1]; rfl⟩
        | thisSwig _ =>
          simp only [snapRanges, ok_bind, snapHash, hashExcept_nil]
          split
          · rename_i hi
            exact ⟨fun h => (by cases h), fun h => absurd (h.2 hw' (.inr rfl)) (by omega)⟩
          · rename_i hi
            exact ⟨fun h => (by cases h; exact ⟨rfl, fun _ _ => by omega⟩), fun h => by rw [h.1]⟩
        | token b s =>
          simp only [snapRanges, ok_bind, snapHash]
          rw [hashExcept_token x.env (h1 rfl), ok_bind]
          split
          · rename_i hi
            exact ⟨fun h => (by cases h), fun h => absurd (h.2 hw' (.inl rfl)) (by omega)⟩
          · rename_i hi
            exact ⟨fun h => (by cases h; exact ⟨rfl, fun _ _ => by omega⟩), fun h => by rw [h.1]⟩
        | stake => rcases h0 with h | h <;> cases h
        | scope => rcases h0 with h | h <;> cases h
    simp only [snapAll]
    constructor
    · intro g
      obtain ⟨o, g1, g⟩ := bind_ok_iff.mp g
      obtain ⟨hs', g2, g⟩ := bind_ok_iff.mp g
      cases g
      obtain ⟨rfl, k1⟩ := (h2 o).mp g1
      obtain ⟨rfl, k2⟩ := (ih (fun e he => h e (by simp [he])) _).mp g2
      refine ⟨rfl, ?_⟩
      intro j e hj hw ht
      cases j with
      | zero =>
        simp only [List.getElem?_cons_zero, Option.some.injEq] at hj
        subst hj
        exact k1 hw ht
      | succ j =>
        simp only [List.getElem?_cons_succ] at hj
        have := k2 j e hj hw ht
        omega
    · rintro ⟨rfl, k⟩
      rw [(h2 _).mpr ⟨rfl, fun hw ht => by have := k 0 (a, c) rfl hw ht; omega⟩, ok_bind,
        (ih (fun e he => h e (by simp [he])) _).mpr ⟨rfl, fun j e hj hw ht => by
          have := k (j + 1) e (by simpa using hj) hw ht
          omega⟩, ok_bind]
      rfl

/-! ## Settlement of the accounts -/

theorem recheck_token_iff {x : SignCtx} {m m1 : Mem} {a : Meta} {b s : Nat} (hl : 72 ≤ (m1 a.key).data.length) :
    recheck x m1 a (snapPure x.env m (a, .token b s)) [(64, 72)] = .ok () ↔
      (a.writable = true → x.env.sha256 ((m1 a.key).owner ++ exceptBytes (m1 a.key).data 0 [(64, 72)]) =
        x.env.sha256 ((m a.key).owner ++ exceptBytes (m a.key).data 0 [(64, 72)])) := by
  unfold recheck snapPure
  by_cases hw : a.writable = false
  · rw [if_pos hw]
    exact ⟨fun _ h => absurd (hw.symm.trans h) (by decide), fun _ => rfl⟩
  · have hw' : a.writable = true := by simpa using hw
    rw [if_neg hw, if_neg hw, hashExcept_token x.env hl, ok_bind]
    simp only [orErr, ok_bind]
    rw [require_ok_iff]
    exact ⟨fun h _ => h.symm, fun h => (h hw').symm⟩

section
variable {x : SignCtx} {w : Wallet} {id : Nat} {r : Role} {before after : List Role}

theorem Placed.settles_iff (h : Placed x.loc w id r before after) (hk : Keys32 x) {m m1 : Mem} {total : Nat} {states : Key → List Acct} :
    ∀ {l : List Meta} {cls : List Class} {as : List Act}, All2 Act.Charged r.actions as → All2 (PlainClass m x.loc.swig x.wallet) l cls →
    (∀ a ∈ l, a.key.length = 32) → (m x.loc.swig).owner = swigId →
    ((∃ m', Verif.settleAll x total (cfgMem x.loc w id m1 as) ((l.zip cls).map fun e => lookAll e (states e.1.key))
        ((l.zip cls).map (snapPure x.env m)) = .ok m') ↔
      ∃ as', Settles x.env m m1 x.loc.swig x.wallet
        (fun a => if a.writable = true then min (2 ^ 64 - 1) (takenFrom (rd (m a.key).data 64 8) (states a.key)) else 0)
        (fun a => x.ixs.filterMap (tokenTransferFrom a.key)) as l as') := by
  intro l
  induction l with
  | nil =>
    intro cls as _ _ _ _
    exact ⟨fun _ => ⟨as, .nil⟩, fun _ => ⟨_, rfl⟩⟩
  | cons a l ih =>
    intro cls as hc hpc h32 hown
    obtain ⟨c, cls, rfl, p1, p2⟩ := hpc.uncons
    have hwf := All2.wf hc h.roleWf.acts
    simp only [List.zip_cons_cons, List.map_cons, Verif.settleAll]
    have hk1 := lookAll_key (states a.key) (a, c)
    by_cases hwat : TokenOf m x.loc.swig a.key ∨ TokenOf m x.wallet a.key
    · obtain rfl := p1.token hwat
      obtain ⟨b', e⟩ := lookAll_token (states a.key) a (rd (m a.key).data 64 8) 0 (by decide)
      rw [Nat.zero_add] at e
      rw [e]
      dsimp only
      have hne : a.key ≠ x.loc.swig := by
        intro e
        rw [e] at hwat
        rcases hwat with t | t <;> rcases t.program with e | e <;> rw [hown] at e <;> exact absurd e (by decide +kernel)
      have ha32 := h32 a (by simp)
      have hlt : (if a.writable = true then min (2 ^ 64 - 1) (takenFrom (rd (m a.key).data 64 8) (states a.key)) else 0) < 2 ^ 64 := by
        split <;> omega
      constructor
      · rintro ⟨m', g⟩
        obtain ⟨m2, g1, g2⟩ := bind_ok_iff.mp g
        obtain ⟨as1, rfl, q1, q2, q3⟩ := h.settleOne hk hc rfl (fun _ => ⟨hne, ha32⟩) g1
        obtain ⟨as', q4⟩ := (ih (charged_trans hc q2) p2 (fun a ha => h32 a (by simp [ha])) hown).mp ⟨m', g2⟩
        refine ⟨as', ?_⟩
        generalize hsp : (if a.writable = true then min (2 ^ 64 - 1) (takenFrom (rd (m a.key).data 64 8) (states a.key)) else 0) = sp at *
        rcases q3 with ⟨k1, k2, k3, k4⟩ | ⟨k1, k2, k3, k4, k5, k6⟩
        · simp only [segOf, if_pos (Or.inl k1 : Gone (m1 a.key) ∨ sp = 0)] at q1
          cases q1
          exact .closed hwat ((payload?_isSome_iff rfl []).mp k2) k3 k4 q4
        · refine .kept (mid := as1) hwat (fun e => k1 (.inr e)) k2 ((recheck_token_iff (by omega)).mp k3) k4 k5 ?_ q4
          rw [hsp]
          simp only [segOf] at q1
          by_cases hz : sp = 0
          · rw [if_pos (.inr hz)] at q1
            cases q1
            exact .inl ⟨hz, rfl⟩
          · rw [if_neg (by rintro (h | h); exacts [k1 h, hz h])] at q1
            refine .inr ⟨hz, ?_⟩
            have := (tokens_settled hwf).mp ⟨k6 hz, q1⟩
            rwa [tokenTransfers_eq] at this
      · rintro ⟨as', hs⟩
        suffices step : ∃ mid, OkOf x m1 as a (snapPure x.env m (a, .token (rd (m a.key).data 64 8) 0))
              (.token b' (if a.writable = true then min (2 ^ 64 - 1) (takenFrom (rd (m a.key).data 64 8) (states a.key)) else 0)) ∧
            Plays x.env.slot as (segOf x m1 as a
              (.token b' (if a.writable = true then min (2 ^ 64 - 1) (takenFrom (rd (m a.key).data 64 8) (states a.key)) else 0))) mid ∧
            Settles x.env m m1 x.loc.swig x.wallet
              (fun a => if a.writable = true then min (2 ^ 64 - 1) (takenFrom (rd (m a.key).data 64 8) (states a.key)) else 0)
              (fun a => x.ixs.filterMap (tokenTransferFrom a.key)) mid l as' by
          obtain ⟨mid, o1, o2, o3⟩ := step
          have hc1 := o2.charged hwf
          obtain ⟨m', g⟩ := (ih (charged_trans hc hc1) p2 (fun a ha => h32 a (by simp [ha])) hown).mpr ⟨as', o3⟩
          have one := h.settleOne_of (total := total) hk hc (m := m1) (hh := snapPure x.env m (a, .token (rd (m a.key).data 64 8) 0)) rfl
            (fun _ => ⟨hne, ha32⟩) (by intro b s e; cases e; exact hlt) o1 o2
          refine ⟨m', ?_⟩
          rw [one, ok_bind]
          exact g
        generalize hsp : (if a.writable = true then min (2 ^ 64 - 1) (takenFrom (rd (m a.key).data 64 8) (states a.key)) else 0) = sp at *
        cases hs with
        | skip h1 => exact absurd hwat h1
        | closed _ h2 h3 h4 h5 =>
          refine ⟨as, .inl ⟨.inr h3, (payload?_isSome_iff rfl []).mpr h2, h3, h4⟩, ?_, h5⟩
          simp only [segOf, if_pos (Or.inl (.inr h3) : Gone (m1 a.key) ∨ sp = 0)]
          exact .nil _
        | kept _ h2 h3 h4 h5 h6 h7 h8 =>
          rename_i mid _
          have hng : ¬ Gone (m1 a.key) := by
            rintro (e | e)
            · rw [e] at h3; simp at h3
            · exact h2 e
          rw [hsp] at h7
          rcases h7 with ⟨hz, rfl⟩ | ⟨hz, ht⟩
          · refine ⟨mid, .inr ⟨hng, h3, (recheck_token_iff (by omega)).mpr h4, h5, h6, fun e => absurd hz e⟩, ?_, h8⟩
            simp only [segOf, if_pos (Or.inr hz : Gone (m1 a.key) ∨ sp = 0)]
            exact .nil _
          · rw [← tokenTransfers_eq] at ht
            obtain ⟨t1, t2⟩ := (tokens_settled (x := x) hwf).mpr ht
            refine ⟨mid, .inr ⟨hng, h3, (recheck_token_iff (by omega)).mpr h4, h5, h6, fun _ => t1⟩, ?_, h8⟩
            simp only [segOf]
            rw [if_neg (by rintro (h | h); exacts [hng h, hz h])]
            exact t2
    · have hnt := p1.other hwat
      have hl : lookAll (a, c) (states a.key) = (a, c) := lookAll_other _ (by rintro b s rfl; cases hnt)
      rw [hl]
      have hone : ∀ hh, Verif.settleOne x (cfgMem x.loc w id m1 as) a c hh total = .ok (cfgMem x.loc w id m1 as) := by
        intro hh
        have hsim := p1.simple
        cases c with
        | none => rfl
        | wallet => rfl
        | thisSwig _ => cases hsim
        | token => cases hnt
        | stake => cases hsim
        | scope => cases hsim
      rw [hone, ok_bind, ih hc p2 (fun a ha => h32 a (by simp [ha])) hown]
      constructor
      · rintro ⟨as', h⟩
        exact ⟨as', .skip hwat h⟩
      · rintro ⟨as', h⟩
        cases h with
        | skip _ h => exact ⟨as', h⟩
        | closed h1 => exact absurd h1 hwat
        | kept h1 => exact absurd h1 hwat

end

/-! ## The whole signing -/

theorem solTransfers_eq' (src : Key) (ixs : List Inner) : solTransfers src ixs = ixs.filterMap (transferFrom src) := rfl

theorem signLimited_iff {env : Env} {cpi : Cpi} {m : Mem} {swig wallet : Meta} {rest : List Meta} {n : Nat} {tl : List Class} {bump : UInt8}
    {loc : ActLoc} {ixs : List Inner} {w : Wallet} {id : Nat} {r r0 : Role} {before after : List Role}
    (hp : Placed loc w id r before after) (hr0 : r0.actions = r.actions) (hloc : loc.swig = swig.key) (hd : (m swig.key).data = w.encode)
    (ho : (m swig.key).owner = swigId) (hw : (m wallet.key).owner = systemId) (hkeep : cpi.Keeps swig.key)
    (h32 : ∀ a ∈ rest, a.key.length = 32) (hk : ∀ ix ∈ ixs, ∀ a ∈ ix.accounts, a.key.length = 32)
    (hprog : ∀ i ∈ ixs, i.program.length = 32) (hu : ∀ i ∈ ixs, (i.usesSigner = true ↔ ∃ a ∈ i.accounts, a.key = wallet.key))
    (hpc : All2 (PlainClass m swig.key wallet.key) rest tl) :
    (∃ m', signLimited (signCtx env (swig :: wallet :: rest) swig.key wallet.key bump loc ixs r0) cpi m
        (.thisSwig n :: .wallet :: tl) = .ok m') ↔
      ∃ m1, LimitsAllow env cpi m m1 (swig :: wallet :: rest) swig.key wallet.key (walletSeeds swig.key ++ [[bump]]) r.actions ixs := by
  have hc : All2 Act.Charged r.actions r.actions := All2.refl' Act.Charged.refl _
  have hwf := hp.roleWf.acts
  have hdl : (m loc.swig).data = w.encode := by rw [hloc]; exact hd
  obtain ⟨x, hx⟩ : ∃ x, x = signCtx env (swig :: wallet :: rest) swig.key wallet.key bump loc ixs r0 := ⟨_, rfl⟩
  have e1 : x.env = env := by rw [hx]; rfl
  have e2 : x.metas = swig :: wallet :: rest := by rw [hx]; rfl
  have e3 : x.wallet = wallet.key := by rw [hx]; rfl
  have e4 : x.seeds = walletSeeds swig.key ++ [[bump]] := by rw [hx]; rfl
  have e5 : x.loc = loc := by rw [hx]; rfl
  have e6 : x.ixs = ixs := by rw [hx]; rfl
  have hk32 : Keys32 x := by unfold Keys32; rw [e6]; exact hk
  have hpx : Placed x.loc w id r before after := by rw [e5]; exact hp
  rw [← hx]
  have notw : ∀ k, TokenOf m k wallet.key → False := by
    intro k t
    rcases t.program with e | e <;> rw [hw] at e <;> exact absurd e (by decide +kernel)
  have nots : ∀ k, TokenOf m k swig.key → False := by
    intro k t
    rcases t.program with e | e <;> rw [ho] at e <;> exact absurd e (by decide +kernel)
  have hzip : (swig :: wallet :: rest).zip (Class.thisSwig n :: .wallet :: tl) = (swig, .thisSwig n) :: (wallet, .wallet) :: rest.zip tl := rfl
  have hmem : ∀ {l : List Meta} {t : List Class}, All2 (PlainClass m swig.key wallet.key) l t → ∀ e ∈ l.zip t,
      e.1 ∈ l ∧ PlainClass m swig.key wallet.key e.1 e.2 := by
    intro l t h
    induction h with
    | nil => intro e he; simp at he
    | cons h1 _ ih =>
      intro e he
      rcases List.mem_cons.mp he with rfl | he
      · exact ⟨by simp, h1⟩
      · exact ⟨by simp [(ih e he).1], (ih e he).2⟩
  have hcls : ∀ e ∈ (swig :: wallet :: rest).zip (Class.thisSwig n :: .wallet :: tl), e.2.simple = true ∨ e.2.isSwig = true := by
    rw [hzip]
    intro e he
    rcases List.mem_cons.mp he with rfl | he
    · exact .inr rfl
    · rcases List.mem_cons.mp he with rfl | he
      · exact .inl rfl
      · exact .inl (hmem hpc e he).2.simple
  have htr : ∀ e ∈ rest.zip tl, e.2.tracked = true → 72 ≤ (m e.1.key).data.length := by
    intro e he ht
    have hpl := (hmem hpc e he).2
    by_cases hwat : TokenOf m swig.key e.1.key ∨ TokenOf m wallet.key e.1.key
    · rcases hwat with t | t <;> have := t.long <;> omega
    · rw [hpl.other hwat] at ht; cases ht
  have hsn := snapAll_exact (x := x) (m := m) (i := 0) (l := (swig :: wallet :: rest).zip (Class.thisSwig n :: .wallet :: tl)) (by
    intro e he
    refine ⟨hcls e he, ?_⟩
    rw [hzip] at he
    rcases List.mem_cons.mp he with rfl | he
    · intro h; cases h
    · rcases List.mem_cons.mp he with rfl | he
      · intro h; cases h
      · exact htr e he)
  have hlen : rest.length = tl.length := hpc.length'
  have hfirst : (∀ j e, ((swig :: wallet :: rest).zip (Class.thisSwig n :: .wallet :: tl))[j]? = some e → e.1.writable = true →
      e.2.tracked = true ∨ e.2.isSwig = true → 0 + j < 100) ↔
      ∀ (i : Nat) (a : Meta), (swig :: wallet :: rest)[i]? = some a → a.writable = true → Watched m swig.key wallet.key a → i < 100 := by
    constructor
    · intro h i a hi hwr hwat
      match i, hi with
      | 0, _ => omega
      | 1, hi =>
        simp at hi
        subst hi
        rcases hwat with t | t <;> exact (notw _ t).elim
      | i + 2, hi =>
        simp only [List.getElem?_cons_succ] at hi
        obtain ⟨hlt, hget⟩ := List.getElem?_eq_some_iff.mp hi
        have hz : ((swig :: wallet :: rest).zip (Class.thisSwig n :: .wallet :: tl))[i + 2]? = some (a, tl[i]'(by omega)) := by
          rw [hzip]
          simp only [List.getElem?_cons_succ]
          rw [List.getElem?_eq_some_iff]
          refine ⟨by rw [List.length_zip]; omega, ?_⟩
          rw [List.getElem_zip, hget]
        have hpl := (hmem hpc _ (List.mem_of_getElem? (by
          rw [hzip] at hz
          simpa only [List.getElem?_cons_succ] using hz))).2
        have := h (i + 2) _ hz hwr (.inl (by rw [hpl.token hwat]; rfl))
        omega
    · intro h j e hj hwr ht
      rw [hzip] at hj
      match j, hj with
      | 0, _ => omega
      | 1, hj =>
        simp at hj
        subst hj
        rcases ht with h | h <;> cases h
      | j + 2, hj =>
        simp only [List.getElem?_cons_succ] at hj
        have hin := List.mem_of_getElem? hj
        have hpl := (hmem hpc e hin).2
        have hwat : Watched m swig.key wallet.key e.1 := by
          refine Classical.byContradiction fun hno => ?_
          have h1 := hpl.other hno
          have h2 := hpl.simple
          rcases ht with h | h
          · rw [h1] at h; cases h
          · revert h h2
            cases e.2 <;> intro a b <;> cases a <;> cases b
        obtain ⟨hlt, hget⟩ := List.getElem?_eq_some_iff.mp hj
        rw [List.getElem_zip] at hget
        rw [List.length_zip] at hlt
        have := h (j + 2) e.1 (by
          simp only [List.getElem?_cons_succ]
          rw [List.getElem?_eq_some_iff]
          exact ⟨by omega, by rw [← hget]⟩) hwr hwat
        omega
  have hrun := runIxs_exact (x := x) (cpi := cpi) (good := fun m' => (m' swig.key).data = w.encode)
    (by
      intro i _ m1 m2 hg he
      rcases execInner_cpi he with he | ⟨d, k, rfl⟩
      · rw [(hkeep _ _ _ he).1]; exact hg
      · rw [directTransfer_data]; exact hg)
    (may := fun i => (∃ a ∈ i.accounts, a.key = wallet.key) → MayInvoke r.actions i.program)
    (by
      intro i hi m1 hg
      rw [e6] at hi
      rw [hx, ← hloc]
      exact programOk_iff hp (by rw [hloc]; exact hg) hr0 (hprog i hi) (hu i hi))
    (ixs := x.ixs) (m := m) (l := x.metas.zip (Class.thisSwig n :: .wallet :: tl)) (total := 0) (fun _ h => h) hd (by decide) (by rw [e2]; exact hcls)
  have hhead : ∀ m1, (m1 swig.key).data = w.encode → (m1 swig.key).owner = (m swig.key).owner → ∀ total, total < 2 ^ 64 → ∀ m2,
      settleOne x m1 swig (.thisSwig n) (snapPure x.env m (swig, .thisSwig n)) total = .ok m2 ↔
        x.env.rent (m1 wallet.key).data.length ≤ (m1 wallet.key).lamports ∧ ∃ mid, m2 = cfgMem x.loc w id m1 mid ∧
          ((total = 0 ∧ mid = r.actions) ∨ (total ≠ 0 ∧ SolSettled (ixs.filterMap (transferFrom wallet.key)) r.actions mid total x.env.slot)) := by
    intro m1 k1 k2 total ht m2
    have hd1 : (m1 x.loc.swig).data = w.encode := by rw [e5, hloc]; exact k1
    have hst := hpx.start hd1
    simp only [settleOne, settleSwig]
    rw [recheck_nil k2 (k1.trans hd.symm), ok_bind, e3]
    constructor
    · intro h
      obtain ⟨_, h1, h⟩ := bind_ok_iff.mp h
      refine ⟨require_ok_iff.mp h1, ?_⟩
      by_cases hz : total = 0
      · rw [if_pos hz] at h
        cases h
        exact ⟨r.actions, hst, .inl ⟨hz, rfl⟩⟩
      · rw [if_neg hz, hst] at h
        obtain ⟨as1, q1, q2, q3, q4⟩ := hpx.settleSol hk32 hc h
        refine ⟨as1, q1, .inr ⟨hz, ?_⟩⟩
        have := (sol_settled hwf).mp ⟨q4, q2⟩
        rwa [solTransfers_eq', e3, e6] at this
    · rintro ⟨h1, mid, rfl, h2⟩
      rw [require_of h1, ok_bind]
      rcases h2 with ⟨hz, rfl⟩ | ⟨hz, h2⟩
      · rw [if_pos hz, ← hst]
      · rw [if_neg hz]
        rw [← e6, ← e3, ← solTransfers_eq'] at h2
        obtain ⟨q1, q2⟩ := (sol_settled hwf).mpr h2
        have := hpx.settleSol_of hk32 hc (m := m1) ht q1 q2
        rwa [← hst] at this
  have hm1 : ∀ {m1 : Mem}, execAll env cpi (swig :: wallet :: rest) wallet.key (walletSeeds swig.key ++ [[bump]]) m ixs = .ok m1 →
      (m1 swig.key).data = w.encode ∧ (m1 swig.key).owner = (m swig.key).owner := by
    intro m1 h
    have := execAll_keeps hkeep h
    exact ⟨this.1.trans hd, this.2⟩
  rw [e1, e2, e3, e4, e6, Nat.zero_add] at hrun
  rw [e1] at hsn hhead
  have hset := fun (m1 : Mem) (total : Nat) (as : List Act) (hc : All2 Act.Charged r.actions as) =>
    hpx.settles_iff hk32 (m := m) (m1 := m1) (total := total)
      (states := fun k => statesEach env cpi (swig :: wallet :: rest) wallet.key (walletSeeds swig.key ++ [[bump]]) k m ixs) (l := rest) (cls := tl)
      hc (by rw [e5, hloc, e3]; exact hpc) h32 (by rw [e5, hloc]; exact ho)
  rw [e1, e3, e5, hloc, e6] at hset
  have hlook : ((swig :: wallet :: rest).zip (Class.thisSwig n :: .wallet :: tl)).map (fun e => lookAll e
      (statesEach env cpi (swig :: wallet :: rest) wallet.key (walletSeeds swig.key ++ [[bump]]) e.1.key m ixs)) =
      (swig, .thisSwig n) :: (wallet, .wallet) :: (rest.zip tl).map (fun e => lookAll e
        (statesEach env cpi (swig :: wallet :: rest) wallet.key (walletSeeds swig.key ++ [[bump]]) e.1.key m ixs)) := by
    rw [hzip, List.map_cons, List.map_cons, lookAll_other _ (by intro b s h; cases h), lookAll_other _ (by intro b s h; cases h)]
  have hsum : ∀ k : Nat, min (2 ^ 64 - 1) k = 0 ↔ k = 0 := by intro k; omega
  have hskip : ∀ {taken : Meta → Nat} {paid : Meta → List (Key × Nat)} {m1 : Mem} {as as' : List Act},
      Settles env m m1 swig.key wallet.key taken paid as (swig :: wallet :: rest) as' ↔
        Settles env m m1 swig.key wallet.key taken paid as rest as' := by
    have n1 : ¬ Watched m swig.key wallet.key swig := by rintro (t | t) <;> exact nots _ t
    have n2 : ¬ Watched m swig.key wallet.key wallet := by rintro (t | t) <;> exact notw _ t
    intro taken paid m1 as as'
    constructor
    · intro h
      cases h with
      | skip _ h =>
        cases h with
        | skip _ h => exact h
        | closed h1 => exact absurd h1 n2
        | kept h1 => exact absurd h1 n2
      | closed h1 => exact absurd h1 n1
      | kept h1 => exact absurd h1 n1
    · exact fun h => .skip n1 (.skip n2 h)
  unfold signLimited
  rw [e2, e6]
  constructor
  · rintro ⟨m', h⟩
    obtain ⟨hs, h1, g1⟩ := bind_ok_iff.mp h
    obtain ⟨⟨m1, acc, total⟩, h2, h3⟩ := bind_ok_iff.mp g1
    obtain ⟨rfl, k1⟩ := (hsn hs).mp h1
    obtain ⟨k2, m1', k3, k4⟩ := (hrun _).mp h2
    simp only [Prod.mk.injEq] at k4
    obtain ⟨rfl, rfl, rfl⟩ := k4
    rw [hlook, hzip] at h3
    simp only [List.map_cons, settleAll] at h3
    obtain ⟨m2, h4, h5⟩ := bind_ok_iff.mp h3
    obtain ⟨q1, mid, rfl, q3⟩ := (hhead m1 (hm1 k3).1 (hm1 k3).2 _ (by omega) m2).mp h4
    obtain ⟨m3, h6, h7⟩ := bind_ok_iff.mp h5
    cases h6
    have hcm : All2 Act.Charged r.actions mid := by
      rcases q3 with ⟨_, rfl⟩ | ⟨_, q⟩
      · exact hc
      · rw [← e6, ← e3, ← solTransfers_eq'] at q
        exact ((sol_settled hwf).mpr q).2.charged hwf
    obtain ⟨as', q4⟩ := (hset m1 _ mid hcm).mp ⟨m', by rw [← e5]; exact h7⟩
    refine ⟨m1, k2, k3, q1, hfirst.mp k1, mid, as', ?_, hskip.mpr q4⟩
    rcases q3 with ⟨a, b⟩ | ⟨a, b⟩
    · exact .inl ⟨(hsum _).mp a, b⟩
    · exact .inr ⟨fun e => a ((hsum _).mpr e), b⟩
  · rintro ⟨m1, k2, k3, q1, k1, mid, as', q3, q4⟩
    have hcm : All2 Act.Charged r.actions mid := by
      rcases q3 with ⟨_, rfl⟩ | ⟨_, q⟩
      · exact hc
      · rw [← e6, ← e3, ← solTransfers_eq'] at q
        exact ((sol_settled hwf).mpr q).2.charged hwf
    rw [(hsn _).mpr ⟨rfl, hfirst.mpr k1⟩, ok_bind, (hrun _).mpr ⟨k2, m1, k3, rfl⟩, ok_bind]
    dsimp only
    rw [hlook, hzip]
    simp only [List.map_cons, settleAll]
    rw [(hhead m1 (hm1 k3).1 (hm1 k3).2 _ (by omega) (cfgMem x.loc w id m1 mid)).mpr ⟨q1, mid, rfl, by
      rcases q3 with ⟨a, b⟩ | ⟨a, b⟩
      · exact .inl ⟨(hsum _).mpr a, b⟩
      · exact .inr ⟨fun e => a ((hsum _).mp e), b⟩⟩, ok_bind]
    rw [e5]
    exact (hset m1 _ mid hcm).mpr ⟨as', hskip.mp q4⟩

end Verif
