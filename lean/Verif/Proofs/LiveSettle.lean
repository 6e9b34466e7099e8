import Verif.Proofs.SettleAll

/-! When the settlement of a restricted signing succeeds: the converse of `Proofs/Settle.lean` and `Proofs/SettleAll.lean`. -/

namespace Verif

theorem Plays.split {slot : Nat} {cs' : List Chg} : ∀ {cs : List Chg} {as as2 : List Act}, Plays slot as (cs ++ cs') as2 →
    ∃ as1, Plays slot as cs as1 ∧ Plays slot as1 cs' as2 := by
  intro cs
  induction cs with
  | nil => intro as as2 h; exact ⟨as, .nil _, h⟩
  | cons c cs ih =>
    intro as as2 h
    cases h with
    | cons _ h1 h2 =>
      obtain ⟨as1, h3, h4⟩ := ih h2
      exact ⟨as1, .cons c h1 h3, h4⟩

theorem Plays.charged {slot : Nat} {as as' : List Act} {cs : List Chg} (h : Plays slot as cs as') (hw : ∀ a ∈ as, a.WF) :
    All2 Act.Charged as as' := (h.payload hw).1

theorem SpendOk.later {as as' : List Act} (h : All2 Act.Charged as as') {g1 g2 d1 d2 : Nat} {key : Bytes} {kf : Key → Bytes}
    {held : Bool} {spent : Nat} {ts : List (Key × Nat)} (hs : SpendOk as g1 g2 d1 d2 key kf held spent ts) :
    SpendOk as' g1 g2 d1 d2 key kf held spent ts := by
  obtain ⟨h1, h2⟩ := hs
  simp only [← eitherSeg_congr h] at h1 h2
  exact ⟨h1, h2⟩

theorem OkOf.later {x : SignCtx} {m : Mem} {as as' : List Act} (h : All2 Act.Charged as as') {a : Meta} {hh : Option Bytes} {c : Class}
    (ho : OkOf x m as a hh c) : OkOf x m as' a hh c := by
  cases c with
  | none => trivial
  | thisSwig _ => trivial
  | wallet => trivial
  | token b spent =>
    rcases ho with ⟨h1, h2, h3⟩ | ⟨h1, h2, h3, h4, h5, h6⟩
    · exact .inl ⟨h1, by rw [payload?_charged h]; exact h2, h3⟩
    · refine .inr ⟨h1, h2, h3, h4, h5, fun hs => ?_⟩
      unfold TokenOk at *
      rw [tokenDestHeld_charged _ h]
      exact (h6 hs).later h
  | stake st b l spent =>
    obtain ⟨h1, h2⟩ := ho
    refine ⟨h1, ?_⟩
    simp only [payload?_charged h, eitherSeg_congr h]
    exact h2
  | scope ro b spent =>
    obtain ⟨s, rs, h1, h2, h3⟩ := ho
    have : (payload? as' P.programScope a.key).isSome = true := by rw [payload?_charged h, h1]; rfl
    obtain ⟨s', hs'⟩ := Option.isSome_iff_exists.mp this
    obtain ⟨s0, h4, h5⟩ := payload?_chargedTo h hs'
    rw [h1] at h4
    cases h4
    refine ⟨s', rs, hs', ?_, h3⟩
    obtain ⟨e1, e2, _⟩ := scope_decode_fixed h5
    unfold scopeRange at *
    rw [e1, e2]
    exact h2

section
variable {l : ActLoc} {w : Wallet} {id : Nat} {r : Role} {before after : List Role}

/-- A charge that a limit of the role covers. -/
theorem Placed.charge_of (h : Placed l w id r before after) {as as' : List Act} (hc : All2 Act.Charged r.actions as) {m : Mem}
    {ty : Nat} {key : Bytes} {n slot : Nat} (hk : repeatable ty = true → key.length = keyLen ty)
    (hf : chargeFirst ty key (chargeFn ty n slot) as = .ok (some as')) :
    l.charge (cfgMem l w id m as) ty key (chargeFn ty n slot) = .ok (some (cfgMem l w id m as')) := by
  have hwf := All2.wf hc h.roleWf.acts
  have : ∃ o, l.charge (cfgMem l w id m as) ty key (chargeFn ty n slot) = .ok o ∧ o.isSome = true := by
    unfold ActLoc.charge
    rw [h.bytes hc]
    simp only [ok_bind]
    unfold getActionMut
    rcases getActionGo_grants ty key as hwf (h.actsLt hc) hk with ⟨a, ab, aa, k1, k2, k3, k4⟩ | ⟨k1, k2⟩
    · rw [k4]
      simp only [ok_bind]
      have ha : a.WF := hwf a (by simp [k1])
      have hal : (actionLen ty).getD 0 = a.data.length := by rw [← k2.1, ha]; rfl
      have hd : ∃ d, chargeFn ty n slot a.data = .ok d := by
        cases hd : chargeFn ty n slot a.data with
        | ok d => exact ⟨d, rfl⟩
        | error e =>
          exfalso
          rw [k1] at hf
          have : chargeFirst ty key (chargeFn ty n slot) (ab ++ a :: aa) = .error e := by
            clear hf k1 k4 hwf
            induction ab with
            | nil => simp only [List.nil_append, chargeFirst]; rw [if_pos k2, hd]
            | cons b ab ih =>
              simp only [List.cons_append, chargeFirst]
              rw [if_neg (k3 b (by simp)), ih (fun x hx => k3 x (by simp [hx]))]
          rw [this] at hf
          cases hf
      obtain ⟨d, hd⟩ := hd
      unfold ActLoc.write
      rw [hal, sl_encActs_mid as ab aa a k1, hd]
      exact ⟨_, rfl, rfl⟩
    · exfalso
      rcases chargeFirst_ok hf with ⟨e, _⟩ | ⟨ab, a, aa, d, e, hg, _⟩
      · cases e
      · exact k1 a (by simp [e]) hg
  obtain ⟨o, h1, h2⟩ := this
  rcases h.charge hc hk h1 with ⟨rfl, _⟩ | ⟨as2, rfl, e1, _⟩
  · cases h2
  · rw [hf] at e1
    cases e1
    exact h1

theorem Placed.charge_none (h : Placed l w id r before after) {as : List Act} (hc : All2 Act.Charged r.actions as) {m : Mem}
    {ty : Nat} {key : Bytes} {f : Bytes → R Bytes} (hk : repeatable ty = true → key.length = keyLen ty) (hn : payload? as ty key = none) :
    l.charge (cfgMem l w id m as) ty key f = .ok none := by
  have hwf := All2.wf hc h.roleWf.acts
  unfold ActLoc.charge
  rw [h.bytes hc]
  simp only [ok_bind]
  unfold getActionMut
  rcases getActionGo_grants ty key as hwf (h.actsLt hc) hk with ⟨a, ab, aa, k1, k2, k3, k4⟩ | ⟨k1, k2⟩
  · rw [payload?_split k1 k2 k3] at hn; cases hn
  · rw [k2]; rfl

end

section
variable {x : SignCtx} {w : Wallet} {id : Nat} {r : Role} {before after : List Role}

theorem Placed.chargeEither_of (h : Placed x.loc w id r before after) {as as' : List Act} (hc : All2 Act.Charged r.actions as) {m : Mem}
    {ty1 ty2 : Nat} {key : Bytes} {n slot : Nat}
    (hk1 : repeatable ty1 = true → key.length = keyLen ty1) (hk2 : repeatable ty2 = true → key.length = keyLen ty2)
    (hp : Plays slot as (eitherSeg as ty1 ty2 key n) as') :
    Verif.chargeEither x (cfgMem x.loc w id m as) ty1 ty2 key (chargeFn ty1 n slot) (chargeFn ty2 n slot) =
      .ok (cfgMem x.loc w id m as', decide (eitherSeg as ty1 ty2 key n ≠ [])) := by
  unfold eitherSeg at *
  unfold Verif.chargeEither
  by_cases h1 : (payload? as ty1 key).isSome = true
  · simp only [if_pos h1] at hp ⊢
    cases hp with
    | cons _ e1 e2 =>
      cases e2
      rw [h.charge_of hc hk1 e1, ok_bind]
      simp
  · simp only [if_neg h1] at hp ⊢
    rw [h.charge_none hc hk1 (by simpa using h1), ok_bind]
    dsimp only
    by_cases h2 : (payload? as ty2 key).isSome = true
    · simp only [if_pos h2] at hp ⊢
      cases hp with
      | cons _ e1 e2 =>
        cases e2
        rw [h.charge_of hc hk2 e1, ok_bind]
        simp
    · simp only [if_neg h2] at hp ⊢
      cases hp
      rw [h.charge_none hc hk2 (by simpa using h2), ok_bind]
      simp

theorem Placed.chargeDests_of (h : Placed x.loc w id r before after) {m : Mem} {ty1 ty2 : Nat} {kf : Key → Bytes} {slot : Nat}
    (hk1 : repeatable ty1 = true → ∀ d : Key, d.length = 32 → (kf d).length = keyLen ty1)
    (hk2 : repeatable ty2 = true → ∀ d : Key, d.length = 32 → (kf d).length = keyLen ty2) :
    ∀ {ts : List (Key × Nat)} {as as' : List Act} {sum : Nat}, All2 Act.Charged r.actions as →
    (∀ t ∈ ts, t.1.length = 32) → sum + (ts.map Prod.snd).sum < 2 ^ 64 →
    (∀ t ∈ ts, eitherSeg as ty1 ty2 (kf t.1) t.2 ≠ []) →
    Plays slot as (ts.flatMap fun t => eitherSeg as ty1 ty2 (kf t.1) t.2) as' →
    Verif.chargeDests (fun m d n => Verif.chargeEither x m ty1 ty2 (kf d) (chargeFn ty1 n slot) (chargeFn ty2 n slot))
      (cfgMem x.loc w id m as) sum ts = .ok (cfgMem x.loc w id m as', sum + (ts.map Prod.snd).sum) := by
  intro ts
  induction ts with
  | nil =>
    intro as as' sum _ _ _ _ hp
    cases hp
    simp [Verif.chargeDests]
  | cons t ts ih =>
    intro as as' sum hc hl hs hn hp
    obtain ⟨d, n⟩ := t
    simp only [List.flatMap_cons] at hp
    obtain ⟨as1, p1, p2⟩ := hp.split
    have hd : d.length = 32 := hl (d, n) (by simp)
    have hc1 := p1.charged (All2.wf hc h.roleWf.acts)
    simp only [List.map_cons, List.sum_cons] at hs
    simp only [Verif.chargeDests]
    rw [require_of (by omega), ok_bind, h.chargeEither_of hc (fun hr => hk1 hr d hd) (fun hr => hk2 hr d hd) p1, ok_bind]
    dsimp only
    rw [require_of (by simpa using hn (d, n) (by simp)), ok_bind,
      ih (charged_trans hc hc1) (fun t ht => hl t (by simp [ht])) (by omega)
        (fun t ht => by rw [eitherSeg_congr hc1]; exact hn t (by simp [ht])) (by simp only [eitherSeg_congr hc1]; exact p2)]
    simp only [List.map_cons, List.sum_cons, Nat.add_assoc]

theorem Placed.spend_of (h : Placed x.loc w id r before after) {as as' : List Act} (hc : All2 Act.Charged r.actions as) {m : Mem}
    {g1 g2 d1 d2 : Nat} {key : Bytes} {kf : Key → Bytes} {spent slot : Nat} {ts : List (Key × Nat)}
    {hasF : Bytes → R Bool} {heldF : List Act → Bool}
    (hg1 : repeatable g1 = true → key.length = keyLen g1) (hg2 : repeatable g2 = true → key.length = keyLen g2)
    (hd1 : repeatable d1 = true → ∀ d : Key, d.length = 32 → (kf d).length = keyLen d1)
    (hd2 : repeatable d2 = true → ∀ d : Key, d.length = 32 → (kf d).length = keyLen d2)
    (hts : ∀ t ∈ ts, t.1.length = 32)
    (hheld : ∀ as : List Act, (∀ a ∈ as, a.WF) → actsSize as < 2 ^ 32 → hasF (encActs 0 as) = .ok (heldF as))
    (hinv : ∀ as as' : List Act, All2 Act.Charged as as' → heldF as' = heldF as) (hs : spent < 2 ^ 64)
    (hok : SpendOk as g1 g2 d1 d2 key kf (heldF as) spent ts)
    (hp : Plays slot as (spendSeg as g1 g2 d1 d2 key kf (heldF as) spent ts) as') :
    (do
      let (m, general) ← Verif.chargeEither x (cfgMem x.loc w id m as) g1 g2 key (chargeFn g1 spent slot) (chargeFn g2 spent slot)
      let acts ← x.loc.bytes m
      let has ← hasF acts
      let (m, dest) ← settleDests has
        (fun m d n => Verif.chargeEither x m d1 d2 (kf d) (chargeFn d1 n slot) (chargeFn d2 n slot)) m spent ts
      require (general = true ∨ dest = true) E.au_permissionDeniedMissingPermission
      .ok m : R Mem) = .ok (cfgMem x.loc w id m as') := by
  unfold spendSeg at hp
  obtain ⟨as1, p1, p2⟩ := hp.split
  have hc1 := p1.charged (All2.wf hc h.roleWf.acts)
  have hcc := charged_trans hc hc1
  rw [h.chargeEither_of hc hg1 hg2 p1, ok_bind]
  dsimp only
  rw [h.bytes hcc, ok_bind, hheld as1 (All2.wf hcc h.roleWf.acts) (h.actsLt hcc), ok_bind, hinv as as1 hc1]
  unfold settleDests
  by_cases hb : heldF as = true
  · rw [if_pos hb] at p2 ⊢
    obtain ⟨k1, k2, k3⟩ := hok.dest hb
    rw [h.chargeDests_of hd1 hd2 hcc hts (by omega) (fun t ht => by rw [eitherSeg_congr hc1]; exact k3 t ht)
      (by simp only [eitherSeg_congr hc1]; exact p2), ok_bind]
    dsimp only
    rw [require_of ⟨k1, by omega⟩, ok_bind, ok_bind]
    dsimp only
    rw [require_of (.inr rfl), ok_bind]
  · rw [if_neg hb] at p2 ⊢
    cases p2
    rw [ok_bind]
    dsimp only
    rw [require_of (.inl (by
      rcases hok.some with h | h
      · simpa using h
      · exact absurd h hb)), ok_bind]

theorem Placed.settleSol_of (h : Placed x.loc w id r before after) (hk : Keys32 x) {as as' : List Act}
    (hc : All2 Act.Charged r.actions as) {m : Mem} {spent : Nat} (hs : spent < 2 ^ 64) (hok : SolOk x as spent)
    (hp : Plays x.env.slot as (solSeg x as spent) as') :
    Verif.settleSol x (cfgMem x.loc w id m as) spent = .ok (cfgMem x.loc w id m as') :=
  h.spend_of hc (g1 := P.solLimit) (g2 := P.solRecurringLimit) (d1 := P.solRecurringDestinationLimit) (d2 := P.solDestinationLimit)
    (key := []) (kf := fun d => d) (hasF := hasSolDest) (heldF := solDestHeld) (by intro h; cases h) (by intro h; cases h)
    (fun _ d hd => hd) (fun _ d hd => hd) (solTransfers_len hk) (fun _ => hasSolDest_enc) (fun _ _ => solDestHeld_charged) hs hok hp

theorem Placed.settleTokenSpent_of (h : Placed x.loc w id r before after) (hk : Keys32 x) {as as' : List Act}
    (hc : All2 Act.Charged r.actions as) {m : Mem} {src mint : Bytes} (hm : mint.length = 32) {spent : Nat} (hs : spent < 2 ^ 64)
    (hok : TokenOk x as src mint spent) (hp : Plays x.env.slot as (tokenSeg x as src mint spent) as') :
    Verif.settleTokenSpent x (cfgMem x.loc w id m as) src mint spent = .ok (cfgMem x.loc w id m as') :=
  h.spend_of hc (g1 := P.tokenLimit) (g2 := P.tokenRecurringLimit) (d1 := P.tokenRecurringDestinationLimit)
    (d2 := P.tokenDestinationLimit) (key := mint) (kf := fun d => mint ++ d) (hasF := hasTokenDest mint) (heldF := tokenDestHeld mint)
    (fun _ => hm) (fun _ => hm) (fun _ d hd => by simp [hm, hd, keyLen]) (fun _ d hd => by simp [hm, hd, keyLen])
    (tokenTransfers_len hk src) (fun _ => hasTokenDest_enc mint) (fun _ _ => tokenDestHeld_charged mint) hs hok hp

/-- What a class says was spent. -/
def Class.spentOf : Class → Nat
  | .token _ s => s
  | .stake _ _ _ s => s
  | .scope _ _ s => s
  | _ => 0

theorem Placed.settleOne_of (h : Placed x.loc w id r before after) (hk : Keys32 x) {as as' : List Act}
    (hc : All2 Act.Charged r.actions as) {m : Mem} {a : Meta} {c : Class} {hh : Option Bytes} {total : Nat}
    (h0 : c.isSwig = false) (ha : c.tracked = true → a.key ≠ x.loc.swig ∧ a.key.length = 32)
    (hs : ∀ b s, c = .token b s → s < 2 ^ 64) (hok : OkOf x m as a hh c) (hp : Plays x.env.slot as (segOf x m as a c) as') :
    Verif.settleOne x (cfgMem x.loc w id m as) a c hh total = .ok (cfgMem x.loc w id m as') := by
  cases c with
  | none => cases hp; rfl
  | wallet => cases hp; rfl
  | thisSwig l => cases h0
  | token b spent =>
    obtain ⟨hne, hl⟩ := ha rfl
    have hm := cfgMem_other x.loc w id m as hne
    simp only [Verif.settleOne, settleToken, hm]
    rcases hok with ⟨hg, k1, k2, k3⟩ | ⟨hg, k1, k2, k3, k4, k5⟩
    · rw [if_pos (show (m a.key).data = [] ∨ (m a.key).lamports = 0 from hg)]
      simp only [segOf, if_pos (Or.inl hg : Gone (m a.key) ∨ spent = 0)] at hp
      cases hp
      unfold settleClosed
      rw [h.has hc m P.closeSwigAuthority [] (fun hr => by cases hr), hm, ok_bind, require_of k1, ok_bind, require_of ⟨k2, k3⟩, ok_bind]
    · rw [if_neg (show ¬ ((m a.key).data = [] ∨ (m a.key).lamports = 0) from hg), require_of k1, ok_bind, recheck_congr hm, k2, ok_bind,
        require_of k3, ok_bind, require_of k4, ok_bind]
      by_cases hz : spent = 0
      · rw [if_pos hz]
        simp only [segOf, if_pos (Or.inr hz : Gone (m a.key) ∨ spent = 0)] at hp
        cases hp
        rfl
      · rw [if_neg hz]
        simp only [segOf] at hp
        rw [if_neg (by rintro (h | h); exacts [hg h, hz h])] at hp
        exact h.settleTokenSpent_of hk hc (by rw [sl_length]; omega) (hs _ _ rfl) (k5 hz) hp
  | stake st b l spent =>
    obtain ⟨hne, hl⟩ := ha rfl
    have hm := cfgMem_other x.loc w id m as hne
    obtain ⟨k1, k2⟩ := hok
    simp only [Verif.settleOne, settleStake]
    rw [recheck_congr hm, k1, ok_bind]
    by_cases hz : spent = 0
    · rw [if_pos hz]
      simp only [segOf, if_pos (Or.inl hz : spent = 0 ∨ _)] at hp
      cases hp
      rfl
    · rw [if_neg hz]
      unfold settleStakeSpent
      rw [h.has hc m P.stakeAll [] (fun hr => by cases hr), ok_bind]
      by_cases hall : (payload? as P.stakeAll []).isSome = true
      · rw [if_pos hall]
        simp only [segOf, if_pos (Or.inr hall : spent = 0 ∨ _)] at hp
        cases hp
        rfl
      · rw [if_neg hall]
        simp only [segOf] at hp
        rw [if_neg (by rintro (h | h); exacts [hz h, hall h])] at hp
        have := h.chargeEither_of (ty1 := P.stakeLimit) (ty2 := P.stakeRecurringLimit) (n := spent) (m := m) hc (fun hr => by cases hr)
          (fun hr => by cases hr) hp
        rw [show chargeStake spent = chargeFn P.stakeLimit spent x.env.slot from rfl,
          show chargeStakeRec spent x.env.slot = chargeFn P.stakeRecurringLimit spent x.env.slot from rfl, this, ok_bind]
        dsimp only
        rw [require_of (by
          rcases k2 hz with e | e
          · exact absurd e hall
          · simpa using e), ok_bind]
  | scope ro b spent =>
    obtain ⟨hne, hl⟩ := ha rfl
    have hm := cfgMem_other x.loc w id m as hne
    obtain ⟨s, rs, k1, k2, k3⟩ := hok
    simp only [Verif.settleOne, settleScope]
    rw [h.find hc m P.programScope a.key (fun _ => hl), ok_bind, k1]
    simp only [orErr, ok_bind, hm, k2]
    rw [recheck_congr hm, k3, ok_bind]
    by_cases hz : spent = 0
    · rw [if_pos hz]
      simp only [segOf, if_pos hz] at hp
      cases hp
      rfl
    · rw [if_neg hz]
      simp only [segOf, if_neg hz] at hp
      cases hp with
      | cons _ e1 e2 =>
        cases e2
        unfold settleScopeSpent
        have := h.charge_of (m := m) hc (fun _ => hl) e1
        rw [show chargeScope spent x.env.slot = chargeFn P.programScope spent x.env.slot from rfl, this, ok_bind]
        rfl

theorem Placed.settleAll_of (h : Placed x.loc w id r before after) (hk : Keys32 x) {m : Mem} {total : Nat} :
    ∀ {l : List (Meta × Class)} {hs : List (Option Bytes)} {as as' : List Act},
    All2 Act.Charged r.actions as →
    (∀ e ∈ l, e.2.isSwig = false ∧ (e.2.tracked = true → e.1.key ≠ x.loc.swig ∧ e.1.key.length = 32) ∧
      (∀ b s, e.2 = .token b s → s < 2 ^ 64)) →
    Plays x.env.slot as (l.flatMap fun e => segOf x m as e.1 e.2) as' →
    All2 (fun e hh => OkOf x m as e.1 hh e.2) l hs →
    Verif.settleAll x total (cfgMem x.loc w id m as) l hs = .ok (cfgMem x.loc w id m as') := by
  intro l
  induction l with
  | nil =>
    intro hs as as' hc _ hp ho
    cases ho
    cases hp
    rfl
  | cons e l ih =>
    intro hs as as' hc he hp ho
    cases ho with
    | cons o1 o2 =>
      obtain ⟨a, c⟩ := e
      simp only [List.flatMap_cons] at hp
      obtain ⟨as1, p1, p2⟩ := hp.split
      have hc1 := p1.charged (All2.wf hc h.roleWf.acts)
      have he0 := he (a, c) (by simp)
      simp only [Verif.settleAll]
      rw [h.settleOne_of hk hc he0.1 he0.2.1 he0.2.2 o1 p1, ok_bind]
      refine ih (charged_trans hc hc1) (fun e h => he e (by simp [h])) ?_ ?_
      · simp only [segOf_congr hc1]; exact p2
      · exact All2.imp' (fun e hh ho => OkOf.later hc1 ho) o2

end

end Verif
