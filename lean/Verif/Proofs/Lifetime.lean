import Verif.Spec.Lifetime
import Verif.Proofs.Authn
import Verif.Props.History
import Verif.Props.SignTokens

/-! What the changes of the state machine do to one role. -/

namespace Verif

/-- The permissions that no sub-account operation touches. -/
def limitsOf (as : List Act) : List Act := as.filter fun a => decide (a.ty ≠ P.subAccount ∧ a.ty ≠ P.subAccountV2All)

/-- What a change of kind `kd` may do to the role `id`. -/
structure Effect (kd : Kind) (id : Nat) (r r' : Role) : Prop where
  sameId : r'.id = r.id
  authType : r'.authType = r.authType
  auth : (kd = .used id ∧ r'.auth = usedCred r.authType r.auth) ∨ (kd = .session id ∧ sessionBased r.authType = true) ∨ kd = .replaced id ∨
    (kd ≠ .used id ∧ r'.auth = r.auth)
  actions : r'.actions = r.actions ∨ kd = .updated id ∨ (kd = .charged id ∧ r'.actions.map Act.ty = r.actions.map Act.ty) ∨
    ((kd = .v1Sub id ∨ kd = .granted id) ∧ limitsOf r'.actions = limitsOf r.actions)

theorem effect_map {w : Wallet} {id id' : Nat} {f : Role → Role} {r : Role} {kd : Kind} (hr : w.role? id = some r) (hf : ∀ r, (f r).id = r.id)
    (hi : id' = id → Effect kd id r (f r)) (hn : kd ≠ .used id ∨ id' = id) :
    ∃ r', (w.mapRole id' f).role? id = some r' ∧ Effect kd id r r' := by
  rw [mapRole_find w id' id f hf, hr]
  have hid := (role?_mem hr).2
  refine ⟨_, rfl, ?_⟩
  dsimp only
  by_cases h : id' = id
  · rw [if_pos (by rw [hid, h])]; exact hi h
  · rw [if_neg (by rw [hid]; exact Ne.symm h)]
    exact ⟨rfl, rfl, .inr (.inr (.inr ⟨hn.resolve_right h, rfl⟩)), .inl rfl⟩

theorem Change.effect {w w' : Wallet} {kd : Kind} (h : Change w kd w') {id : Nat} {r : Role} (hr : w.role? id = some r) :
    kd = .removed id ∨ ∃ r', w'.role? id = some r' ∧ Effect kd id r r' := by
  have keep : ∀ {kd : Kind}, kd ≠ .used id → Effect kd id r r := fun hk => ⟨rfl, rfl, .inr (.inr (.inr ⟨hk, rfl⟩)), .inl rfl⟩
  have same : ∀ {id' : Nat} {r0 : Role}, w.role? id' = some r0 → id' = id → r0 = r := by
    rintro id' r0 h0 rfl
    exact Option.some.inj (h0.symm.trans hr)
  cases h with
  | used i =>
    right
    refine effect_map hr (fun _ => rfl) (fun hi => ?_) ?_
    · subst hi
      exact ⟨rfl, rfl, .inl ⟨rfl, rfl⟩, .inl rfl⟩
    · by_cases h : i = id
      · exact .inr h
      · exact .inl fun e => h (Kind.used.inj e)
  | added ty auth as =>
    right
    refine ⟨r, ?_, keep (fun h => by cases h)⟩
    unfold Wallet.role? Wallet.addRole at *
    simp only [List.find?_append, hr, Option.some_or]
  | removed i _ =>
    by_cases h : i = id
    · left; rw [h]
    · right
      refine ⟨r, ?_, keep (fun h => by cases h)⟩
      unfold Wallet.role? Wallet.removeRole at *
      simp only [List.find?_filter]
      rw [← hr]
      congr 1
      funext x
      by_cases hx : x.id = id
      · simp [hx, Ne.symm h]
      · simp [hx]
  | updated i as =>
    right
    exact effect_map hr (fun _ => rfl) (fun hi => ⟨rfl, rfl, .inr (.inr (.inr ⟨(fun h => by cases h), rfl⟩)), .inr (.inl (by rw [hi]))⟩)
      (.inl fun h => by cases h)
  | charged i r0 as h0 h1 =>
    right
    exact effect_map hr (fun _ => rfl) (fun hi => ⟨rfl, rfl, .inr (.inr (.inr ⟨(fun h => by cases h), rfl⟩)),
      .inr (.inr (.inl ⟨by rw [hi], by rw [← same h0 hi]; exact h1⟩))⟩) (.inl fun h => by cases h)
  | v1Sub i r0 before a a' after h0 h1 h2 h3 =>
    right
    refine effect_map hr (fun _ => rfl) (fun hi => ⟨rfl, rfl, .inr (.inr (.inr ⟨(fun h => by cases h), rfl⟩)),
      .inr (.inr (.inr ⟨.inl (by rw [hi]), ?_⟩))⟩) (.inl fun h => by cases h)
    rw [← same h0 hi, h1]
    simp [limitsOf, List.filter_append, List.filter_cons, h2, h3]
  | granted i r0 a h0 h1 =>
    right
    refine effect_map hr (fun _ => rfl) (fun hi => ⟨rfl, rfl, .inr (.inr (.inr ⟨(fun h => by cases h), rfl⟩)),
      .inr (.inr (.inr ⟨.inr (by rw [hi]), ?_⟩))⟩) (.inl fun h => by cases h)
    rw [← same h0 hi]
    simp [limitsOf, List.filter_append, h1]
  | session i r0 a s t h0 _ _ h1 h2 _ =>
    right
    refine effect_map hr (fun _ => rfl) (fun hi => ⟨rfl, rfl, .inr (.inl ⟨by rw [hi], ?_⟩), .inl rfl⟩) (.inl fun h => by cases h)
    rw [← same h0 hi, ← h1, Auth.sessionBased_iff, h2]; rfl
  | replaced i r0 a key h0 _ _ _ _ =>
    right
    exact effect_map hr (fun _ => rfl) (fun hi => ⟨rfl, rfl, .inr (.inr (.inl (by rw [hi]))), .inl rfl⟩) (.inl fun h => by cases h)
  | claimed c _ => exact .inr ⟨r, hr, keep (fun h => by cases h)⟩
  | migrated b => exact .inr ⟨r, hr, keep (fun h => by cases h)⟩
  | issued => exact .inr ⟨r, hr, keep (fun h => by cases h)⟩

/-- An id that was given out stays free once its role is gone. -/
theorem Change.gone {w w' : Wallet} {kd : Kind} (h : Change w kd w') {id : Nat} (hid : id < w.roleCounter) (hr : w.role? id = none) :
    w'.role? id = none := by
  cases hr' : w'.role? id with
  | none => rfl
  | some r' =>
    exfalso
    obtain ⟨h1, h2⟩ := role?_mem hr'
    rcases h.later.roles r' h1 with ⟨r, h3, h4, _⟩ | h3
    · unfold Wallet.role? at hr
      have := List.find?_eq_none.mp hr r h3
      simp [h4, h2] at this
    · omega

theorem Change.removedGone {w w' : Wallet} {id : Nat} (h : Change w (.removed id) w') : w'.role? id = none := by
  cases h
  unfold Wallet.role? Wallet.removeRole
  apply List.find?_eq_none.mpr
  intro x hx
  have := (List.mem_filter.mp hx).2
  simpa using this

/-- What a role may become through changes of the given kinds, if each of them keeps `Q`. -/
theorem Changes.role {allow : Kind → Prop} {w w' : Wallet} (h : Changes allow w w') {id : Nat} {r : Role} (hr : w.role? id = some r)
    (hid : id < w.roleCounter) {Q : Role → Prop} (h0 : Q r) (hs : ∀ kd r r', allow kd → Effect kd id r r' → Q r → Q r') :
    (∃ r', w'.role? id = some r' ∧ Q r') ∨ (allow (.removed id) ∧ w'.role? id = none) := by
  have := h.induct (Q := fun x => w.roleCounter ≤ x.roleCounter ∧ ((∃ r', x.role? id = some r' ∧ Q r') ∨ (allow (.removed id) ∧ x.role? id = none)))
    ⟨Nat.le_refl _, .inl ⟨r, hr, h0⟩⟩ (fun a kd b ih hk hc => ⟨Nat.le_trans ih.1 hc.later.counter, ?_⟩)
  · exact this.2
  · rcases ih.2 with ⟨r1, g1, g2⟩ | ⟨g0, g1⟩
    · rcases hc.effect g1 with rfl | ⟨r2, g3, g4⟩
      · exact .inr ⟨hk, hc.removedGone⟩
      · exact .inl ⟨r2, g3, hs kd r1 r2 hk g4 g2⟩
    · exact .inr ⟨g0, hc.gone (by have := ih.1; omega) g1⟩

theorem payload?_limits {as : List Act} {ty : Nat} {key : Bytes} (h1 : ty ≠ P.subAccount) (h2 : ty ≠ P.subAccountV2All) :
    payload? (limitsOf as) ty key = payload? as ty key := by
  unfold payload? limitsOf
  rw [List.find?_filter]
  congr 2
  funext a
  by_cases h : a.grants ty key
  · simp [h, h.1, h1, h2]
  · simp [h]

theorem restricted_limits {r r' : Role} (h : limitsOf r'.actions = limitsOf r.actions) (hr : Restricted r) : Restricted r' := by
  intro a ha
  by_cases hs : a.ty ≠ P.subAccount ∧ a.ty ≠ P.subAccountV2All
  · have : a ∈ limitsOf r'.actions := List.mem_filter.mpr ⟨ha, by simpa using hs⟩
    rw [h] at this
    exact hr a (List.mem_filter.mp this).1
  · have : a.ty = P.subAccount ∨ a.ty = P.subAccountV2All := by
      by_cases h : a.ty = P.subAccount
      · exact .inl h
      · exact .inr (Decidable.of_not_not fun g => hs ⟨h, g⟩)
    rcases this with e | e <;> rw [e] <;> decide

theorem charged_restricted {r r' : Role} (h : All2 Act.Charged r.actions r'.actions) (hr : Restricted r) : Restricted r' := by
  intro a ha
  have h1 : a.ty ∈ r'.actions.map Act.ty := List.mem_map.mpr ⟨a, ha, rfl⟩
  rw [h.map_ty] at h1
  obtain ⟨b, h2, h3⟩ := List.mem_map.mp h1
  rw [← h3]
  exact hr b h2

theorem play_append {σ ι : Type} (run : σ → ι → R σ) (s : σ) (a b : List ι) :
    play run s (a ++ b) = ((play run (play run s a).1 b).1, (play run s a).2 ++ (play run (play run s a).1 b).2) := by
  induction a generalizing s with
  | nil => rfl
  | cons x xs ih =>
    have hc : ∀ (s : σ) (ys : List ι), play run s (x :: ys) =
        match run s x with
        | .ok s' => ((play run s' ys).1, x :: (play run s' ys).2)
        | .error _ => play run s ys := by
      intro s ys
      rw [play]
      cases run s x <;> rfl
    rw [List.cons_append, hc, hc]
    split
    · simp [ih]
    · rw [ih]

/-- SignV2 refuses to be called by another program. -/
theorem sign_top {env : Env} {cpi : Cpi} {m m' : Mem} {metas : List Meta} {ix : Bytes} (hn : rd ix 0 2 = 11)
    (e : process env cpi m metas ix = .ok m') : env.stackHeight = 1 := by
  unfold process at e
  obtain ⟨_, _, e⟩ := bind_ok_iff.mp e
  obtain ⟨cls, _, e⟩ := bind_ok_iff.mp e
  unfold dispatch at e
  split at e
  · cases e
  rw [hn] at e
  have e : signV2 env cpi m metas cls ix = .ok m' := e
  unfold signV2 at e
  split at e
  · obtain ⟨_, h, _⟩ := bind_ok_iff.mp e
    exact require_ok_iff.mp h
  · cases e

/-- What happens between signings keeps the account on the state machine. -/
theorem between_hist {k : Key} {id h : Nat} {a b : Mem} {w0 : Wallet} (hb : Between k id h a b) :
    Has k (Hist (fun kd => ∃ ix, ¬ Spends ix id ∧ Does ix kd) w0) a → Has k (Hist (fun kd => ∃ ix, ¬ Spends ix id ∧ Does ix kd) w0) b := by
  induction hb with
  | refl m => exact fun h => h
  | trans _ _ i1 i2 => exact fun h => i2 (i1 h)
  | outside h1 h2 => exact fun h => h.congr ⟨h1, h2⟩
  | @request env cpi m m' metas ix _ hok hf e hc =>
    intro h
    by_cases hk : FirstIs metas k
    · obtain ⟨swig, rest, rfl, rfl⟩ := hk
      obtain ⟨g1, g2⟩ := hok rfl
      have hs : ¬ Spends ix id := by
        rintro (g | g)
        · exact g2 (sign_top g.1 e) g
        · exact g1 g
      have used : rd ix 0 2 ≠ 5 → ∃ ix', ¬ Spends ix' id ∧ Does ix' (.used (actingRole ix)) := fun h5 => ⟨ix, hs, h5, rfl⟩
      rcases h.2 with ⟨w, hw, hl, hd⟩ | ⟨_, hd⟩
      · exact process_own h.1 hw hd (fun _ => hl) (fun h5 _ => hl.tail (used h5) (.used _)) (fun kd hkd => ⟨ix, hs, hkd⟩) hf
          (fun a ix b ha hb => hc a ix b ha.1 hb ha) e
      · exact (process_closed ⟨swig, rest, rfl, rfl⟩ h.1 hd e).elim
    · exact process_frame (fun a ix b ha hb => hc a ix b ha.1 hb ha) Hist.notState hk h e

/-- A closed account stays closed. -/
theorem between_closed {k : Key} {id h : Nat} {a b : Mem} (hb : Between k id h a b) : IsClosed a k → IsClosed b k := by
  suffices hh : Has k (· = [255]) a → Has k (· = [255]) b from fun g => let r := hh ⟨g.owner, g.data⟩; ⟨r.1, r.2⟩
  induction hb with
  | refl m => exact fun h => h
  | trans _ _ i1 i2 => exact fun h => i2 (i1 h)
  | outside h1 h2 => exact fun h => h.congr ⟨h1, h2⟩
  | @request env cpi m m' metas ix _ hok hf e hc =>
    intro h
    by_cases hk : FirstIs metas k
    · exact (process_closed hk h.1 h.2 e).elim
    · exact process_frame (fun a ix b ha hb => hc a ix b ha.1 hb ha) (by rintro _ rfl; decide) hk h e

/-- Between signings: the role keeps its limits. -/
theorem quiet {k : Key} {id h : Nat} {a b : Mem} {w : Wallet} {r : Role} (ho : Open a k w) (hr : w.role? id = some r)
    (h : Between k id h a b) :
    IsClosed b k ∨ ∃ w' r', Open b k w' ∧ w'.role? id = some r' ∧ limitsOf r'.actions = limitsOf r.actions := by
  obtain ⟨h1, h2⟩ := between_hist h ⟨ho.owner, .inl ⟨w, ho.wf, .refl, ho.data⟩⟩
  have hcases : IsClosed b k ∨ ∃ w', Open b k w' ∧ Changes (fun kd => ∃ ix, ¬ Spends ix id ∧ Does ix kd) w w' := by
    rcases h2 with ⟨w', hw, hl, hd⟩ | hd
    · exact .inr ⟨w', ⟨h1, hw, hd⟩, hl⟩
    · exact .inl ⟨h1, hd.2⟩
  clear h1 h2
  rcases hcases with hc | ⟨w', ho', hch⟩
  · exact .inl hc
  · obtain ⟨hm, hid⟩ := role?_mem hr
    have hlt : id < w.roleCounter := hid ▸ ho.wf.idsLt r hm
    have hkeep : ∀ kd r1 r2, (∃ ix, ¬ Spends ix id ∧ Does ix kd) → Effect kd id r1 r2 → limitsOf r1.actions = limitsOf r.actions →
        limitsOf r2.actions = limitsOf r.actions := by
      rintro kd r1 r2 ⟨ix, h1, h2⟩ he hq
      rcases he.actions with g | rfl | ⟨rfl, _⟩ | ⟨_, g⟩
      · rw [g]; exact hq
      · exact (h1 (.inr ⟨.inr h2.1, h2.2.symm⟩)).elim
      · refine (h1 (.inl ⟨h2.1, ?_⟩)).elim
        rw [h2.2]; simp [actingRole, h2.1]
      · exact g.trans hq
    rcases hch.role hr hlt (Q := fun x => limitsOf x.actions = limitsOf r.actions) rfl hkeep with ⟨r', h1, h2⟩ | ⟨⟨ix, h1, h2⟩, _⟩
    · exact .inr ⟨w', r', ho', h1, h2⟩
    · exact (h1 (.inr ⟨.inl h2.1, h2.2.symm⟩)).elim

theorem Spending.closed {k : Key} {id : Nat} {m m' : Mem} {es : List Signing} (h : Spending k id m es m') (hc : IsClosed m k) : es = [] := by
  induction h with
  | nil => rfl
  | other hs _ ih => exact ih (between_closed hs hc)
  | sign hb _ _ =>
    exact (process_closed ⟨_, _, rfl, hb.config⟩ hc.owner hc.data hb.runs).elim

/-- A signing by a restricted role. -/
theorem Signing.By.restricted {e : Signing} {k : Key} {id : Nat} (h : e.By k id) {w : Wallet} {r : Role} (ho : Open e.before k w)
    (hr : w.role? id = some r) (hres : Restricted r) :
    RestrictedSign e.env e.cpi e.before e.after e.swig e.wallet e.rest e.ix w r :=
  ⟨ho.wf, by rw [h.config]; exact ho.data, h.number, by rw [h.role]; exact hr, hres, h.fine.runtime _ _ rfl, h.runs⟩

theorem Signing.By.noClash {e : Signing} {k : Key} {id : Nat} (h : e.By k id) {w : Wallet} (ho : Open e.before k w) {ixs : List Inner} {m1 : Mem}
    (ha : AfterCalls e.env e.cpi e.before (e.swig :: e.wallet :: e.rest) e.swig e.wallet e.ix w ixs m1) :
    ¬ ConfigClash e.env e.before m1 e.swig e.ix w :=
  h.fine.noCollision _ _ _ _ _ _ rfl h.number (by rw [h.config]; exact ho) ha

/-- The wallet after a signing by a restricted role. -/
theorem Signing.By.after {e : Signing} {k : Key} {id : Nat} (h : e.By k id) {w : Wallet} {r : Role} (ho : Open e.before k w)
    (hr : w.role? id = some r) (hres : Restricted r) : ∃ w' r', Open e.after k w' ∧ w'.role? id = some r' ∧ Restricted r' ∧
      All2 Act.Charged r.actions r'.actions := by
  obtain ⟨ixs, m1, h1, h2 | ⟨x, cls, hs, total, acc, as', o⟩⟩ := (h.restricted ho hr hres).out
  · exact (h.noClash ho h1 h2).elim
  · refine ⟨_, _, ⟨?_, o.stored.1, by rw [← h.config]; exact o.stored.2.1⟩, by rw [← h.role]; exact o.stored.2.2, charged_restricted o.charged hres,
      o.charged⟩
    rw [← h.config, o.own]
    rcases o.sameOwner with g | g
    · exact (h.noClash ho h1 g).elim
    · rw [g, h.config]; exact ho.owner

/-- What a theorem about one signing says of the wallet stored afterwards, it says of the wallet found there. -/
theorem Signing.By.same {e : Signing} {k : Key} {id : Nat} (h : e.By k id) {w' w'' : Wallet} {r' r'' : Role} (ho' : Open e.after k w')
    (hr' : w'.role? id = some r') (hs : StoredAs e.after e.swig e.ix w'' r'') : r'' = r' := by
  obtain ⟨h1, h2, h3⟩ := hs
  rw [h.config] at h2
  have : w'' = w' := Wallet.encode_inj h1 ho'.wf (h2.symm.trans ho'.data)
  rw [this, h.role] at h3
  exact Option.some.inj (h3.symm.trans hr')

/-- The way to a bound on all signings of a role: a relation between the limits of the role and the list of signings. -/
theorem Spending.induct {k : Key} {id : Nat} {m m' : Mem} {es : List Signing} (h : Spending k id m es m')
    (I : List Act → List Signing → Prop) (hnil : ∀ as, I as [])
    (hquiet : ∀ as as' es, limitsOf as' = limitsOf as → I as' es → I as es)
    (hsign : ∀ e es w w' r r', e.By k id → Open e.before k w → w.role? id = some r → Restricted r → Open e.after k w' → w'.role? id = some r' →
      All2 Act.Charged r.actions r'.actions → I r'.actions es → I r.actions (e :: es))
    {w : Wallet} {r : Role} (ho : Open m k w) (hr : w.role? id = some r) (hres : Restricted r) : I r.actions es := by
  induction h generalizing w r with
  | nil => exact hnil _
  | other hs hrest ih =>
    rcases quiet ho hr hs with hc | ⟨w', r', h1, h2, h3⟩
    · rw [hrest.closed hc]; exact hnil _
    · exact hquiet _ _ _ h3 (ih h1 h2 (restricted_limits h3 hres))
  | sign hb hrest ih =>
    obtain ⟨w', r', h1, h2, h3, h4⟩ := hb.after ho hr hres
    exact hsign _ _ w w' r r' hb ho hr hres h1 h2 h4 (ih h1 h2 h3)

/-! ## Counters -/

/-- The record of a plain secp role with its counter moved on by `n`. -/
def advanced (auth : Bytes) (n : Nat) : Bytes := auth.take 36 ++ natLE 4 (leNat (auth.drop 36) + n)

theorem advanced_zero {auth : Bytes} (h : auth.length = 40) : advanced auth 0 = auth := by
  unfold advanced
  have h1 : (auth.drop 36).length = 4 := by simp [h]
  have := natLE_leNat (auth.drop 36)
  rw [h1] at this
  rw [Nat.add_zero, this, List.take_append_drop]

theorem natLE_mod4 (n : Nat) : natLE 4 (n % 2 ^ 32) = natLE 4 n := by
  have h := natLE_leNat (natLE 4 n)
  rw [leNat_natLE, natLE_length] at h
  exact h

theorem advanced_split {auth : Bytes} (h : 36 ≤ auth.length) (n : Nat) : (advanced auth n).take 36 = auth.take 36 ∧
    leNat ((advanced auth n).drop 36) = (leNat (auth.drop 36) + n) % 2 ^ 32 := by
  unfold advanced
  have hl : (auth.take 36).length = 36 := by simp; omega
  constructor
  · rw [List.take_append_of_le_length (by omega), List.take_of_length_le (by omega)]
  · rw [List.drop_append_of_le_length (by omega), List.drop_of_length_le (by omega), List.nil_append, leNat_natLE]

theorem usedCred_advanced {ty : Nat} (ht : ty = 3 ∨ ty = 5) {auth : Bytes} (h : 36 ≤ auth.length) (n : Nat) :
    usedCred ty (advanced auth n) = advanced auth (n + 1) := by
  unfold usedCred
  rw [if_pos ht, (advanced_split h n).1, (advanced_split h n).2]
  unfold advanced
  congr 1
  rw [← natLE_mod4, ← natLE_mod4 (_ + (n + 1))]
  congr 1
  omega

/-- The counter of a plain secp role counts its uses. -/
theorem Trace.counts {w w' : Wallet} {ks : List Kind} (h : Trace w ks w') {id : Nat} {r : Role} (hr : w.role? id = some r)
    (hid : id < w.roleCounter) (ht : r.authType = 3 ∨ r.authType = 5) (hl : r.auth.length = 40) (hn : .replaced id ∉ ks) :
    w.roleCounter ≤ w'.roleCounter ∧ (w'.role? id = none ∨ ∃ r', w'.role? id = some r' ∧ r'.authType = r.authType ∧
      r'.auth = advanced r.auth (ks.count (.used id))) := by
  induction h with
  | nil => exact ⟨Nat.le_refl _, .inr ⟨r, hr, rfl, (advanced_zero hl).symm⟩⟩
  | @snoc ks kd a b _ hc ih =>
    obtain ⟨h0, h1⟩ := ih fun g => hn (List.mem_append_left _ g)
    refine ⟨Nat.le_trans h0 hc.later.counter, ?_⟩
    rcases h1 with h1 | ⟨r1, h1, h2, h3⟩
    · exact .inl (hc.gone (by omega) h1)
    · rcases hc.effect h1 with rfl | ⟨r2, g1, g2⟩
      · exact .inl hc.removedGone
      · refine .inr ⟨r2, g1, g2.authType.trans h2, ?_⟩
        rw [List.count_append]
        rcases g2.auth with ⟨rfl, g⟩ | ⟨rfl, g⟩ | rfl | ⟨g, g'⟩
        · rw [g, h2, h3, usedCred_advanced ht (by omega)]
          simp
        · rw [h2] at g
          rcases ht with e | e <;> rw [e] at g <;> cases g
        · exact (hn (by simp)).elim
        · rw [g', h3, List.count_singleton, if_neg (by simpa using g)]
          rfl

end Verif
