import Verif.Proofs.AcceptSettle

/-! The whole signing with limits in both directions, whatever accounts are passed (property C114). -/

namespace Verif
open Client

theorem lookF_class (acts : List Act) (y : Acct) (e : Meta × Class) : (lookF acts y e).2.tracked = e.2.tracked ∧
    (lookF acts y e).2.isSwig = e.2.isSwig := by
  obtain ⟨a, c⟩ := e
  unfold lookF
  by_cases hw : a.writable = false
  · rw [if_pos hw]; exact ⟨rfl, rfl⟩
  · rw [if_neg hw]
    cases c with
    | token => dsimp only; split <;> exact ⟨rfl, rfl⟩
    | stake => dsimp only; split <;> exact ⟨rfl, rfl⟩
    | scope => dsimp only; split <;> exact ⟨rfl, rfl⟩
    | _ => exact ⟨rfl, rfl⟩

theorem lookFAll_class (acts : List Act) : ∀ (l : List Acct) (e : Meta × Class), (lookFAll acts e l).2.tracked = e.2.tracked ∧
    (lookFAll acts e l).2.isSwig = e.2.isSwig
  | [], _ => ⟨rfl, rfl⟩
  | a :: l, e => ⟨(lookFAll_class acts l _).1.trans (lookF_class acts a e).1, (lookFAll_class acts l _).2.trans (lookF_class acts a e).2⟩

theorem All2.ofMap {α β γ : Type} {R : β → γ → Prop} {f : α → β} {g : α → γ} : ∀ {l : List α}, All2 R (l.map f) (l.map g) →
    ∀ e ∈ l, R (f e) (g e)
  | [], _, e, he => by simp at he
  | a :: l, h, e, he => by
    simp only [List.map_cons] at h
    cases h with
    | cons h1 h2 =>
      rcases List.mem_cons.mp he with rfl | he
      · exact h1
      · exact All2.ofMap h2 e he

theorem Mono.isScope {c c' : Class} (h : Mono c c') : c'.isScope = c.isScope := by cases h <;> rfl

theorem okOf_scope {x : SignCtx} {m : Mem} {as : List Act} {a : Meta} {hh : Option Bytes} {c : Class} (h : OkOf x m as a hh c)
    (hs : c.isScope = true) : (∃ s, payload? as P.programScope a.key = some s ∧
      (ProgramScope.decode s).balanceFieldStart < (ProgramScope.decode s).balanceFieldEnd) ∧ (a.writable = true → hh ≠ none) := by
  cases c with
  | scope ro b s =>
    obtain ⟨s, rs, k1, k2, k3⟩ := h
    unfold scopeRange at k2
    split at k2
    · rename_i hr
      refine ⟨⟨s, k1, hr.1⟩, fun hw e => ?_⟩
      obtain ⟨_, _, e2⟩ := recheck_iff.mp k3 hw
      rw [e] at e2
      cases e2
    · cases k2
  | _ => cases hs

theorem sane_of {x : SignCtx} {m : Mem} {acts : List Act} : ∀ {l0 l : List (Meta × Class)} {hs : List (Option Bytes)},
    All2 (fun e e' => e'.1 = e.1 ∧ e'.2.isScope = e.2.isScope) l0 l → All2 (fun e hh => OkOf x m acts e.1 hh e.2) l hs → Sane acts l0 := by
  intro l0 l hs h
  induction h generalizing hs with
  | nil => intro _ e he; simp at he
  | cons h1 _ ih =>
    intro h2
    cases h2 with
    | cons k1 k2 =>
      intro e he hsc
      rcases List.mem_cons.mp he with rfl | he
      · have := (okOf_scope k1 (by rw [h1.2]; exact hsc)).1
        rw [h1.1] at this
        exact this
      · exact ih k2 e he hsc

theorem fullClass_mem {m : Mem} {W : Wallet} {swig wallet : Key} {l : List Meta} {t : List Class} (h : All2 (FullClass m W swig wallet) l t) :
    ∀ e ∈ l.zip t, e.1 ∈ l ∧ FullClass m W swig wallet e.1 e.2 := by
  induction h with
  | nil => intro e he; simp at he
  | cons h1 _ ih =>
    intro e he
    rcases List.mem_cons.mp he with rfl | he
    · exact ⟨by simp, h1⟩
    · exact ⟨by simp [(ih e he).1], (ih e he).2⟩

/-- What the class of an account says about it. -/
theorem FullClass.cases {m : Mem} {W : Wallet} {swig wallet : Key} {a : Meta} {c : Class} (h : FullClass m W swig wallet a c) :
    (Watched m swig wallet a ∧ c = .token (rd (m a.key).data 64 8) 0) ∨
    (StakeWatched m swig wallet a ∧ ∃ st, c = .stake st (rd (m a.key).data 156 8) (m a.key).lamports 0) ∨
    (∃ s ro b, TargetOf m W a s ∧ c = .scope ro b 0) ∨
    ((¬ Watched m swig wallet a ∧ ¬ StakeWatched m swig wallet a ∧ ∀ s, ¬ TargetOf m W a s) ∧ c.tracked = false ∧ c.isSwig = false) := by
  by_cases h1 : Watched m swig wallet a
  · exact .inl ⟨h1, h.token h1⟩
  · by_cases h2 : StakeWatched m swig wallet a
    · exact .inr (.inl ⟨h2, h.stake h2⟩)
    · by_cases h3 : ∃ s, TargetOf m W a s
      · obtain ⟨s, h3⟩ := h3
        obtain ⟨ro, b, _, e⟩ := h.scope s h3
        exact .inr (.inr (.inl ⟨s, ro, b, h3, e⟩))
      · have h3' : ∀ s, ¬ TargetOf m W a s := fun s t => h3 ⟨s, t⟩
        exact .inr (.inr (.inr ⟨⟨h1, h2, h3'⟩, h.other h1 h2 h3'⟩))

theorem FullClass.facts {m : Mem} {W : Wallet} {swig wallet : Key} {a : Meta} {c : Class} (h : FullClass m W swig wallet a c)
    (ho : (m swig).owner = swigId) : c.isSwig = false ∧ (c.tracked = true → a.key ≠ swig) ∧
      (c.tracked = true ↔ Watched m swig wallet a ∨ StakeWatched m swig wallet a ∨ ∃ s, TargetOf m W a s) := by
  rcases h.cases with ⟨h1, rfl⟩ | ⟨h1, st, rfl⟩ | ⟨s, ro, b, h1, rfl⟩ | ⟨⟨h1, h2, h3⟩, h4, h5⟩
  · refine ⟨rfl, fun _ e => ?_, fun _ => .inl h1, fun _ => rfl⟩
    have := (token_not (watched_owner h1).1).1
    rw [e] at this
    exact this ho
  · refine ⟨rfl, fun _ e => ?_, fun _ => .inr (.inl h1), fun _ => rfl⟩
    have := stakeWatched_owner h1
    rw [e, ho] at this
    exact stake_not.1 this.symm
  · refine ⟨rfl, fun _ e => ?_, fun _ => .inr (.inr ⟨s, h1⟩), fun _ => rfl⟩
    apply h1.1
    rw [e]
    exact .inl ho
  · refine ⟨h5, fun e => absurd (h4.symm.trans e) (by decide), fun e => absurd (h4.symm.trans e) (by decide), ?_⟩
    rintro (e | e | ⟨s, e⟩)
    · exact absurd e h1
    · exact absurd e h2
    · exact absurd e (h3 s)

theorem snapF_some {env : Env} {m : Mem} {acts : List Act} {a : Meta} {c : Class} (hw : a.writable = true)
    (ht : c.tracked = true) (hs : c.isScope = false) : snapF env m acts (a, c) ≠ none := by
  unfold snapF
  dsimp only
  rw [if_neg (writable_ne hw)]
  cases c with
  | token => simp
  | stake => simp
  | scope => cases hs
  | _ => cases ht

theorem snapF_none {env : Env} {m : Mem} {acts : List Act} {a : Meta} {c : Class} (h : snapF env m acts (a, c) ≠ none)
    (hs : c.isSwig = false) : a.writable = true ∧ c.tracked = true := by
  unfold snapF at h
  dsimp only at h
  by_cases hw : a.writable = false
  · rw [if_pos hw] at h; exact absurd rfl h
  · rw [if_neg hw] at h
    refine ⟨by simpa using hw, ?_⟩
    cases c with
    | thisSwig => cases hs
    | token => rfl
    | stake => rfl
    | scope => rfl
    | _ => exact absurd rfl h

theorem signLimited_full_iff {env : Env} {cpi : Cpi} {m : Mem} {swig wallet : Meta} {rest : List Meta} {n : Nat} {tl : List Class}
    {bump : UInt8} {loc : ActLoc} {ixs : List Inner} {w W : Wallet} {id : Nat} {r r0 : Role} {before after : List Role}
    (hp : Placed loc w id r before after) (hr0 : r0.actions = r.actions) (hloc : loc.swig = swig.key) (hd : (m swig.key).data = w.encode)
    (ho : (m swig.key).owner = swigId) (hkeep : cpi.Keeps swig.key)
    (h32 : ∀ a ∈ rest, a.key.length = 32) (hk : ∀ ix ∈ ixs, ∀ a ∈ ix.accounts, a.key.length = 32)
    (hprog : ∀ i ∈ ixs, i.program.length = 32) (hu : ∀ i ∈ ixs, (i.usesSigner = true ↔ ∃ a ∈ i.accounts, a.key = wallet.key))
    (hpc : All2 (FullClass m W swig.key wallet.key) rest tl) :
    (∃ m', signLimited (signCtx env (swig :: wallet :: rest) swig.key wallet.key bump loc ixs r0) cpi m
        (.thisSwig n :: .wallet :: tl) = .ok m') ↔
      ∃ m1, LimitsAllowAll env cpi m m1 W swig wallet rest (walletSeeds swig.key ++ [[bump]]) r.actions ixs := by
  have hc : All2 Act.Charged r.actions r.actions := All2.refl' Act.Charged.refl _
  have hwf := hp.roleWf.acts
  have hdl : (m loc.swig).data = w.encode := by rw [hloc]; exact hd
  obtain ⟨x, hx⟩ : ∃ x, x = signCtx env (swig :: wallet :: rest) swig.key wallet.key bump loc ixs r0 := ⟨_, rfl⟩
  have e1 : x.env = env := by rw [hx]; rfl
  have e2 : x.metas = swig :: wallet :: rest := by rw [hx]; rfl
  have e3 : x.wallet = wallet.key := by rw [hx]; rfl
  have e4 : x.seeds = walletSeeds swig.key ++ [[bump]] := by rw [hx]; rfl
  have e5 : x.loc = loc := by rw [hx]; rfl
  have e6 : x.ixs = ixs := by rw [hx]; rfl
  have hk32 : Keys32 x := by unfold Keys32; rw [e6]; exact hk
  have hpx : Placed x.loc w id r before after := by rw [e5]; exact hp
  rw [← hx]
  have hmem := fullClass_mem hpc
  have hzip : (swig :: wallet :: rest).zip (Class.thisSwig n :: .wallet :: tl) = (swig, .thisSwig n) :: (wallet, .wallet) :: rest.zip tl := rfl
  have hfind : ∀ m', (m' swig.key).data = w.encode → ∀ k : Key, k.length = 32 →
      x.loc.find m' P.programScope k = .ok (payload? r.actions P.programScope k) := by
    intro m' hd' k hk'
    have hst := hpx.start (m := m') (by rw [e5, hloc]; exact hd')
    rw [hst]
    exact hpx.find hc m' P.programScope k (fun _ => hk')
  have hsn := snapAll_full (x := x) (m := m) (acts := r.actions) (i := 0) (l := (swig :: wallet :: rest).zip (Class.thisSwig n :: .wallet :: tl)) (by
    intro e he
    rw [hzip] at he
    rcases List.mem_cons.mp he with rfl | he
    · trivial
    · rcases List.mem_cons.mp he with rfl | he
      · trivial
      · obtain ⟨hin, hf⟩ := hmem e he
        obtain ⟨a, c⟩ := e
        dsimp only at hin hf
        unfold SnapOk
        rcases hf.cases with ⟨h1, rfl⟩ | ⟨h1, st, rfl⟩ | ⟨s, ro, b, h1, rfl⟩ | ⟨_, h4, h5⟩
        · have := (watched_owner h1).2
          dsimp only
          omega
        · dsimp only
          rcases h1 with t | t <;> have := t.long <;> omega
        · exact hfind m hd _ (h32 a hin)
        · dsimp only
          cases c <;> trivial)
  have hlen : rest.length = tl.length := hpc.length'
  have hrun := runIxs_full (x := x) (cpi := cpi) (acts := r.actions) (good := fun m' => (m' swig.key).data = w.encode)
    (by
      intro i _ m1 m2 hg he
      rcases execInner_cpi he with he | ⟨d, k, rfl⟩
      · rw [(hkeep _ _ _ he).1]; exact hg
      · rw [directTransfer_data]; exact hg)
    (may := fun i => (∃ a ∈ i.accounts, a.key = wallet.key) → MayInvoke r.actions i.program)
    (by
      intro i hi m1 hg
      rw [e6] at hi
      rw [hx, ← hloc]
      exact programOk_iff hp (by rw [hloc]; exact hg) hr0 (hprog i hi) (hu i hi))
    (keys := fun k => k.length = 32) hfind
    (ixs := x.ixs) (m := m) (l := x.metas.zip (Class.thisSwig n :: .wallet :: tl)) (total := 0) (fun _ h => h) hd (by decide) (by
      rw [e2, hzip]
      intro e he hs
      rcases List.mem_cons.mp he with rfl | he
      · cases hs
      · rcases List.mem_cons.mp he with rfl | he
        · cases hs
        · exact h32 _ (hmem e he).1)
  have hto : ∀ m1, (m1 swig.key).data = w.encode → (m1 swig.key).owner = (m swig.key).owner → ∀ total, ∀ m2,
      settleOne x m1 swig (.thisSwig n) (snapF x.env m r.actions (swig, .thisSwig n)) total = .ok m2 →
        x.env.rent (m1 wallet.key).data.length ≤ (m1 wallet.key).lamports ∧ ∃ mid, m2 = cfgMem x.loc w id m1 mid ∧
          ((total = 0 ∧ mid = r.actions) ∨ (total ≠ 0 ∧ SolSettled (ixs.filterMap (transferFrom wallet.key)) r.actions mid total x.env.slot)) := by
    intro m1 k1 k2 total m2 h
    have hd1 : (m1 x.loc.swig).data = w.encode := by rw [e5, hloc]; exact k1
    have hst := hpx.start hd1
    simp only [settleOne, settleSwig] at h
    rw [show snapF x.env m r.actions (swig, .thisSwig n) = snapPure x.env m (swig, .thisSwig n) by
      unfold snapF snapPure; rfl, recheck_nil k2 (k1.trans hd.symm), ok_bind, e3] at h
    obtain ⟨_, h1, h⟩ := bind_ok_iff.mp h
    refine ⟨require_ok_iff.mp h1, ?_⟩
    by_cases hz : total = 0
    · rw [if_pos hz] at h
      cases h
      exact ⟨r.actions, hst, .inl ⟨hz, rfl⟩⟩
    · rw [if_neg hz, hst] at h
      obtain ⟨as1, q1, q2, q3, q4⟩ := hpx.settleSol hk32 hc h
      refine ⟨as1, q1, .inr ⟨hz, ?_⟩⟩
      have := (sol_settled hwf).mp ⟨q4, q2⟩
      rwa [solTransfers_eq', e3, e6] at this
  have hof : ∀ m1, (m1 swig.key).data = w.encode → (m1 swig.key).owner = (m swig.key).owner → ∀ total, total < 2 ^ 64 → ∀ mid,
      x.env.rent (m1 wallet.key).data.length ≤ (m1 wallet.key).lamports →
      ((total = 0 ∧ mid = r.actions) ∨ (total ≠ 0 ∧ SolSettled (ixs.filterMap (transferFrom wallet.key)) r.actions mid total x.env.slot)) →
      settleOne x m1 swig (.thisSwig n) (snapF x.env m r.actions (swig, .thisSwig n)) total = .ok (cfgMem x.loc w id m1 mid) := by
    intro m1 k1 k2 total ht mid h1 h2
    have hd1 : (m1 x.loc.swig).data = w.encode := by rw [e5, hloc]; exact k1
    have hst := hpx.start hd1
    simp only [settleOne, settleSwig]
    rw [show snapF x.env m r.actions (swig, .thisSwig n) = snapPure x.env m (swig, .thisSwig n) by
      unfold snapF snapPure; rfl, recheck_nil k2 (k1.trans hd.symm), ok_bind, e3, require_of h1, ok_bind]
    rcases h2 with ⟨hz, rfl⟩ | ⟨hz, h2⟩
    · rw [if_pos hz, ← hst]
    · rw [if_neg hz]
      rw [← e6, ← e3, ← solTransfers_eq'] at h2
      obtain ⟨q1, q2⟩ := (sol_settled hwf).mpr h2
      have := hpx.settleSol_of hk32 hc (m := m1) ht q1 q2
      rwa [← hst] at this
  have hm1 : ∀ {m1 : Mem}, execAll env cpi (swig :: wallet :: rest) wallet.key (walletSeeds swig.key ++ [[bump]]) m ixs = .ok m1 →
      (m1 swig.key).data = w.encode ∧ (m1 swig.key).owner = (m swig.key).owner := by
    intro m1 h
    have := execAll_keeps hkeep h
    exact ⟨this.1.trans hd, this.2⟩
  have hcm : ∀ {total : Nat} {mid : List Act}, ((total = 0 ∧ mid = r.actions) ∨
      (total ≠ 0 ∧ SolSettled (ixs.filterMap (transferFrom wallet.key)) r.actions mid total x.env.slot)) → All2 Act.Charged r.actions mid := by
    rintro total mid (⟨_, rfl⟩ | ⟨_, q⟩)
    · exact hc
    · rw [← e6, ← e3, ← solTransfers_eq'] at q
      exact ((sol_settled hwf).mpr q).2.charged hwf
  have hsat : ∀ l : List (Meta × Class), (∀ e ∈ l, e.2.isSwig = false ∧ (e.2.tracked = true → e.1.key ≠ swig.key ∧ e.1.key.length = 32)) →
      ∀ (hs : List (Option Bytes)) (m1 : Mem) (mid : List Act) (total : Nat) (m' : Mem), l.length = hs.length → All2 Act.Charged r.actions mid →
      settleAll x total (cfgMem x.loc w id m1 mid) l hs = .ok m' →
      All2 (fun e hh => OkOf x m1 r.actions e.1 hh e.2) l hs := by
    intro l hl hs m1 mid total m' h1 h2 h3
    obtain ⟨_, _, _, _, q⟩ := hpx.settleAll hk32 h1 h2 (by rw [e5, hloc]; exact hl) h3
    exact All2.imp' (fun e hh ho => OkOf.congr h2 ho) q
  have hfacts : ∀ e ∈ rest.zip tl, e.2.isSwig = false ∧ (e.2.tracked = true → e.1.key ≠ swig.key ∧ e.1.key.length = 32) := by
    intro e he
    obtain ⟨hin, hf⟩ := hmem e he
    exact ⟨(hf.facts ho).1, fun t => ⟨(hf.facts ho).2.1 t, h32 _ hin⟩⟩
  have hget : ∀ (i : Nat) (a : Meta), rest[i]? = some a → ∃ c, (rest.zip tl)[i]? = some (a, c) := by
    intro i a hi
    obtain ⟨hlt, hg⟩ := List.getElem?_eq_some_iff.mp hi
    refine ⟨tl[i]'(by omega), ?_⟩
    rw [List.getElem?_eq_some_iff]
    exact ⟨by rw [List.length_zip]; omega, by rw [List.getElem_zip, hg]⟩
  have hget' : ∀ (i : Nat) (e : Meta × Class), (rest.zip tl)[i]? = some e → rest[i]? = some e.1 := by
    intro i e hi
    obtain ⟨hlt, hg⟩ := List.getElem?_eq_some_iff.mp hi
    rw [List.length_zip] at hlt
    rw [List.getElem_zip] at hg
    rw [List.getElem?_eq_some_iff]
    exact ⟨by omega, by rw [← hg]⟩
  have htracked : ∀ e ∈ rest.zip tl, (e.2.tracked = true ↔
      Watched m swig.key wallet.key e.1 ∨ StakeWatched m swig.key wallet.key e.1 ∨ ∃ s, TargetOf m W e.1 s) :=
    fun e he => ((hmem e he).2.facts ho).2.2
  rw [e1, e2, e3, e4, e6, Nat.zero_add] at hrun
  rw [e1] at hsn hto hof hcm
  have hset := fun (m1 : Mem) (total : Nat) (as : List Act) (hc : All2 Act.Charged r.actions as) =>
    hpx.settlesAll_iff hk32 (W := W) (m := m) (m1 := m1) (total := total)
      (states := fun k => statesEach env cpi (swig :: wallet :: rest) wallet.key (walletSeeds swig.key ++ [[bump]]) k m ixs) (l := rest) (cls := tl)
      hc (by rw [e5, hloc, e3]; exact hpc) h32 (by rw [e5, hloc]; exact ho)
  rw [e1, e3, e5, hloc, e6] at hset
  rw [e5] at hto hof hsat
  have hlook : ((swig :: wallet :: rest).zip (Class.thisSwig n :: .wallet :: tl)).map (fun e => lookFAll r.actions e
      (statesEach env cpi (swig :: wallet :: rest) wallet.key (walletSeeds swig.key ++ [[bump]]) e.1.key m ixs)) =
      (swig, .thisSwig n) :: (wallet, .wallet) :: (rest.zip tl).map (fun e => lookFAll r.actions e
        (statesEach env cpi (swig :: wallet :: rest) wallet.key (walletSeeds swig.key ++ [[bump]]) e.1.key m ixs)) := by
    rw [hzip, List.map_cons, List.map_cons, lookFAll_other _ _ rfl, lookFAll_other _ _ rfl]
  have hlooked : ∀ e' ∈ (rest.zip tl).map (fun e => lookFAll r.actions e
        (statesEach env cpi (swig :: wallet :: rest) wallet.key (walletSeeds swig.key ++ [[bump]]) e.1.key m ixs)),
      e'.2.isSwig = false ∧ (e'.2.tracked = true → e'.1.key ≠ swig.key ∧ e'.1.key.length = 32) := by
    intro e' he
    obtain ⟨e, hin, rfl⟩ := List.mem_map.mp he
    rw [(lookFAll_class ..).1, (lookFAll_class ..).2, (lookFAll_keep ..).1]
    exact hfacts e hin
  have hsum : ∀ k : Nat, min (2 ^ 64 - 1) k = 0 ↔ k = 0 := by intro k; omega
  have hsane0 : Sane r.actions (rest.zip tl) → Sane r.actions ((swig :: wallet :: rest).zip (Class.thisSwig n :: .wallet :: tl)) := by
    intro h e he hs
    rw [hzip] at he
    rcases List.mem_cons.mp he with rfl | he
    · cases hs
    · rcases List.mem_cons.mp he with rfl | he
      · cases hs
      · exact h e he hs
  unfold signLimited
  rw [e2, e6]
  constructor
  · rintro ⟨m', h⟩
    obtain ⟨hs, h1, g1⟩ := bind_ok_iff.mp h
    obtain ⟨⟨m1, acc, total⟩, h2, h3⟩ := bind_ok_iff.mp g1
    obtain ⟨rfl, k1⟩ := (hsn hs).mp h1
    dsimp only at h3
    have hsane : Sane r.actions (rest.zip tl) := by
      obtain ⟨f1, f2, _⟩ := runIxs_ok (l0 := (swig :: wallet :: rest).zip (Class.thisSwig n :: .wallet :: tl)) h2
        (All2.refl' (fun e => ⟨rfl, .same _⟩) _)
      rw [e1, e2, e3, e4] at f1
      rw [hzip] at f2 h3
      obtain ⟨a1, acc1, rfl, f3, f4⟩ := f2.uncons
      obtain ⟨a2, acc2, rfl, f5, f6⟩ := f4.uncons
      obtain ⟨b1, c1⟩ := a1
      obtain ⟨b2, c2⟩ := a2
      obtain ⟨g3, g4⟩ := f3
      obtain ⟨g5, g6⟩ := f5
      dsimp only at g3 g4 g5 g6
      replace g3 := g3.symm
      replace g5 := g5.symm
      subst g3
      subst g5
      cases g4
      cases g6
      simp only [List.map_cons, settleAll] at h3
      obtain ⟨m2, h4, h5⟩ := bind_ok_iff.mp h3
      obtain ⟨m3, h6, h7⟩ := bind_ok_iff.mp h5
      cases h6
      obtain ⟨_, mid, rfl, q3⟩ := hto m1 (hm1 f1).1 (hm1 f1).2 _ _ h4
      refine sane_of (l := acc2) (All2.imp' (fun e e' h => ⟨h.1, h.2.isScope⟩) f6) (hsat acc2 ?_ _ m1 mid _ _ ?_ (hcm q3) h7)
      · have : ∀ {l0 l : List (Meta × Class)}, All2 (fun e e' => e'.1 = e.1 ∧ Mono e.2 e'.2) l0 l →
            (∀ e ∈ l0, e.2.isSwig = false ∧ (e.2.tracked = true → e.1.key ≠ swig.key ∧ e.1.key.length = 32)) →
            ∀ e ∈ l, e.2.isSwig = false ∧ (e.2.tracked = true → e.1.key ≠ swig.key ∧ e.1.key.length = 32) := by
          intro l0 l h
          induction h with
          | nil => intro _ e he; simp at he
          | cons h1 _ ih =>
            intro h2 e he
            rcases List.mem_cons.mp he with rfl | he
            · rw [h1.1, h1.2.isSwig, h1.2.tracked]
              exact h2 _ (by simp)
            · exact ih (fun e he => h2 e (by simp [he])) e he
        exact this f6 hfacts
      · rw [List.length_map]
        exact f6.length'.symm
    obtain ⟨k2, m1', k3, k4⟩ := (hrun (hsane0 hsane) _).mp h2
    simp only [Prod.mk.injEq] at k4
    obtain ⟨rfl, rfl, rfl⟩ := k4
    rw [hlook, hzip] at h3
    simp only [List.map_cons, settleAll] at h3
    obtain ⟨m2, h4, h5⟩ := bind_ok_iff.mp h3
    obtain ⟨q1, mid, rfl, q3⟩ := hto m1 (hm1 k3).1 (hm1 k3).2 _ m2 h4
    obtain ⟨m3, h6, h7⟩ := bind_ok_iff.mp h5
    cases h6
    obtain ⟨as', q4⟩ := (hset m1 _ mid (hcm q3)).mp ⟨m', h7⟩
    have hok := All2.ofMap (hsat _ hlooked _ m1 mid _ _ (by simp) (hcm q3) h7)
    refine ⟨m1, k2, k3, q1, ?_, mid, as', ?_, q4⟩
    · intro i a hi hwr hwat
      obtain ⟨c, hz⟩ := hget i a hi
      have hin := List.mem_of_getElem? hz
      have ht := (htracked _ hin).mpr hwat
      have hne : snapF env m r.actions (a, c) ≠ none := by
        by_cases hsc : c.isScope = true
        · have := hok _ hin
          have := (okOf_scope this (by rw [(lookFAll_keep ..).2]; exact hsc)).2
          rw [(lookFAll_keep ..).1] at this
          exact this hwr
        · exact snapF_some hwr ht (by simpa using hsc)
      have := k1 (i + 2) (a, c) (by rw [hzip]; simpa only [List.getElem?_cons_succ] using hz) hne
      omega
    · rcases q3 with ⟨a, b⟩ | ⟨a, b⟩
      · exact .inl ⟨(hsum _).mp a, b⟩
      · exact .inr ⟨fun e => a ((hsum _).mpr e), b⟩
  · rintro ⟨m1, k2, k3, q1, k1, mid, as', q3, q4⟩
    have q3' : ((min (2 ^ 64 - 1) (lostEach env cpi (swig :: wallet :: rest) wallet.key (walletSeeds swig.key ++ [[bump]]) wallet.key m ixs).sum = 0 ∧
        mid = r.actions) ∨ (min (2 ^ 64 - 1) (lostEach env cpi (swig :: wallet :: rest) wallet.key (walletSeeds swig.key ++ [[bump]]) wallet.key m ixs).sum ≠ 0 ∧
          SolSettled (ixs.filterMap (transferFrom wallet.key)) r.actions mid
            (min (2 ^ 64 - 1) (lostEach env cpi (swig :: wallet :: rest) wallet.key (walletSeeds swig.key ++ [[bump]]) wallet.key m ixs).sum) env.slot)) := by
      rcases q3 with ⟨a, b⟩ | ⟨a, b⟩
      · exact .inl ⟨(hsum _).mpr a, b⟩
      · exact .inr ⟨fun e => a ((hsum _).mp e), b⟩
    obtain ⟨m', h7⟩ := (hset m1 (min (2 ^ 64 - 1)
      (lostEach env cpi (swig :: wallet :: rest) wallet.key (walletSeeds swig.key ++ [[bump]]) wallet.key m ixs).sum) mid (hcm q3')).mpr ⟨as', q4⟩
    have hok := hsat _ hlooked _ m1 mid _ _ (by simp) (hcm q3') h7
    have hsane : Sane r.actions (rest.zip tl) := by
      refine sane_of ?_ hok
      have : ∀ l : List (Meta × Class), All2 (fun e e' => e'.1 = e.1 ∧ e'.2.isScope = e.2.isScope) l (l.map (fun e => lookFAll r.actions e
          (statesEach env cpi (swig :: wallet :: rest) wallet.key (walletSeeds swig.key ++ [[bump]]) e.1.key m ixs))) := by
        intro l
        induction l with
        | nil => exact .nil
        | cons e l ih => exact .cons (lookFAll_keep ..) ih
      exact this _
    refine ⟨m', ?_⟩
    rw [(hsn _).mpr ⟨rfl, by
      intro j e hj hne
      rw [hzip] at hj
      match j, hj with
      | 0, _ => omega
      | 1, _ => omega
      | j + 2, hj =>
        simp only [List.getElem?_cons_succ] at hj
        have hin := List.mem_of_getElem? hj
        obtain ⟨n1, n2⟩ := snapF_none (a := e.1) (c := e.2) hne (hfacts e hin).1
        have := k1 j e.1 (hget' j e hj) n1 ((htracked e hin).mp n2)
        omega⟩, ok_bind, (hrun (hsane0 hsane) _).mpr ⟨k2, m1, k3, rfl⟩, ok_bind]
    dsimp only
    rw [hlook, hzip]
    simp only [List.map_cons, settleAll]
    rw [hof m1 (hm1 k3).1 (hm1 k3).2 _ (by omega) mid q1 q3', ok_bind]
    exact h7

end Verif
