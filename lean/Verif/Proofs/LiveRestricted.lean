import Verif.Proofs.LiveLimited
import Verif.Proofs.ClientActions
import Verif.Spec.Allowed
import Verif.Props.ClientMore

/-! Requests of restricted roles up to the execution with limits, and how covered amounts are charged. -/

namespace Verif
open Client

theorem signWith_limited {env : Env} {cpi : Cpi} {m : Mem} {metas : List Meta} {cls : List Class} {wallet : Key} {bump : UInt8}
    {loc : ActLoc} {ixs : List Inner} {w : Wallet} {id : Nat} {r : Role} {before after : List Role}
    (hp : Placed loc w id r before after) (hd : (m loc.swig).data = w.encode) (hr : Restricted r) :
    signWith env cpi m metas cls wallet (walletSeeds loc.swig ++ [[bump]]) loc ixs =
      signLimited (signCtx env metas loc.swig wallet bump loc ixs r) cpi m cls := by
  have hc : All2 Act.Charged r.actions r.actions := All2.refl' Act.Charged.refl _
  have hm := hp.start hd
  have has : ∀ ty, repeatable ty = false → loc.has m ty [] = .ok (payload? r.actions ty []).isSome := by
    intro ty hr
    have := hp.has hc m ty [] (fun h => by rw [hr] at h; cases h)
    rw [← hm] at this
    exact this
  have h1 : (payload? r.actions P.all []).isSome = false := by
    cases h : (payload? r.actions P.all []).isSome with
    | false => rfl
    | true =>
      obtain ⟨a, ha, e⟩ := (payload?_isSome_iff rfl []).mp h
      exact absurd e (hr a ha).1
  have h2 : (payload? r.actions P.allButManageAuthority []).isSome = false := by
    cases h : (payload? r.actions P.allButManageAuthority []).isSome with
    | false => rfl
    | true =>
      obtain ⟨a, ha, e⟩ := (payload?_isSome_iff rfl []).mp h
      exact absurd e (hr a ha).2
  unfold signWith unrestricted
  rw [has P.all rfl, has P.allButManageAuthority rfl, h1, h2]
  simp only [ok_bind, Bool.false_eq_true, if_false]
  rw [has P.programAll rfl, ok_bind]
  unfold signCurated
  rw [has P.programCurated rfl]
  unfold signCtx
  generalize (payload? r.actions P.programAll []).isSome = b
  cases b <;> simp

/-! ## Classes of plain accounts -/

/-- How an account that is no stake account and no target of a scope is classified in a request for the wallet. -/
structure PlainClass (m : Mem) (swig wallet : Key) (a : Meta) (c : Class) : Prop where
  simple : c.simple = true
  token : TokenOf m swig a.key ∨ TokenOf m wallet a.key → c = .token (rd (m a.key).data 64 8) 0
  other : ¬ (TokenOf m swig a.key ∨ TokenOf m wallet a.key) → c.tracked = false

theorem classify_plain {m : Mem} {f y : Meta} {p : List Meta} {c0 : Class} {q : List Class} {cache : List (Nat × Bytes)} {a : Meta} {c : Class}
    (hf : isConfig m f.key = true) (ha : (m a.key).owner ≠ stakeId) (hn : findScope cache a.key = none)
    (h : classify m (f :: y :: p) (c0 :: .wallet :: q) (some cache) a = .ok c) : PlainClass m f.key y.key a c := by
  have hown : ∀ k, ownedBy (f :: y :: p) (c0 :: .wallet :: q) k = true ↔ k = f.key ∨ k = y.key := by
    intro k
    unfold ownedBy
    simp only [List.getElem?_cons_zero, List.getElem?_cons_succ, Bool.or_eq_true, beq_iff_eq]
    exact ⟨fun h => h.imp Eq.symm Eq.symm, fun h => h.imp Eq.symm Eq.symm⟩
  unfold classify at h
  dsimp only at h
  by_cases h1 : (m a.key).owner = swigId
  · rw [if_pos h1] at h
    have hnt : ∀ k, ¬ TokenOf m k a.key := by
      intro k ht
      rcases ht.program with e | e <;> rw [h1] at e <;> exact absurd e (by decide +kernel)
    have : c = .none := by
      split at h
      · cases h; rfl
      · split at h
        · rename_i e; simp at e
        · simp [hf] at h; exact h.symm
    subst this
    exact ⟨rfl, fun h => absurd h (by rintro (h | h) <;> exact hnt _ h), fun _ => rfl⟩
  · rw [if_neg h1, if_neg (by rintro ⟨_, h⟩; simp at h), if_neg ha] at h
    by_cases h2 : ((m a.key).owner = token2022Id ∨ (m a.key).owner = tokenId) ∧ (f :: y :: p).length > 0 ∧ 165 ≤ (m a.key).data.length
    · rw [if_pos h2] at h
      by_cases h3 : ownedBy (f :: y :: p) (c0 :: .wallet :: q) (sl (m a.key).data 32 64) = true
      · rw [if_neg (by rw [h3]; decide)] at h
        cases h
        refine ⟨rfl, fun _ => rfl, fun hno => ?_⟩
        exfalso
        rcases (hown _).mp h3 with e | e
        · exact hno (.inl ⟨h2.1.symm, h2.2.2, e⟩)
        · exact hno (.inr ⟨h2.1.symm, h2.2.2, e⟩)
      · rw [if_pos (by simpa using h3)] at h
        cases h
        refine ⟨rfl, fun hyes => ?_, fun _ => rfl⟩
        exfalso
        apply h3
        rw [hown]
        exact hyes.imp (fun t => t.authority) (fun t => t.authority)
    · rw [if_neg h2, if_neg (by simp)] at h
      simp only [hn] at h
      cases h
      refine ⟨rfl, fun hyes => ?_, fun _ => rfl⟩
      exfalso
      apply h2
      rcases hyes with t | t <;> exact ⟨t.program.symm, by simp, t.long⟩

theorem classifyGo_plain {m : Mem} {f y : Meta} {c0 : Class} {cache : List (Nat × Bytes)} (hf : isConfig m f.key = true) :
    ∀ (rest p : List Meta) (q out : List Class), (∀ a ∈ rest, (m a.key).owner ≠ stakeId ∧ findScope cache a.key = none) →
    classifyGo m (some cache) (f :: y :: p) (c0 :: .wallet :: q) rest = .ok out →
    ∃ tl, out = c0 :: .wallet :: (q ++ tl) ∧ All2 (PlainClass m f.key y.key) rest tl := by
  intro rest
  induction rest with
  | nil => intro p q out _ h; cases h; exact ⟨[], by simp, .nil⟩
  | cons a rest ih =>
    intro p q out hr h
    simp only [classifyGo] at h
    obtain ⟨c, h1, h⟩ := bind_ok_iff.mp h
    have hc := classify_plain hf (hr a (by simp)).1 (hr a (by simp)).2 h1
    obtain ⟨tl, e, h2⟩ := ih (p ++ [a]) (q ++ [c]) out (fun a ha => hr a (by simp [ha])) (by simpa using h)
    exact ⟨c :: tl, by simpa using e, .cons hc h2⟩

/-- The classes of the accounts of a request for a stored wallet. -/
theorem process_plain {env : Env} {cpi : Cpi} {m : Mem} {f x : Meta} {rest : List Meta} {w : Wallet} {ix : Bytes} (hw : w.WF)
    (hd : (m f.key).data = w.encode) (ho : (m f.key).owner = swigId) (hx : (m x.key).owner = systemId)
    (hp : Plain m w (f :: x :: rest)) (hl : (f :: x :: rest).length ≤ 254) :
    ∃ tl, All2 (PlainClass m f.key x.key) rest tl ∧
      process env cpi m (f :: x :: rest) ix = dispatch env cpi m (f :: x :: rest) (.thisSwig (m f.key).lamports :: .wallet :: tl) ix := by
  obtain ⟨tl, h1, h2⟩ := process_two (env := env) (cpi := cpi) (ix := ix) hw hd ho hx hp hl
  refine ⟨tl, ?_, h2⟩
  have hc := isConfig_enc hw hd ho
  obtain ⟨cache, hs⟩ : ∃ c, loadScopes w.encode = some c := by
    unfold loadScopes
    rw [splitParts_encode hw]
    exact ⟨_, rfl⟩
  have hn := plain_none hw hp hs
  simp only [classifyAll] at h1
  obtain ⟨c0, k1, h1⟩ := bind_ok_iff.mp h1
  simp only [classifyGo] at h1
  obtain ⟨c1, k2, h1⟩ := bind_ok_iff.mp h1
  have e1 : c1 = .wallet := by
    unfold classify at k2
    dsimp only at k2
    rw [if_neg (by rw [hx]; decide +kernel), if_pos ⟨hx, rfl⟩] at k2
    simpa [hc] using k2.symm
  have e0 : cacheOf m f.key = some cache := by
    unfold cacheOf
    rw [if_pos hc, hd, hs]
  subst e1
  rw [e0] at h1
  obtain ⟨tl', e, h3⟩ := classifyGo_plain hc rest [] [] _ (fun a ha => ⟨(hp a (by simp [ha])).1, hn a (by simp [ha])⟩) h1
  simp only [List.nil_append, List.cons.injEq] at e
  rw [e.2.2]
  exact h3

/-! ## The call -/

theorem inner_asCalled {metas : List Meta} {wallet : Key} {b : Bytes} {i : Inner} {inner : FullIx} (hs : SameFlags metas)
    (h : decodeIxs metas wallet [] b = .ok [i]) (h1 : i.program = inner.program)
    (h2 : i.accounts.map (·.key) = inner.accounts.map (·.key)) (h3 : i.data = inner.data) : i.cpi = asCalled metas wallet inner := by
  have hf := (C35_no_forged_signature h i (by simp)).1
  unfold Inner.cpi asCalled
  rw [h1, h3]
  congr 1
  have : ∀ (l : List Meta) (l' : List Meta), (∀ a ∈ l, ∃ o ∈ metas, o.key = a.key ∧ a.writable = o.writable ∧
      (a.signer = true ↔ (a.key = wallet ∨ o.signer = true) ∧ a.key ∉ ([] : List Key))) → l.map (·.key) = l'.map (·.key) →
      l = l'.map fun a => (⟨a.key, a.key == wallet || metas.any (fun o => o.key == a.key && o.signer),
        metas.any (fun o => o.key == a.key && o.writable)⟩ : Meta) := by
    intro l
    induction l with
    | nil => intro l' _ h; cases l' with
      | nil => rfl
      | cons => simp at h
    | cons a l ih =>
      intro l' hl h
      cases l' with
      | nil => simp at h
      | cons a' l' =>
        simp only [List.map_cons, List.cons.injEq] at h ⊢
        refine ⟨?_, ih l' (fun a ha => hl a (by simp [ha])) h.2⟩
        obtain ⟨o, ho, e1, e2, e3⟩ := hl a (by simp)
        have hany : ∀ f : Meta → Bool, metas.any (fun o => o.key == a'.key && f o) = f o := by
          intro f
          rw [← h.1, Bool.eq_iff_iff, List.any_eq_true]
          constructor
          · rintro ⟨o', ho', hh⟩
            simp only [Bool.and_eq_true, beq_iff_eq] at hh
            rw [← hs o' ho' o ho (hh.1.trans e1.symm)]
            exact hh.2
          · intro hh
            exact ⟨o, ho, by simp [e1, hh]⟩
        rw [hany, hany]
        obtain ⟨ak, as, aw⟩ := a
        simp only at h e1 e2 e3 ⊢
        rw [e2]
        congr 1
        · exact h.1
        · rw [Bool.eq_iff_iff, e3, ← h.1]
          simp
  exact this _ _ hf h2

/-- A call is executed as it is, as long as the wallet address belongs to the System program. -/
theorem execInner_called {env : Env} {cpi : Cpi} {m : Mem} {metas : List Meta} {wallet : Key} {seeds : List Bytes} {i : Inner}
    {inner : FullIx} (hc : i.cpi = asCalled metas wallet inner) (hpda : env.pda seeds = some wallet) (hw : (m wallet).owner = systemId)
    (hne : inner.accounts ≠ []) : execInner env cpi m metas wallet seeds i = cpi m (asCalled metas wallet inner) := by
  have hinv : invokeSigned env cpi m metas i.cpi seeds = cpi m (asCalled metas wallet inner) := by
    unfold invokeSigned
    rw [hpda, hc]
    dsimp only
    rw [if_pos]
    intro a ha
    obtain ⟨b, hb, rfl⟩ := List.mem_map.mp ha
    constructor
    · intro h
      simp only [Bool.or_eq_true, beq_iff_eq, List.any_eq_true, Bool.and_eq_true] at h
      exact h
    · intro h
      simp only [beq_iff_eq, List.any_eq_true, Bool.and_eq_true] at h
      exact h
  have hacc : i.accounts ≠ [] := by
    have : i.accounts = (asCalled metas wallet inner).accounts := by rw [← hc]; rfl
    rw [this]
    simpa [asCalled] using hne
  unfold execInner
  by_cases h1 : i.program = systemId ∧ 12 ≤ i.data.length ∧ i.data.take 4 = [2, 0, 0, 0]
  · rw [if_pos h1]
    cases hh : i.accounts with
    | nil => exact absurd hh hacc
    | cons a l =>
      dsimp only
      rw [if_neg (by rintro ⟨e, h⟩; rw [e] at h; exact h hw)]
      exact hinv
  · rw [if_neg h1]
    exact hinv

theorem programOk_of {x : SignCtx} {m : Mem} {i : Inner}
    (h : x.programAll = true ∨ (x.curated = true ∧ isCurated i.program = true) ∨ x.loc.has m P.program i.program = .ok true) :
    programOk x m i = .ok true := by
  unfold programOk
  rcases h with h | h | h
  · rw [if_pos (.inl h)]
  · rw [if_pos h]
    split <;> rfl
  · rw [h]
    split
    · rfl
    · split <;> rfl

theorem program_ok {env : Env} {m : Mem} {metas : List Meta} {wallet : Key} {bump : UInt8} {loc : ActLoc} {ixs : List Inner} {i : Inner}
    {w : Wallet} {id : Nat} {r r0 : Role} {before after : List Role} (hp : Placed loc w id r before after) (hd : (m loc.swig).data = w.encode)
    (hr0 : r0.actions = r.actions) (hmay : MayInvoke r.actions i.program) (hlen : i.program.length = 32) :
    programOk (signCtx env metas loc.swig wallet bump loc ixs r0) m i = .ok true := by
  have hc : All2 Act.Charged r.actions r.actions := All2.refl' Act.Charged.refl _
  have hm := hp.start hd
  refine programOk_of ?_
  obtain ⟨a, ha, h | ⟨h, h'⟩ | ⟨h, h'⟩⟩ := hmay
  · exact .inl (show (payload? r0.actions P.programAll []).isSome = true by rw [hr0]; exact (payload?_isSome_iff rfl []).mpr ⟨a, ha, h⟩)
  · have h2 := (payload?_isSome_iff (as := r.actions) (ty := P.programCurated) rfl []).mpr ⟨a, ha, h⟩
    cases h3 : (payload? r0.actions P.programAll []).isSome with
    | true => exact .inl h3
    | false =>
      refine .inr (.inl ⟨?_, h'⟩)
      show (!(payload? r0.actions P.programAll []).isSome && (payload? r0.actions P.programCurated []).isSome) = true
      rw [h3, hr0, h2]
      rfl
  · refine .inr (.inr ?_)
    show loc.has m P.program i.program = .ok true
    have := hp.has hc m P.program i.program (fun _ => hlen)
    rw [← hm] at this
    rw [this]
    congr 1
    unfold payload?
    rw [Option.isSome_map, List.find?_isSome]
    refine ⟨a, ha, decide_eq_true ⟨h, fun _ => ?_⟩⟩
    rw [h']
    show i.program.take 32 = i.program
    rw [List.take_of_length_le (by omega)]

/-! ## Charges of covered amounts -/

theorem takes_grants {lim : Action} (h : lim.InRange) : lim.toAct.grants lim.header.1 lim.key :=
  ⟨rfl, fun hr => C69_key lim h hr⟩

theorem ite_some {α : Type} {c : Prop} [Decidable c] {x y : α} (h : (if c then some x else none) = some y) : y = x := by
  split at h
  · exact (Option.some.inj h).symm
  · cases h

theorem spend_scope {c l w r : Nat} {p t : Bytes} {st nt s e n slot : Nat} {lim' : Action}
    (h : (Action.programScope c l w r p t st nt s e).spend n slot = some lim') : ∃ u r', lim' = .programScope u l w r' p t st nt s e := by
  simp only [Action.spend] at h
  generalize 2 ^ 128 - 1 = top at h
  by_cases h0 : st % 256 = 0
  · rw [if_pos h0] at h; exact ⟨_, _, (Option.some.inj h).symm⟩
  · rw [if_neg h0] at h
    by_cases h1 : st % 256 = 1
    · rw [if_pos h1] at h
      exact ⟨_, _, ite_some h⟩
    · rw [if_neg h1] at h
      by_cases h2 : st % 256 = 2
      · rw [if_pos h2] at h
        by_cases h3 : slot - r > w
        · rw [if_pos h3] at h
          by_cases h4 : w = 0
          · rw [if_pos h4] at h; cases h
          · rw [if_neg h4] at h; exact ⟨_, _, ite_some h⟩
        · rw [if_neg h3] at h; exact ⟨_, _, ite_some h⟩
      · rw [if_neg h2] at h; cases h

theorem spend_header {lim lim' : Action} {n slot : Nat} (h : lim.spend n slot = some lim') : lim'.header.1 = lim.header.1 := by
  cases lim with
  | solLimit | stakeLimit | tokenLimit | solDestinationLimit | tokenDestinationLimit => rw [ite_some h]; simp only [Action.header]
  | solRecurringLimit | stakeRecurringLimit | tokenRecurringLimit => rw [ite_some h]; simp only [Action.header]
  | solRecurringDestinationLimit => rw [ite_some h]; simp only [Action.header]
  | tokenRecurringDestinationLimit => rw [ite_some h]; simp only [Action.header]
  | programScope => obtain ⟨_, _, rfl⟩ := spend_scope h; simp only [Action.header]
  | _ => cases h

theorem takes_charge {acts acts' : List Act} {lim lim' : Action} {n slot : Nat} (h : Takes acts acts' lim lim' n slot) :
    chargeFirst lim.header.1 lim.key (chargeFn lim.header.1 n slot) acts = .ok (some acts') ∧
      (payload? acts lim.header.1 lim.key).isSome = true := by
  obtain ⟨h1, h2, pre, post, rfl, rfl, h3⟩ := h
  have hc := (charge_spend (n := n) (slot := slot) h1 lim'.bytes).mpr ⟨lim', h2, rfl⟩
  have := chargeFirst_split (aa := post) (takes_grants h1) h3 (f := chargeFn lim.header.1 n slot) hc
  refine ⟨?_, ?_⟩
  · rw [this]
    simp only [Action.toAct, spend_header h2]
  · rw [payload?_split rfl (takes_grants h1) h3]
    rfl

theorem takesOf_plays {t1 t2 : Nat} {key : Bytes} {acts acts' : List Act} {n slot : Nat} (h : TakesOf t1 t2 key acts acts' n slot) :
    eitherSeg acts t1 t2 key n ≠ [] ∧ Plays slot acts (eitherSeg acts t1 t2 key n) acts' := by
  obtain ⟨lim, lim', h1, rfl, h2⟩ := h
  obtain ⟨h3, h4⟩ := takes_charge h1
  have : eitherSeg acts t1 t2 lim.key n = [⟨lim.header.1, lim.key, n⟩] := by
    unfold eitherSeg
    rcases h2 with e | ⟨e, hno⟩
    · rw [e] at h4
      rw [if_pos h4, e]
    · rw [e] at h4
      rw [payload?_none hno, if_neg (by simp), if_pos h4, e]
  rw [this]
  exact ⟨by simp, .cons _ h3 (.nil _)⟩

theorem noneOf_seg {t1 t2 : Nat} {key : Bytes} {acts : List Act} {n : Nat} (h : NoneOf t1 t2 key acts) : eitherSeg acts t1 t2 key n = [] := by
  unfold eitherSeg
  rw [payload?_none (fun x hx => (h x hx).1), payload?_none (fun x hx => (h x hx).2)]
  rfl

theorem TakesOf.charged {t1 t2 : Nat} {key : Bytes} {acts acts' : List Act} {n slot : Nat} (h : TakesOf t1 t2 key acts acts' n slot)
    (hw : ∀ a ∈ acts, a.WF) : All2 Act.Charged acts acts' := (takesOf_plays h).2.charged hw

end Verif
