import Verif.Proofs.LiveSettle
import Verif.Proofs.LiveSign

/-! When a restricted role can sign: one instruction, no stake accounts and no program scopes among the accounts. -/

namespace Verif

/-- The class of an account that is a token account of the wallet, or not looked at. -/
def Class.simple : Class → Bool
  | .none | .wallet | .token _ _ => true
  | _ => false

/-- What tracking makes of a token account (others stay as they are). -/
def tokAfter (m : Mem) (e : Meta × Class) : Meta × Class :=
  match e.2 with
  | .token b s =>
    if e.1.writable = false ∨ (m e.1.key).data.length < 72 then e
    else (e.1, .token (rd (m e.1.key).data 64 8) (if rd (m e.1.key).data 64 8 < b then satAdd64 s (b - rd (m e.1.key).data 64 8) else s))
  | _ => e

theorem trackAll_simple {x : SignCtx} {m : Mem} : ∀ {l : List (Meta × Class)}, (∀ e ∈ l, e.2.simple = true ∨ e.2.isSwig = true) →
    trackAll x m l = .ok (l.map (tokAfter m)) := by
  intro l
  induction l with
  | nil => intro _; rfl
  | cons e l ih =>
    intro h
    obtain ⟨a, c⟩ := e
    have h0 := h (a, c) (by simp)
    have h1 : track x m a c = .ok (tokAfter m (a, c)).2 := by
      unfold track tokAfter
      by_cases hw : a.writable = false
      · rw [if_pos hw]
        cases c <;> simp [hw]
      · rw [if_neg hw]
        cases c with
        | none => rfl
        | wallet => rfl
        | thisSwig _ => rfl
        | token b s =>
          dsimp only
          by_cases hl : (m a.key).data.length < 72
          · rw [if_pos hl, if_pos (.inr hl)]
          · rw [if_neg hl]
            have hn : ¬ (a.writable = false ∨ (m a.key).data.length < 72) := fun h => h.elim hw hl
            rw [if_neg hn]
        | stake => rcases h0 with h | h <;> cases h
        | scope => rcases h0 with h | h <;> cases h
    have h2 : (tokAfter m (a, c)).1 = a := by
      unfold tokAfter
      cases c <;> dsimp only
      split <;> rfl
    simp only [trackAll]
    rw [h1, ok_bind, ih (fun e he => h e (by simp [he])), ok_bind, List.map_cons]
    congr 2
    exact Prod.ext h2.symm rfl

/-- The snapshot of an account. -/
def snapPure (env : Env) (m : Mem) (e : Meta × Class) : Option Bytes :=
  if e.1.writable = false then none
  else match e.2 with
    | .thisSwig _ => some (env.sha256 ((m e.1.key).owner ++ exceptBytes (m e.1.key).data 0 []))
    | .token _ _ => some (env.sha256 ((m e.1.key).owner ++ exceptBytes (m e.1.key).data 0 [(64, 72)]))
    | _ => none

theorem hashExcept_nil (env : Env) (a : Acct) : hashExcept env a [] = .ok (env.sha256 (a.owner ++ exceptBytes a.data 0 [])) := rfl

theorem hashExcept_token (env : Env) {a : Acct} (h : 72 ≤ a.data.length) :
    hashExcept env a [(64, 72)] = .ok (env.sha256 (a.owner ++ exceptBytes a.data 0 [(64, 72)])) := by
  unfold hashExcept
  simp only [exceptGo, segment]
  rw [if_pos (by omega), slice_ok (by omega) (by omega)]
  rfl

theorem snapAll_simple {x : SignCtx} {m : Mem} : ∀ {l : List (Meta × Class)} {i : Nat}, i + l.length ≤ 100 →
    (∀ e ∈ l, (e.2.simple = true ∨ e.2.isSwig = true) ∧ (e.2.tracked = true → 72 ≤ (m e.1.key).data.length)) →
    snapAll x m i l = .ok (l.map (snapPure x.env m)) := by
  intro l
  induction l with
  | nil => intro i _ _; rfl
  | cons e l ih =>
    intro i hi h
    obtain ⟨a, c⟩ := e
    obtain ⟨h0, h1⟩ := h (a, c) (by simp)
    simp only [List.length_cons] at hi
    have h2 : snap x m i a c = .ok (snapPure x.env m (a, c)) := by
      unfold snap snapPure
      by_cases hw : a.writable = false
      · rw [if_pos hw, if_pos hw]
      · rw [if_neg hw, if_neg hw]
        cases c with
        | none => rfl
        | wallet => rfl
        | thisSwig _ =>
          simp only [snapRanges, ok_bind, snapHash, hashExcept_nil]
          rw [if_neg (by omega)]
        | token b s =>
          simp only [snapRanges, ok_bind, snapHash]
          rw [hashExcept_token x.env (h1 rfl), ok_bind, if_neg (by omega)]
        | stake => rcases h0 with h | h <;> cases h
        | scope => rcases h0 with h | h <;> cases h
    simp only [snapAll]
    rw [h2, ok_bind, ih (by omega) (fun e he => h e (by simp [he])), ok_bind]
    rfl

/-- The check of a writable account that has not changed outside the ranges. -/
theorem recheck_nil {x : SignCtx} {m m1 : Mem} {a : Meta} {l : Nat} (ho : (m1 a.key).owner = (m a.key).owner)
    (hd : (m1 a.key).data = (m a.key).data) : recheck x m1 a (snapPure x.env m (a, .thisSwig l)) [] = .ok () := by
  unfold recheck snapPure
  by_cases hw : a.writable = false
  · rw [if_pos hw]
  · rw [if_neg hw, if_neg hw, hashExcept_nil, ok_bind, ho, hd]
    simp only [orErr, ok_bind]
    exact require_of trivial

theorem recheck_token {x : SignCtx} {m m1 : Mem} {a : Meta} {b s : Nat} (ho : (m1 a.key).owner = (m a.key).owner)
    (hd : exceptBytes (m1 a.key).data 0 [(64, 72)] = exceptBytes (m a.key).data 0 [(64, 72)]) (hl : 72 ≤ (m1 a.key).data.length) :
    recheck x m1 a (snapPure x.env m (a, .token b s)) [(64, 72)] = .ok () := by
  unfold recheck snapPure
  by_cases hw : a.writable = false
  · rw [if_pos hw]
  · rw [if_neg hw, if_neg hw, hashExcept_token x.env hl, ok_bind, ho, hd]
    simp only [orErr, ok_bind]
    exact require_of trivial

/-- A token account of the wallet as it must be after the call. -/
structure TokenKept (wallet : Key) (a b : Acct) : Prop where
  owner : b.owner = a.owner
  rest : exceptBytes b.data 0 [(64, 72)] = exceptBytes a.data 0 [(64, 72)]
  long : 165 ≤ b.data.length
  alive : b.lamports ≠ 0
  authority : sl b.data 32 64 = wallet
  initialized : b.data.getD 108 0 = 1

/-- One instruction of a restricted role. -/
theorem signLimited_one {x : SignCtx} {cpi : Cpi} {m m1 : Mem} {swigM : Meta} {l : Nat} {metas : List Meta} {cls : List Class} {i : Inner}
    {w : Wallet} {id : Nat} {r : Role} {before after : List Role} {as' : List Act} (hp : Placed x.loc w id r before after) (hk : Keys32 x)
    (hmetas : x.metas = swigM :: metas) (hloc : x.loc.swig = swigM.key) (hixs : x.ixs = [i]) (hlen : x.metas.length ≤ 100)
    (hok : programOk x m i = .ok true) (hexec : execInner x.env cpi m x.metas x.wallet x.seeds i = .ok m1)
    (hdata : (m swigM.key).data = w.encode) (hcfg : (m1 swigM.key).data = (m swigM.key).data ∧ (m1 swigM.key).owner = (m swigM.key).owner)
    (hrent : (m1 x.wallet).lamports ≥ x.env.rent (m1 x.wallet).data.length)
    (hcls : ∀ e ∈ metas.zip cls, e.2.simple = true ∧ (e.2.tracked = true → (∃ b, e.2 = .token b 0) ∧ e.1.key ≠ swigM.key ∧ e.1.key.length = 32 ∧
      72 ≤ (m e.1.key).data.length ∧ TokenKept x.wallet (m e.1.key) (m1 e.1.key)))
    (hsol : (m x.wallet).lamports - (m1 x.wallet).lamports ≠ 0 →
      SolOk x r.actions ((m x.wallet).lamports - (m1 x.wallet).lamports))
    (hmax : (m x.wallet).lamports < 2 ^ 64)
    (htok : ∀ e ∈ (metas.zip cls).map (tokAfter m1), ∀ b s, e.2 = .token b s → s ≠ 0 → TokenOk x r.actions e.1.key (sl (m1 e.1.key).data 0 32) s)
    (hplay : Plays x.env.slot r.actions ((if (m x.wallet).lamports - (m1 x.wallet).lamports = 0 then [] else
        solSeg x r.actions ((m x.wallet).lamports - (m1 x.wallet).lamports)) ++
      ((metas.zip cls).map (tokAfter m1)).flatMap fun e => segOf x m1 r.actions e.1 e.2) as') :
    signLimited x cpi m (.thisSwig l :: cls) = .ok (m1.setData swigM.key (w.setActions id as').encode) := by
  have hc : All2 Act.Charged r.actions r.actions := All2.refl' Act.Charged.refl _
  have hlens : (metas.zip cls).length ≤ metas.length := by rw [List.length_zip]; omega
  have hlm : x.metas.length = metas.length + 1 := by rw [hmetas]; rfl
  obtain ⟨as1, p1, p2⟩ := hplay.split
  have hd1 : (m1 x.loc.swig).data = w.encode := by rw [hloc, hcfg.1, hdata]
  have htrack : trackAll x m1 ((swigM, Class.thisSwig l) :: metas.zip cls) =
      .ok ((swigM, .thisSwig l) :: (metas.zip cls).map (tokAfter m1)) := by
    refine (trackAll_simple ?_).trans rfl
    intro e he
    rcases List.mem_cons.mp he with rfl | he
    · exact .inr rfl
    · exact .inl (hcls e he).1
  unfold signLimited
  rw [hmetas, List.zip_cons_cons, snapAll_simple (by simp only [List.length_cons]; omega) (by
    intro e he
    rcases List.mem_cons.mp he with rfl | he
    · exact ⟨.inr rfl, fun h => by cases h⟩
    · exact ⟨.inl (hcls e he).1, fun h => ((hcls e he).2 h).2.2.2.1⟩), ok_bind, hixs]
  simp only [runIxs]
  rw [hok, ok_bind, require_of rfl, ok_bind, hexec, ok_bind, htrack, ok_bind, ok_bind]
  dsimp only
  have hsat : satAdd64 0 ((m x.wallet).lamports - (m1 x.wallet).lamports) = (m x.wallet).lamports - (m1 x.wallet).lamports := by
    unfold satAdd64; omega
  rw [hsat, List.map_cons]
  have hfirst : settleOne x m1 swigM (.thisSwig l) (snapPure x.env m (swigM, .thisSwig l)) ((m x.wallet).lamports - (m1 x.wallet).lamports) =
      .ok (cfgMem x.loc w id m1 as1) := by
    simp only [settleOne, settleSwig]
    rw [recheck_nil hcfg.2 hcfg.1, ok_bind, require_of hrent, ok_bind]
    by_cases hz : (m x.wallet).lamports - (m1 x.wallet).lamports = 0
    · rw [if_pos hz] at p1 ⊢
      cases p1
      rw [← hp.start hd1]
    · rw [if_neg hz] at p1 ⊢
      have := hp.settleSol_of hk hc (m := m1) (by omega) (hsol hz) p1
      rwa [← hp.start hd1] at this
  simp only [settleAll]
  rw [hfirst, ok_bind]
  have hc1 := p1.charged hp.roleWf.acts
  have key1 : ∀ e, (tokAfter m1 e).1 = e.1 := by
    intro e
    unfold tokAfter
    split
    · split <;> rfl
    · rfl
  have := hp.settleAll_of hk (m := m1) (total := (m x.wallet).lamports - (m1 x.wallet).lamports)
    (l := (metas.zip cls).map (tokAfter m1)) (hs := (metas.zip cls).map (snapPure x.env m)) hc1 ?_ ?_ ?_ (as' := as')
  · rw [this]
    unfold cfgMem
    rw [hloc]
  · intro e he
    obtain ⟨e0, h0, rfl⟩ := List.mem_map.mp he
    obtain ⟨k1, k2⟩ := hcls e0 h0
    obtain ⟨a, c⟩ := e0
    cases c with
    | none => exact ⟨rfl, (fun h => Bool.noConfusion h), (fun b s h => Class.noConfusion h)⟩
    | wallet => exact ⟨rfl, (fun h => Bool.noConfusion h), (fun b s h => Class.noConfusion h)⟩
    | thisSwig _ => cases k1
    | stake => cases k1
    | scope => cases k1
    | token b s =>
      obtain ⟨⟨b', hb'⟩, j1, j2, j3, j4⟩ := k2 rfl
      cases hb'
      refine ⟨?_, fun _ => ?_, ?_⟩
      · simp only [tokAfter]; split <;> rfl
      · rw [key1, hloc]; exact ⟨j1, j2⟩
      · intro b2 s2 h2
        simp only [tokAfter] at h2
        split at h2
        · cases h2; decide
        · cases h2
          unfold satAdd64
          split <;> omega
  · simp only [segOf_congr hc1]
    exact p2
  · have : ∀ (L : List (Meta × Class)), (∀ e ∈ L, e ∈ metas.zip cls) →
        All2 (fun (e : Meta × Class) hh => OkOf x m1 as1 e.1 hh e.2) (L.map (tokAfter m1)) (L.map (snapPure x.env m)) := by
      intro L
      induction L with
      | nil => intro _; exact .nil
      | cons e L ih =>
        intro hL
        refine .cons ?_ (ih fun e he => hL e (by simp [he]))
        have he := hL e (by simp)
        obtain ⟨k1, k2⟩ := hcls e he
        refine OkOf.later hc1 ?_
        have ht := htok (tokAfter m1 e) (List.mem_map.mpr ⟨e, he, rfl⟩)
        rw [key1] at ht ⊢
        obtain ⟨a, c⟩ := e
        cases c with
        | none => trivial
        | wallet => trivial
        | thisSwig _ => cases k1
        | stake => cases k1
        | scope => cases k1
        | token b s =>
          obtain ⟨_, j1, j2, j3, j4⟩ := k2 rfl
          have hg : ¬ Gone (m1 a.key) := by
            rintro (h | h)
            · have := j4.long; rw [h] at this; simp at this
            · exact j4.alive h
          have hre := recheck_token (x := x) (m := m) (m1 := m1) (a := a) (b := b) (s := s) j4.owner j4.rest (Nat.le_trans (by decide) j4.long)
          have : ∃ b2 s2, (tokAfter m1 (a, Class.token b s)).2 = .token b2 s2 := by
            simp only [tokAfter]; split <;> exact ⟨_, _, rfl⟩
          obtain ⟨b2, s2, e2⟩ := this
          rw [e2] at ht ⊢
          exact .inr ⟨hg, j4.long, hre, j4.authority, j4.initialized, fun hz => ht b2 s2 rfl hz⟩
    exact this _ (fun e he => he)

end Verif
