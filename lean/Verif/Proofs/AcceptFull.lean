import Verif.Proofs.AcceptSign
import Verif.Proofs.Scope
import Verif.Spec.AcceptFull

/-! When a signing request is accepted, whatever accounts are passed (property C114). -/

namespace Verif
open Client

/-! ## Balance fields -/

theorem numericWidth_le {t n : Nat} (h : numericWidth t = some n) : 1 ≤ n ∧ n ≤ 16 := by
  unfold numericWidth at h
  dsimp only at h
  repeat' split at h
  all_goals first | (cases h; omega) | cases h

theorem wsub64_iff {e s n : Nat} (h1 : e < 2 ^ 64) (_ : s < 2 ^ 64) (hn : n ≤ 16) : wsub64 e s = n ↔ (s + n) % 2 ^ 64 = e := by
  unfold wsub64
  omega

theorem readScopeBalance_iff {s : ProgramScope} {d : Bytes} {b : Nat} (h1 : s.balanceFieldStart < 2 ^ 64) (h2 : s.balanceFieldEnd < 2 ^ 64) :
    readScopeBalance d s = .ok b ↔ s.noted d = some b := by
  have same : ∀ v : Nat, (Except.ok v : R Nat) = .ok b ↔ some v = some b := fun v =>
    ⟨fun h => congrArg some (Except.ok.inj h), fun h => congrArg Except.ok (Option.some.inj h)⟩
  have no : ∀ e : Err, (Except.error e : R Nat) = .ok b ↔ (none : Option Nat) = some b := fun e =>
    ⟨fun h => (by cases h), fun h => (by cases h)⟩
  unfold readScopeBalance ProgramScope.noted ProgramScope.field
  by_cases h0 : s.scopeType = 0
  · rw [if_pos h0, if_pos h0]
    exact same 0
  · rw [if_neg h0, if_neg h0]
    cases hn : numericWidth s.numericType with
    | none =>
      dsimp only
      split <;> exact no _
    | some n =>
      dsimp only
      have hw := wsub64_iff (s := s.balanceFieldStart) h2 h1 (numericWidth_le hn).2
      by_cases h3 : d.length < s.balanceFieldEnd
      · rw [if_pos h3, if_neg (by omega)]
        exact no _
      · rw [if_neg h3]
        by_cases h4 : wsub64 s.balanceFieldEnd s.balanceFieldStart = n
        · rw [if_neg (by simpa using h4)]
          by_cases h5 : s.balanceFieldStart + n ≤ d.length
          · rw [if_pos h5, if_pos ⟨by omega, h5, hw.mp h4⟩]
            exact same _
          · rw [if_neg h5, if_neg (fun h => h5 h.2.1)]
            exact no _
        · rw [if_pos h4, if_neg (fun h => h4 (hw.mpr h.2.2))]
          exact no _

theorem decode_fields (d : Bytes) : (ProgramScope.decode d).balanceFieldStart < 2 ^ 64 ∧ (ProgramScope.decode d).balanceFieldEnd < 2 ^ 64 :=
  ⟨rd_lt _ _ 8, rd_lt _ _ 8⟩

theorem field_lt {s : ProgramScope} {d : Bytes} {c : Nat} (h : s.field d = some c) : c < 2 ^ 128 := by
  unfold ProgramScope.field at h
  split at h
  · cases h
  · rename_i n hn
    split at h
    · cases h
      have h1 := rd_lt d s.balanceFieldStart n
      have h2 : 256 ^ n ≤ 256 ^ 16 := Nat.pow_le_pow_right (by decide) (numericWidth_le hn).2
      have h3 : (256 : Nat) ^ 16 = 2 ^ 128 := by decide
      omega
    · cases h

theorem trackScope_field {s : ProgramScope} {d : Bytes} {ro b k : Nat} (h : s.balanceFieldStart < s.balanceFieldEnd)
    (h1 : s.balanceFieldEnd < 2 ^ 64) :
    trackScope ro b k (s.readAccountBalance d) = .ok (match s.field d with
      | none => .scope ro b k
      | some c => .scope ro c (if c < b then satAdd128 k (b - c) else k)) := by
  unfold ProgramScope.readAccountBalance ProgramScope.field readNumericField
  rw [if_neg (by omega)]
  cases hn : numericWidth s.numericType with
  | none =>
    dsimp only
    split <;> rfl
  | some n =>
    dsimp only
    by_cases h3 : d.length < s.balanceFieldEnd
    · rw [if_pos h3, if_neg (by omega)]
      rfl
    · rw [if_neg h3]
      have hw := wsub64_iff h1 (by omega : s.balanceFieldStart < 2 ^ 64) (numericWidth_le hn).2
      by_cases h4 : wsub64 s.balanceFieldEnd s.balanceFieldStart = n
      · have h5 := hw.mp h4
        have h6 : s.balanceFieldStart + n ≤ d.length := by
          have := (numericWidth_le hn).2
          omega
        rw [if_neg (by simpa using h4), if_pos h6, if_pos ⟨by omega, h6, h5⟩]
        rfl
      · rw [if_pos h4, if_neg (fun h => h4 (hw.mpr h.2.2))]
        rfl

/-! ## Inspection of the accounts -/

/-- How an account is classified. -/
structure FullClass (m : Mem) (w : Wallet) (swig wallet : Key) (a : Meta) (c : Class) : Prop where
  token : Watched m swig wallet a → c = .token (rd (m a.key).data 64 8) 0
  stake : StakeWatched m swig wallet a → ∃ st, c = .stake st (rd (m a.key).data 156 8) (m a.key).lamports 0
  scope : ∀ s, TargetOf m w a s → ∃ ro b, (ProgramScope.decode s).noted (m a.key).data = some b ∧ c = .scope ro b 0
  other : ¬ Watched m swig wallet a → ¬ StakeWatched m swig wallet a → (∀ s, ¬ TargetOf m w a s) → c.tracked = false ∧ c.isSwig = false

theorem watched_owner {m : Mem} {swig wallet : Key} {a : Meta} (h : Watched m swig wallet a) :
    ((m a.key).owner = tokenId ∨ (m a.key).owner = token2022Id) ∧ 165 ≤ (m a.key).data.length := by
  rcases h with t | t <;> exact ⟨t.program, t.long⟩

theorem stakeWatched_owner {m : Mem} {swig wallet : Key} {a : Meta} (h : StakeWatched m swig wallet a) : (m a.key).owner = stakeId := by
  rcases h with t | t <;> exact t.program

theorem token_not {k : Key} (h : k = tokenId ∨ k = token2022Id) : k ≠ swigId ∧ k ≠ stakeId ∧ k ≠ systemId := by
  rcases h with e | e <;> subst e <;> decide +kernel

theorem stake_not : stakeId ≠ swigId ∧ stakeId ≠ systemId := by decide +kernel

section
variable {m : Mem} {w : Wallet} {f y : Meta} {p : List Meta} {c0 : Class} {q : List Class} {cache : List (Nat × Bytes)} {a : Meta}

theorem classify_full (hf : isConfig m f.key = true) (hn : ∀ k, (findScope cache k).map Prod.snd = w.scopeOn k) :
    (∀ c, classify m (f :: y :: p) (c0 :: .wallet :: q) (some cache) a = .ok c → FullClass m w f.key y.key a c ∧
      (StakeWatched m f.key y.key a → rd (m a.key).data 0 4 ≤ 3)) ∧
    ((StakeWatched m f.key y.key a → rd (m a.key).data 0 4 ≤ 3) →
      (∀ s, TargetOf m w a s → (ProgramScope.decode s).noted (m a.key).data ≠ none) →
      ∃ c, classify m (f :: y :: p) (c0 :: .wallet :: q) (some cache) a = .ok c) := by
  have hown : ∀ k, ownedBy (f :: y :: p) (c0 :: .wallet :: q) k = true ↔ k = f.key ∨ k = y.key := by
    intro k
    unfold ownedBy
    simp only [List.getElem?_cons_zero, List.getElem?_cons_succ, Bool.or_eq_true, beq_iff_eq]
    exact ⟨fun h => h.imp Eq.symm Eq.symm, fun h => h.imp Eq.symm Eq.symm⟩
  unfold classify
  dsimp only
  simp only [List.getElem?_cons_zero, hf, if_true]
  by_cases h1 : (m a.key).owner = swigId
  · have hW : ¬ Watched m f.key y.key a := fun h => (token_not (watched_owner h).1).1 h1
    have hS : ¬ StakeWatched m f.key y.key a := fun h => stake_not.1 ((stakeWatched_owner h).symm.trans h1)
    have hT : ∀ s, ¬ TargetOf m w a s := fun s h => h.1 (.inl h1)
    rw [if_pos h1]
    have : (if isConfig m a.key = false then (.ok .none : R Class) else
        if (f :: y :: p).length = 0 then .ok (.thisSwig (m a.key).lamports) else .ok .none) = .ok .none := by
      split
      · rfl
      · rw [if_neg (by simp)]
    rw [this]
    exact ⟨fun c h => (by cases h; exact ⟨⟨fun h => absurd h hW, fun h => absurd h hS, fun s h => absurd h (hT s), fun _ _ _ => ⟨rfl, rfl⟩⟩,
      fun h => absurd h hS⟩), fun _ _ => ⟨_, rfl⟩⟩
  · rw [if_neg h1, if_neg (by rintro ⟨_, h⟩; simp at h)]
    by_cases h2 : (m a.key).owner = stakeId
    · have hW : ¬ Watched m f.key y.key a := fun h => (token_not (watched_owner h).1).2.1 h2
      have hT : ∀ s, ¬ TargetOf m w a s := fun s h => h.1 (.inr (.inl h2))
      rw [if_pos h2]
      by_cases h3 : (m a.key).data.length < 200
      · have hS : ¬ StakeWatched m f.key y.key a := by rintro (t | t) <;> have := t.long <;> omega
        rw [if_pos (.inr h3)]
        exact ⟨fun c h => (by cases h; exact ⟨⟨fun h => absurd h hW, fun h => absurd h hS, fun s h => absurd h (hT s), fun _ _ _ => ⟨rfl, rfl⟩⟩,
          fun h => absurd h hS⟩), fun _ _ => ⟨_, rfl⟩⟩
      · rw [if_neg (by rintro (h | h); exacts [by simp at h, h3 h])]
        by_cases h4 : ownedBy (f :: y :: p) (c0 :: .wallet :: q) (sl (m a.key).data 44 76) = true
        · have hS : StakeWatched m f.key y.key a := by
            rcases (hown _).mp h4 with e | e
            · exact .inl ⟨h2, by omega, e⟩
            · exact .inr ⟨h2, by omega, e⟩
          rw [if_neg (by rw [h4]; decide)]
          by_cases h5 : rd (m a.key).data 0 4 > 3
          · rw [if_pos h5]
            exact ⟨fun c h => (by cases h), fun h _ => absurd (h hS) (by omega)⟩
          · rw [if_neg h5]
            exact ⟨fun c h => (by cases h; exact ⟨⟨fun h => absurd h hW, fun _ => ⟨_, rfl⟩, fun s h => absurd h (hT s), fun _ h => absurd hS h⟩,
              fun _ => by omega⟩), fun _ _ => ⟨_, rfl⟩⟩
        · have hS : ¬ StakeWatched m f.key y.key a := by
            rintro (t | t)
            · exact h4 ((hown _).mpr (.inl t.withdrawer))
            · exact h4 ((hown _).mpr (.inr t.withdrawer))
          rw [if_pos (by simpa using h4)]
          exact ⟨fun c h => (by cases h; exact ⟨⟨fun h => absurd h hW, fun h => absurd h hS, fun s h => absurd h (hT s), fun _ _ _ => ⟨rfl, rfl⟩⟩,
            fun h => absurd h hS⟩), fun _ _ => ⟨_, rfl⟩⟩
    · have hS : ¬ StakeWatched m f.key y.key a := fun h => h2 (stakeWatched_owner h)
      rw [if_neg h2]
      by_cases h3 : ((m a.key).owner = token2022Id ∨ (m a.key).owner = tokenId) ∧ (f :: y :: p).length > 0 ∧ 165 ≤ (m a.key).data.length
      · have hT : ∀ s, ¬ TargetOf m w a s := fun s h => h.1 (.inr (.inr ⟨h3.1.symm, h3.2.2⟩))
        rw [if_pos h3]
        by_cases h4 : ownedBy (f :: y :: p) (c0 :: .wallet :: q) (sl (m a.key).data 32 64) = true
        · have hW : Watched m f.key y.key a := by
            rcases (hown _).mp h4 with e | e
            · exact .inl ⟨h3.1.symm, h3.2.2, e⟩
            · exact .inr ⟨h3.1.symm, h3.2.2, e⟩
          rw [if_neg (by rw [h4]; decide)]
          exact ⟨fun c h => (by cases h; exact ⟨⟨fun _ => rfl, fun h => absurd h hS, fun s h => absurd h (hT s), fun h => absurd hW h⟩,
            fun h => absurd h hS⟩), fun _ _ => ⟨_, rfl⟩⟩
        · have hW : ¬ Watched m f.key y.key a := by
            rintro (t | t)
            · exact h4 ((hown _).mpr (.inl t.authority))
            · exact h4 ((hown _).mpr (.inr t.authority))
          rw [if_pos (by simpa using h4)]
          exact ⟨fun c h => (by cases h; exact ⟨⟨fun h => absurd h hW, fun h => absurd h hS, fun s h => absurd h (hT s), fun _ _ _ => ⟨rfl, rfl⟩⟩,
            fun h => absurd h hS⟩), fun _ _ => ⟨_, rfl⟩⟩
      · have hW : ¬ Watched m f.key y.key a := fun h => h3 ⟨(watched_owner h).1.symm, by simp, (watched_owner h).2⟩
        have hU : ¬ Unscoped m a.key := by
          rintro (e | e | e)
          exacts [h1 e, h2 e, h3 ⟨e.1.symm, by simp, e.2⟩]
        rw [if_neg h3, if_neg (by simp)]
        have hk := hn a.key
        cases hs : findScope cache a.key with
        | none =>
          rw [hs] at hk
          have hT : ∀ s, ¬ TargetOf m w a s := fun s h => by rw [h.2] at hk; cases hk
          exact ⟨fun c h => (by cases h; exact ⟨⟨fun h => absurd h hW, fun h => absurd h hS, fun s h => absurd h (hT s), fun _ _ _ => ⟨rfl, rfl⟩⟩,
            fun h => absurd h hS⟩), fun _ _ => ⟨_, rfl⟩⟩
        | some e =>
          obtain ⟨ro, s⟩ := e
          rw [hs] at hk
          have hT : TargetOf m w a s := ⟨hU, hk.symm⟩
          have hr := fun b => readScopeBalance_iff (d := (m a.key).data) (b := b) (decode_fields s).1 (decode_fields s).2
          dsimp only
          constructor
          · intro c h
            obtain ⟨b, h4, h5⟩ := bind_ok_iff.mp h
            cases h5
            refine ⟨⟨fun h => absurd h hW, fun h => absurd h hS, fun s' h => ?_, fun _ _ h => absurd hT (h s)⟩, fun h => absurd h hS⟩
            have : s' = s := Option.some.inj (h.2.symm.trans hT.2)
            subst this
            exact ⟨ro, b, (hr b).mp h4, rfl⟩
          · intro _ h
            obtain ⟨b, hb⟩ := Option.ne_none_iff_exists'.mp (h s hT)
            rw [(hr b).mpr hb, ok_bind]
            exact ⟨_, rfl⟩

end

theorem classifyGo_full {m : Mem} {w : Wallet} {f y : Meta} {c0 : Class} {cache : List (Nat × Bytes)} (hf : isConfig m f.key = true)
    (hn : ∀ k, (findScope cache k).map Prod.snd = w.scopeOn k) : ∀ (rest p : List Meta) (q : List Class),
    (∀ out, classifyGo m (some cache) (f :: y :: p) (c0 :: .wallet :: q) rest = .ok out →
      Inspected m w f.key y.key rest ∧ ∃ tl, out = c0 :: .wallet :: (q ++ tl) ∧ All2 (FullClass m w f.key y.key) rest tl) ∧
    (Inspected m w f.key y.key rest → ∃ out, classifyGo m (some cache) (f :: y :: p) (c0 :: .wallet :: q) rest = .ok out) := by
  intro rest
  induction rest with
  | nil =>
    intro p q
    exact ⟨fun out h => by cases h; exact ⟨fun a ha => by simp at ha, [], by simp, .nil⟩, fun _ => ⟨_, rfl⟩⟩
  | cons a rest ih =>
    intro p q
    obtain ⟨k1, k2⟩ := classify_full (y := y) (p := p) (c0 := c0) (q := q) (a := a) hf hn
    simp only [classifyGo]
    constructor
    · intro out h
      obtain ⟨c, h1, h⟩ := bind_ok_iff.mp h
      obtain ⟨e1, e2⟩ := k1 c h1
      obtain ⟨e3, tl, e4, e5⟩ := (ih (p ++ [a]) (q ++ [c])).1 out (by simpa using h)
      refine ⟨fun b hb => ?_, c :: tl, by simpa using e4, .cons e1 e5⟩
      rcases List.mem_cons.mp hb with rfl | hb
      · refine ⟨e2, fun s hs h => ?_⟩
        obtain ⟨ro, b, h1, _⟩ := e1.scope s hs
        rw [h] at h1
        cases h1
      · exact e3 b hb
    · intro h
      obtain ⟨c, hc⟩ := k2 (h a (by simp)).1 (h a (by simp)).2
      rw [hc, ok_bind]
      have := (ih (p ++ [a]) (q ++ [c])).2 fun b hb => h b (by simp [hb])
      simpa using this

theorem scopeOn_cache {w : Wallet} (hw : w.WF) {c : List (Nat × Bytes)} (hc : loadScopes w.encode = some c) (k : Key) :
    (findScope c k).map Prod.snd = w.scopeOn k := by
  rw [findScope_enc hw hc]
  unfold Wallet.scopeOn
  rw [List.map_findSome?]
  congr 1
  funext id
  rw [Function.comp_apply]
  cases w.role? id with
  | none => rfl
  | some r =>
    simp only [Option.bind_some]
    cases payload? r.actions P.programScope k <;> rfl

/-- A request is looked at exactly if the accounts pass the inspection. -/
theorem process_full {env : Env} {cpi : Cpi} {m : Mem} {f x : Meta} {rest : List Meta} {w : Wallet} {ix : Bytes} (hw : w.WF)
    (hd : (m f.key).data = w.encode) (ho : (m f.key).owner = swigId) (hx : (m x.key).owner = systemId)
    (hl : (f :: x :: rest).length ≤ 254) :
    (∀ m', process env cpi m (f :: x :: rest) ix = .ok m' → Inspected m w f.key x.key rest) ∧
    (Inspected m w f.key x.key rest → ∃ tl, All2 (FullClass m w f.key x.key) rest tl ∧
      process env cpi m (f :: x :: rest) ix = dispatch env cpi m (f :: x :: rest) (.thisSwig (m f.key).lamports :: .wallet :: tl) ix) := by
  have hf := isConfig_enc hw hd ho
  obtain ⟨c, hc⟩ : ∃ c, loadScopes w.encode = some c := by
    unfold loadScopes
    rw [splitParts_encode hw]
    exact ⟨_, rfl⟩
  have h0 : classify m [] [] none f = .ok (.thisSwig (m f.key).lamports) := by
    unfold classify
    dsimp only
    rw [if_pos ho, hf]
    simp
  have h1 : classify m [f] [.thisSwig (m f.key).lamports] (some c) x = .ok .wallet := by
    unfold classify
    dsimp only
    rw [if_neg (by rw [hx]; decide +kernel), if_pos ⟨hx, rfl⟩]
    simp [hf]
  have e0 : cacheOf m f.key = some c := by
    unfold cacheOf
    rw [if_pos hf, hd, hc]
  have key := classifyGo_full (y := x) (c0 := .thisSwig (m f.key).lamports) hf (scopeOn_cache hw hc) rest [] []
  have e1 : classifyAll m (f :: x :: rest) =
      classifyGo m (some c) [f, x] [.thisSwig (m f.key).lamports, .wallet] rest := by
    simp only [classifyAll, h0, ok_bind, e0, classifyGo, h1]
    rfl
  unfold process
  rw [require_of hl, ok_bind, e1]
  constructor
  · intro m' h
    obtain ⟨cls, h2, _⟩ := bind_ok_iff.mp h
    exact (key.1 cls h2).1
  · intro h
    obtain ⟨out, h2⟩ := key.2 h
    obtain ⟨_, tl, e, h3⟩ := key.1 out h2
    refine ⟨tl, h3, ?_⟩
    rw [h2, ok_bind, e]
    rfl

/-! ## What the calls did to the accounts -/

/-- The scope of the role for an account. -/
def scopeAt (acts : List Act) (k : Key) : ProgramScope := ProgramScope.decode ((payload? acts P.programScope k).getD [])

/-- One look at an account. -/
def lookF (acts : List Act) (y : Acct) (e : Meta × Class) : Meta × Class :=
  if e.1.writable = false then e
  else match e.2 with
    | .token b s =>
      if y.data.length < 72 then e
      else (e.1, .token (rd y.data 64 8) (if rd y.data 64 8 < b then satAdd64 s (b - rd y.data 64 8) else s))
    | .stake st b l s =>
      if y.data.length < 164 then (e.1, .stake st b y.lamports (satAdd64 s (l - y.lamports)))
      else (e.1, .stake st (rd y.data 156 8) y.lamports
        (satAdd64 s (max (l - y.lamports) ((rd y.data 156 8 - b) + (b - rd y.data 156 8)))))
    | .scope ro b s =>
      match (scopeAt acts e.1.key).field y.data with
      | none => e
      | some c => (e.1, .scope ro c (if c < b then satAdd128 s (b - c) else s))
    | _ => e

/-- The looks at an account after each of the calls. -/
def lookFAll (acts : List Act) : Meta × Class → List Acct → Meta × Class
  | e, [] => e
  | e, a :: l => lookFAll acts (lookF acts a e) l

def Class.isScope : Class → Bool
  | .scope .. => true
  | _ => false

theorem lookF_keep (acts : List Act) (y : Acct) (e : Meta × Class) : (lookF acts y e).1 = e.1 ∧ (lookF acts y e).2.isScope = e.2.isScope := by
  obtain ⟨a, c⟩ := e
  unfold lookF
  by_cases hw : a.writable = false
  · rw [if_pos hw]; exact ⟨rfl, rfl⟩
  · rw [if_neg hw]
    cases c with
    | none => exact ⟨rfl, rfl⟩
    | wallet => exact ⟨rfl, rfl⟩
    | thisSwig _ => exact ⟨rfl, rfl⟩
    | token b s => dsimp only; split <;> exact ⟨rfl, rfl⟩
    | stake st b l s => dsimp only; split <;> exact ⟨rfl, rfl⟩
    | scope ro b s => dsimp only; split <;> exact ⟨rfl, rfl⟩

theorem lookFAll_keep (acts : List Act) : ∀ (l : List Acct) (e : Meta × Class), (lookFAll acts e l).1 = e.1 ∧
    (lookFAll acts e l).2.isScope = e.2.isScope
  | [], _ => ⟨rfl, rfl⟩
  | a :: l, e => ⟨(lookFAll_keep acts l _).1.trans (lookF_keep acts a e).1, (lookFAll_keep acts l _).2.trans (lookF_keep acts a e).2⟩

theorem lookFAll_other (acts : List Act) : ∀ (l : List Acct) {a : Meta} {c : Class}, c.tracked = false → lookFAll acts (a, c) l = (a, c)
  | [], _, _, _ => rfl
  | x :: l, a, c, h => by
    have : lookF acts x (a, c) = (a, c) := by
      unfold lookF
      cases c <;> first | (cases h; done) | (split <;> rfl)
    simp only [lookFAll, this]
    exact lookFAll_other acts l h

theorem lookFAll_ro (acts : List Act) : ∀ (l : List Acct) {a : Meta} {c : Class}, a.writable = false → lookFAll acts (a, c) l = (a, c)
  | [], _, _, _ => rfl
  | x :: l, a, c, h => by
    have : lookF acts x (a, c) = (a, c) := by unfold lookF; rw [if_pos h]
    simp only [lookFAll, this]
    exact lookFAll_ro acts l h

theorem lookFAll_token (acts : List Act) {a : Meta} (hw : a.writable = true) : ∀ (l : List Acct) (b s : Nat), s < 2 ^ 64 →
    ∃ b', lookFAll acts (a, .token b s) l = (a, .token b' (min (2 ^ 64 - 1) (s + takenFrom b l)))
  | [], b, s, hs => by
    refine ⟨b, ?_⟩
    simp only [lookFAll, takenFrom]
    congr 2
    omega
  | x :: l, b, s, hs => by
    have hf : ¬ a.writable = false := by rw [hw]; decide
    simp only [lookFAll]
    by_cases hx : x.data.length < 72
    · have : lookF acts x (a, Class.token b s) = (a, .token b s) := by
        unfold lookF; dsimp only; rw [if_neg hf, if_pos hx]
      rw [this]
      obtain ⟨b', e⟩ := lookFAll_token acts hw l b s hs
      refine ⟨b', e.trans ?_⟩
      simp only [takenFrom, if_pos hx]
    · have : lookF acts x (a, Class.token b s) =
          (a, .token (rd x.data 64 8) (if rd x.data 64 8 < b then satAdd64 s (b - rd x.data 64 8) else s)) := by
        unfold lookF; dsimp only; rw [if_neg hf, if_neg hx]
      rw [this]
      obtain ⟨b', e⟩ := lookFAll_token acts hw l (rd x.data 64 8) (if rd x.data 64 8 < b then satAdd64 s (b - rd x.data 64 8) else s)
        (by unfold satAdd64; split <;> omega)
      refine ⟨b', e.trans ?_⟩
      simp only [takenFrom, if_neg hx]
      congr 2
      unfold satAdd64
      split <;> omega

theorem lookFAll_stake (acts : List Act) {a : Meta} (hw : a.writable = true) {st : Nat} : ∀ (l : List Acct) (b n s : Nat), s < 2 ^ 64 →
    ∃ b' n', lookFAll acts (a, .stake st b n s) l = (a, .stake st b' n' (min (2 ^ 64 - 1) (s + stakeMoved b n l)))
  | [], b, n, s, hs => by
    refine ⟨b, n, ?_⟩
    simp only [lookFAll, stakeMoved]
    congr 2
    omega
  | x :: l, b, n, s, hs => by
    have hf : ¬ a.writable = false := by rw [hw]; decide
    simp only [lookFAll]
    by_cases hx : x.data.length < 164
    · have : lookF acts x (a, Class.stake st b n s) = (a, .stake st b x.lamports (satAdd64 s (n - x.lamports))) := by
        unfold lookF; dsimp only; rw [if_neg hf, if_pos hx]
      rw [this]
      obtain ⟨b', n', e⟩ := lookFAll_stake acts hw l b x.lamports (satAdd64 s (n - x.lamports)) (by unfold satAdd64; omega)
      refine ⟨b', n', e.trans ?_⟩
      simp only [stakeMoved, if_pos hx]
      congr 2
      unfold satAdd64
      omega
    · have : lookF acts x (a, Class.stake st b n s) = (a, .stake st (rd x.data 156 8) x.lamports
          (satAdd64 s (max (n - x.lamports) ((rd x.data 156 8 - b) + (b - rd x.data 156 8))))) := by
        unfold lookF; dsimp only; rw [if_neg hf, if_neg hx]
      rw [this]
      obtain ⟨b', n', e⟩ := lookFAll_stake acts hw l (rd x.data 156 8) x.lamports
        (satAdd64 s (max (n - x.lamports) ((rd x.data 156 8 - b) + (b - rd x.data 156 8)))) (by unfold satAdd64; omega)
      refine ⟨b', n', e.trans ?_⟩
      simp only [stakeMoved, if_neg hx]
      congr 2
      unfold satAdd64
      omega

theorem lookFAll_scope (acts : List Act) {a : Meta} (hw : a.writable = true) {ro : Nat} : ∀ (l : List Acct) (b s : Nat), s < 2 ^ 128 →
    ∃ b', lookFAll acts (a, .scope ro b s) l = (a, .scope ro b' (min (2 ^ 128 - 1) (s + fieldLost (scopeAt acts a.key) b l)))
  | [], b, s, hs => by
    refine ⟨b, ?_⟩
    simp only [lookFAll, fieldLost]
    congr 2
    omega
  | x :: l, b, s, hs => by
    have hf : ¬ a.writable = false := by rw [hw]; decide
    simp only [lookFAll]
    cases hx : (scopeAt acts a.key).field x.data with
    | none =>
      have : lookF acts x (a, Class.scope ro b s) = (a, .scope ro b s) := by
        unfold lookF; dsimp only; rw [if_neg hf, hx]
      rw [this]
      obtain ⟨b', e⟩ := lookFAll_scope acts hw l b s hs
      refine ⟨b', e.trans ?_⟩
      simp only [fieldLost, hx]
    | some c =>
      have : lookF acts x (a, Class.scope ro b s) = (a, .scope ro c (if c < b then satAdd128 s (b - c) else s)) := by
        unfold lookF; dsimp only; rw [if_neg hf, hx]
      rw [this]
      obtain ⟨b', e⟩ := lookFAll_scope acts hw l c (if c < b then satAdd128 s (b - c) else s)
        (by unfold satAdd128; split <;> omega)
      refine ⟨b', e.trans ?_⟩
      simp only [fieldLost, hx]
      congr 2
      unfold satAdd128
      split <;> omega

/-- The targets of scopes have a scope of the acting role, with a balance field. -/
def Sane (acts : List Act) (l : List (Meta × Class)) : Prop :=
  ∀ e ∈ l, e.2.isScope = true → ∃ s, payload? acts P.programScope e.1.key = some s ∧
    (ProgramScope.decode s).balanceFieldStart < (ProgramScope.decode s).balanceFieldEnd

theorem trackAll_full {x : SignCtx} {m : Mem} {acts : List Act} : ∀ {l : List (Meta × Class)},
    (∀ e ∈ l, e.2.isScope = true → x.loc.find m P.programScope e.1.key = .ok (payload? acts P.programScope e.1.key)) → Sane acts l →
    trackAll x m l = .ok (l.map fun e => lookF acts (m e.1.key) e) := by
  intro l
  induction l with
  | nil => intro _ _; rfl
  | cons e l ih =>
    intro hfind h
    obtain ⟨a, c⟩ := e
    have h1 : track x m a c = .ok (lookF acts (m a.key) (a, c)).2 := by
      unfold track lookF
      by_cases hw : a.writable = false
      · rw [if_pos hw, if_pos hw]
      · rw [if_neg hw, if_neg hw]
        cases c with
        | none => rfl
        | wallet => rfl
        | thisSwig _ => rfl
        | token b s => dsimp only; split <;> rfl
        | stake st b l s => dsimp only; split <;> rfl
        | scope ro b s =>
          obtain ⟨d, h2, h3⟩ := h (a, .scope ro b s) (by simp) rfl
          have h4 := hfind (a, .scope ro b s) (by simp) rfl
          dsimp only at h2 h4 ⊢
          unfold trackScoped
          rw [h4, h2, ok_bind]
          dsimp only
          rw [trackScope_field h3 (decode_fields d).2]
          unfold scopeAt
          rw [h2, Option.getD_some]
          cases (ProgramScope.decode d).field (m a.key).data <;> rfl
    simp only [trackAll]
    rw [h1, ok_bind, ih (fun e he => hfind e (by simp [he])) (fun e he => h e (by simp [he])), ok_bind, List.map_cons]
    congr 2
    exact Prod.ext (lookF_keep acts (m a.key) (a, c)).1.symm rfl

theorem runIxs_full {x : SignCtx} {cpi : Cpi} {good : Mem → Prop} {acts : List Act}
    (hg : ∀ i ∈ x.ixs, ∀ m m', good m → execInner x.env cpi m x.metas x.wallet x.seeds i = .ok m' → good m') {may : Inner → Prop}
    (hm : ∀ i ∈ x.ixs, ∀ m, good m → (programOk x m i = .ok true ↔ may i)) {keys : Key → Prop}
    (hfind : ∀ m, good m → ∀ k, keys k → x.loc.find m P.programScope k = .ok (payload? acts P.programScope k)) :
    ∀ {ixs : List Inner} {m : Mem} {l : List (Meta × Class)} {total : Nat}, (∀ i ∈ ixs, i ∈ x.ixs) → good m → total < 2 ^ 64 →
    (∀ e ∈ l, e.2.isScope = true → keys e.1.key) → Sane acts l →
    ∀ z, runIxs x cpi m l total ixs = .ok z ↔ (∀ i ∈ ixs, may i) ∧
      ∃ m1, execAll x.env cpi x.metas x.wallet x.seeds m ixs = .ok m1 ∧
        z = (m1, l.map fun e => lookFAll acts e (statesEach x.env cpi x.metas x.wallet x.seeds e.1.key m ixs),
          min (2 ^ 64 - 1) (total + (lostEach x.env cpi x.metas x.wallet x.seeds x.wallet m ixs).sum)) := by
  intro ixs
  induction ixs with
  | nil =>
    intro m l total _ _ ht _ _ z
    simp only [runIxs, execAll, statesEach, lookFAll, lostEach, List.sum_nil]
    constructor
    · intro h
      cases h
      exact ⟨by simp, m, rfl, by rw [List.map_id']; congr 2; omega⟩
    · rintro ⟨_, m1, h1, h2⟩
      cases h1
      rw [h2, List.map_id']
      congr 3
      omega
  | cons i ixs ih =>
    intro m l total hin hgm ht hk hl z
    have hi := hin i (by simp)
    have next : ∀ m2 : Mem, (∀ e ∈ l.map (fun e => lookF acts (m2 e.1.key) e), e.2.isScope = true → keys e.1.key) ∧
        Sane acts (l.map fun e => lookF acts (m2 e.1.key) e) := by
      intro m2
      constructor
      · intro e he h
        obtain ⟨e0, h0, rfl⟩ := List.mem_map.mp he
        rw [(lookF_keep ..).2] at h
        rw [(lookF_keep ..).1]
        exact hk e0 h0 h
      · intro e he h
        obtain ⟨e0, h0, rfl⟩ := List.mem_map.mp he
        rw [(lookF_keep ..).2] at h
        rw [(lookF_keep ..).1]
        exact hl e0 h0 h
    have track2 : ∀ m2, good m2 → trackAll x m2 l = .ok (l.map fun e => lookF acts (m2 e.1.key) e) := fun m2 h =>
      trackAll_full (fun e he hs => hfind m2 h _ (hk e he hs)) hl
    simp only [runIxs]
    constructor
    · intro h
      obtain ⟨b, h1, g1⟩ := bind_ok_iff.mp h
      obtain ⟨_, h2, g2⟩ := bind_ok_iff.mp g1
      obtain ⟨m2, h3, g3⟩ := bind_ok_iff.mp g2
      obtain ⟨l2, h4, g4⟩ := bind_ok_iff.mp g3
      have hb := require_ok_iff.mp h2
      subst hb
      have hg2 := hg i hi m m2 hgm h3
      rw [track2 m2 hg2] at h4
      cases h4
      obtain ⟨k1, m1, k2, rfl⟩ := (ih (fun j hj => hin j (by simp [hj])) hg2 (by unfold satAdd64; omega) (next m2).1 (next m2).2 z).mp g4
      refine ⟨?_, m1, by simp only [execAll, h3, ok_bind]; exact k2, ?_⟩
      · intro j hj
        rcases List.mem_cons.mp hj with rfl | hj
        · exact (hm _ hi m hgm).mp h1
        · exact k1 j hj
      · simp only [lostEach, statesEach, h3, List.sum_cons, List.map_map]
        congr 2
        · apply List.map_congr_left
          intro e he
          show lookFAll acts (lookF acts (m2 e.1.key) e) (statesEach x.env cpi x.metas x.wallet x.seeds (lookF acts (m2 e.1.key) e).1.key m2 ixs) = _
          rw [(lookF_keep ..).1]
          rfl
        · unfold satAdd64; omega
    · rintro ⟨h1, m1, h2, rfl⟩
      simp only [execAll] at h2
      obtain ⟨m2, h3, h4⟩ := bind_ok_iff.mp h2
      have hg2 := hg i hi m m2 hgm h3
      rw [(hm _ hi m hgm).mpr (h1 i (by simp)), ok_bind, require_of rfl, ok_bind, h3, ok_bind, track2 m2 hg2, ok_bind]
      refine (ih (fun j hj => hin j (by simp [hj])) hg2 (by unfold satAdd64; omega) (next m2).1 (next m2).2 _).mpr
        ⟨fun j hj => h1 j (by simp [hj]), m1, h4, ?_⟩
      simp only [lostEach, statesEach, h3, List.sum_cons, List.map_map]
      congr 2
      · apply List.map_congr_left
        intro e he
        show _ = lookFAll acts (lookF acts (m2 e.1.key) e) (statesEach x.env cpi x.metas x.wallet x.seeds (lookF acts (m2 e.1.key) e).1.key m2 ixs)
        rw [(lookF_keep ..).1]
        rfl
      · unfold satAdd64; omega

end Verif
