import Verif.Proofs.Sub
import Verif.Spec.Calls

namespace Verif

theorem invokeSigned_ok {env : Env} {cpi : Cpi} {m m' : Mem} {outer : List Meta} {ix : CpiIx} {seeds : List Bytes}
    (h : invokeSigned env cpi m outer ix seeds = .ok m') : cpi m ix = .ok m' := by
  unfold invokeSigned at h
  split at h
  · cases h
  · split at h
    · exact h
    · cases h

theorem closeTokenCheck_ok {m : Mem} {program swig wallet k : Key} {v2 b : Bool} (hb : closeTokenCheck m program v2 swig wallet k = .ok b) :
    HeldBy m program k (if b then wallet else swig) := by
  unfold closeTokenCheck at hb
  dsimp only at hb
  by_cases ho : (m k).owner ≠ program
  · rw [if_pos ho] at hb; cases hb
  · rw [if_neg ho] at hb
    by_cases hl : (m k).data.length < 72
    · rw [if_pos hl] at hb; cases hb
    · rw [if_neg hl] at hb
      refine ⟨Decidable.of_not_not ho, by omega, ?_⟩
      by_cases e1 : sl (m k).data 32 64 = (if v2 then wallet else swig)
      · rw [if_pos e1] at hb
        cases hb
        exact e1
      · rw [if_neg e1] at hb
        by_cases e2 : sl (m k).data 32 64 = (if v2 then swig else wallet)
        · rw [if_pos e2] at hb
          cases hb
          rw [e2]
          cases v2 <;> rfl
        · rw [if_neg e2] at hb
          cases hb

/-- Closing token accounts makes one close call per account, in order. -/
theorem closeTokensGo_calls {env : Env} {cpi : Cpi} {outer : List Meta} {program : Key} {v2 : Bool} {swig wallet dst : Key}
    {s1 s2 : List Bytes} (ts : List Meta) : ∀ {m m' : Mem}, closeTokensGo env cpi outer program v2 swig wallet dst s1 s2 m ts = .ok m' →
      ∃ cs, Calls cpi (fun m c => ∃ k auth, c = tokenCloseIx program k dst auth ∧ HeldBy m program k auth ∧ (auth = wallet ∨ auth = swig)) m cs m' ∧
        cs.map (fun c => (c.accounts.map Meta.key).head?) = ts.map (fun t => some t.key) := by
  induction ts with
  | nil =>
    intro m m' h
    cases h
    exact ⟨[], .done m, rfl⟩
  | cons t ts ih =>
    intro m m' h
    unfold closeTokensGo at h
    obtain ⟨b, hb, h⟩ := bind_ok_iff.mp h
    obtain ⟨m1, h1, h⟩ := bind_ok_iff.mp h
    obtain ⟨cs, h2, h3⟩ := ih h
    have h1 := invokeSigned_ok h1
    refine ⟨tokenCloseIx program t.key dst (if b then wallet else swig) :: cs, .call ⟨_, _, rfl, ?_, ?_⟩ h1 h2, by rw [List.map_cons, List.map_cons, h3]; rfl⟩
    · exact closeTokenCheck_ok hb
    · cases b
      · exact .inr rfl
      · exact .inl rfl

/-- Moving assets transfers, of each listed triple of source, destination and program, the whole balance or nothing. -/
theorem transferTokensGo_calls {env : Env} {cpi : Cpi} {outer : List Meta} {swig wallet : Key} {seeds : List Bytes} (n : Nat) :
    ∀ (ts : List Meta), ts.length ≤ n → ∀ {m m' : Mem}, transferTokensGo env cpi outer swig wallet seeds m ts = .ok m' →
      ∃ cs, Calls cpi (fun m c => ∃ program src dst n, c = tokenMoveIx program src dst swig n ∧ IsTokenProgram program ∧
        72 ≤ (m src).data.length ∧ sl (m src).data 32 64 = swig ∧ 72 ≤ (m dst).data.length ∧ sl (m dst).data 32 64 = wallet ∧
        n = rd (m src).data 64 8 ∧ 0 < n) m cs m' := by
  induction n with
  | zero =>
    intro ts hts m m' h
    cases ts with
    | nil =>
      simp only [transferTokensGo] at h
      cases h
      exact ⟨[], .done m⟩
    | cons a ts => simp at hts
  | succ n ih =>
    intro ts hts m m' h
    match ts, hts, h with
    | [], _, h => simp only [transferTokensGo] at h; cases h; exact ⟨[], .done m⟩
    | [a], _, h => simp only [transferTokensGo] at h; cases h; exact ⟨[], .done m⟩
    | [a, b], _, h => simp only [transferTokensGo] at h; cases h; exact ⟨[], .done m⟩
    | src :: dst :: program :: rest, hts, h =>
      simp only [transferTokensGo] at h
      obtain ⟨m1, h1, h⟩ := bind_ok_iff.mp h
      obtain ⟨cs, h2⟩ := ih rest (by simp at hts; omega) h
      unfold transferOne at h1
      split at h1
      · rename_i hpos
        refine ⟨_, .call ⟨program.key, src.key, dst.key, _, rfl, ?_⟩ (invokeSigned_ok h1) h2⟩
        unfold transferAmount at hpos ⊢
        split at hpos
        · omega
        · rename_i hp
          rw [if_neg hp]
          split at hpos
          · omega
          · rename_i hs
            rw [if_neg hs]
            split at hpos
            · omega
            · rename_i hd
              rw [if_neg hd]
              refine ⟨?_, by omega, ?_, by omega, ?_, rfl, hpos⟩
              · by_cases e : program.key = tokenId
                · exact .inl e
                · exact .inr (Decidable.of_not_not fun e2 => hp ⟨e, e2⟩)
              · exact Decidable.of_not_not fun e => hs (.inr e)
              · exact Decidable.of_not_not fun e => hd (.inr e)
      · cases h1
        exact ⟨cs, h2⟩

theorem checkRent_ok {env : Env} {m m' : Mem} {k : Key} (h : checkRent env m k = .ok m') :
    m' = m ∧ env.rent (m k).data.length ≤ (m k).lamports := by
  unfold checkRent at h
  split at h
  · cases h
  · cases h
    exact ⟨rfl, by omega⟩

/-- The creating role found by the search, and its limits. -/
theorem findSubRole_ok {env : Env} {id sub : Key} {n : Nat} : ∀ {i : Nat} {x : Nat × UInt8}, findSubRole env id sub n i = .ok x →
    ∃ b, findPda env (subSeeds id (natLE 4 x.1)) = .ok (sub, b) ∧ x.2 = b ∧ i ≤ x.1 ∧ x.1 < i + n := by
  induction n with
  | zero => intro i x h; cases h
  | succ n ih =>
    intro i x h
    unfold findSubRole at h
    obtain ⟨⟨k, b⟩, h1, h⟩ := bind_ok_iff.mp h
    dsimp only at h
    split at h
    · rename_i e
      cases h
      exact ⟨b, by rw [h1, e], rfl, by omega, by omega⟩
    · obtain ⟨b, h2, h3, h4, h5⟩ := ih h
      exact ⟨b, h2, h3, by omega, by omega⟩

end Verif
