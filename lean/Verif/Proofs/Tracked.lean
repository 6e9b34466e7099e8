import Verif.Proofs.SignOut

/-! Single tracked accounts of a settled signing. -/

namespace Verif

theorem All2.get {α β : Type} {R : α → β → Prop} {as : List α} {bs : List β} (h : All2 R as bs) :
    ∀ {i : Nat} {a : α}, as[i]? = some a → ∃ b, bs[i]? = some b ∧ R a b := by
  induction h with
  | nil => intro i a h; simp at h
  | cons h1 _ ih =>
    intro i a hi
    cases i with
    | zero => simp only [List.getElem?_cons_zero, Option.some.injEq] at hi; subst hi; exact ⟨_, rfl, h1⟩
    | succ i => simp only [List.getElem?_cons_succ] at hi ⊢; exact ih hi

theorem All2.ofGet {α β : Type} {R : α → β → Prop} : ∀ {as : List α} {bs : List β}, as.length = bs.length →
    (∀ (i : Nat) (a : α) (b : β), as[i]? = some a → bs[i]? = some b → R a b) → All2 R as bs := by
  intro as
  induction as with
  | nil => intro bs h _; cases bs with
    | nil => exact .nil
    | cons => simp at h
  | cons a as ih =>
    intro bs h hr
    cases bs with
    | nil => simp at h
    | cons b bs =>
      exact .cons (hr 0 a b rfl rfl) (ih (by simpa using h) fun i x y hx hy => hr (i + 1) x y (by simpa using hx) (by simpa using hy))

section
variable {env : Env} {cpi : Cpi} {m m' : Mem} {swig wallet : Meta} {rest : List Meta} {ix : Bytes} {w : Wallet} {r : Role}
  {ixs : List Inner} {m1 : Mem} {x : SignCtx} {cls : List Class} {hs : List (Option Bytes)} {total : Nat} {acc : List (Meta × Class)}
  {as' : List Act}

theorem Out.clsLen (o : Out env cpi m m' swig wallet rest ix w r ixs m1 x cls hs total acc as') : cls.length = rest.length := by
  obtain ⟨c, h⟩ := o.classified
  obtain ⟨c', cs, e, _, h2, _⟩ := classifyAll_ok h
  cases e
  simpa using h2

theorem Out.accLen (o : Out env cpi m m' swig wallet rest ix w r ixs m1 x cls hs total acc as') : acc.length = rest.length + 1 := by
  have := o.mono.length
  have := o.clsLen
  simp at *
  omega

/-- Everything about the account with index `i` after the first two. -/
theorem Out.account (o : Out env cpi m m' swig wallet rest ix w r ixs m1 x cls hs total acc as') {i : Nat} {a : Meta} {c : Class}
    (hi : rest[i]? = some a) (hc : cls[i]? = some c) :
    ∃ c' h, acc[i + 1]? = some (a, c') ∧ hs[i + 1]? = some h ∧ Mono c c' ∧ OkOf x m1 r.actions a h c' ∧
      (∃ j, snap x (m.setData swig.key (w.used (rd ix 4 4)).encode) j a c = .ok h) ∧
      ((c' = c ∧ m1 = m.setData swig.key (w.used (rd ix 4 4)).encode) ∨ (a.writable = true → Cur x m1 a c')) := by
  have hz : ((wallet :: rest).zip (Class.wallet :: cls))[i + 1]? = some (a, c) := by
    rw [List.getElem?_zip_eq_some]
    exact ⟨by simpa using hi, by simpa using hc⟩
  obtain ⟨⟨a', c'⟩, h1, h2, h3⟩ := o.mono.get hz
  simp only at h2 h3
  subst h2
  obtain ⟨h, h4, j, h5⟩ := o.snaps.get hz
  obtain ⟨h', h6, h7⟩ := o.ok.get h1
  rw [h4] at h6
  cases h6
  refine ⟨c', h, h1, h4, h3, h7, ⟨j, h5⟩, ?_⟩
  rcases o.cur with ⟨e1, e2⟩ | e
  · left
    rw [e1, hz] at h1
    cases h1
    exact ⟨rfl, e2⟩
  · exact .inr (e _ (List.mem_of_getElem? h1))

/-- The classification of the account with index `i` after the first two. -/
theorem Out.classify (o : Out env cpi m m' swig wallet rest ix w r ixs m1 x cls hs total acc as') {i : Nat} {a : Meta}
    (hi : rest[i]? = some a) : ∃ c0 c, cls[i]? = some c ∧
      Verif.classify m (swig :: wallet :: rest.take i) (c0 :: .wallet :: cls.take i) (cacheOf m swig.key) a = .ok c := by
  obtain ⟨c0, h⟩ := o.classified
  obtain ⟨c', cs, e, _, h2, h3⟩ := classifyAll_ok h
  cases e
  obtain ⟨c, h4, h5⟩ := h3 (i + 1) a (by simpa using hi)
  exact ⟨c0, c, by simpa using h4, by simpa using h5⟩

/-- A token account of the wallet. -/
theorem Out.token (o : Out env cpi m m' swig wallet rest ix w r ixs m1 x cls hs total acc as') {i : Nat} {a : Meta}
    (hi : rest[i]? = some a) (ht : WalletToken m wallet.key a) :
    a.key ≠ swig.key ∧ ∃ b s h, acc[i + 1]? = some (a, .token b s) ∧ rd (m a.key).data 64 8 ≤ b + s ∧
      OkOf x m1 r.actions a h (.token b s) ∧ hashExcept env (m a.key) [(64, 72)] = .ok (h.getD []) ∧ h.isSome = true ∧
      (72 ≤ (m1 a.key).data.length → b = rd (m1 a.key).data 64 8) := by
  obtain ⟨t1, t2, t3, t4⟩ := ht
  have hne : a.key ≠ swig.key := by
    intro e
    have := o.owner
    rw [← e] at this
    rw [this] at t2
    rcases t2 with t2 | t2 <;> exact absurd t2 (by decide)
  have hsame : (m.setData swig.key (w.used (rd ix 4 4)).encode) a.key = m a.key := Mem.setData_other _ _ hne
  obtain ⟨c0, c, h1, h2⟩ := o.classify hi
  have h3 := classify_token h2 t2 t3 t4
  subst h3
  obtain ⟨c', h, e1, e2, e3, e4, ⟨j, e5⟩, e6⟩ := o.account hi h1
  obtain ⟨f1, f2⟩ := snap_ok t1 (rs := [(64, 72)]) rfl e5
  rw [hsame, o.env_eq] at f1
  have hb := rd8_lt (m a.key).data 64
  refine ⟨hne, ?_⟩
  have : ∃ b s, c' = .token b s ∧ rd (m a.key).data 64 8 ≤ b + s := by
    cases e3 with
    | same => exact ⟨_, _, rfl, by omega⟩
    | token h => exact ⟨_, _, rfl, h hb⟩
  obtain ⟨b, s, rfl, hle⟩ := this
  refine ⟨b, s, h, e1, hle, e4, f1, f2, ?_⟩
  rcases e6 with ⟨g1, g2⟩ | g
  · intro _
    cases g1
    rw [g2, hsame]
  · exact g t1

/-- ... unless closed, it changed at most its amount, or there is a collision. -/
theorem Out.tokenSame (o : Out env cpi m m' swig wallet rest ix w r ixs m1 x cls hs total acc as') (hm : m.Typed) (hm1 : m1.Typed) {i : Nat}
    {a : Meta} (hi : rest[i]? = some a) (ht : WalletToken m wallet.key a) :
    ((m1 a.key).Closed ∧ (r.limit? P.closeSwigAuthority []).isSome = true) ∨ TokenClash env m m1 wallet.key rest ∨
    (¬ (m1 a.key).Closed ∧ (m1 a.key).owner = (m a.key).owner ∧ (m1 a.key).data.take 64 = (m a.key).data.take 64 ∧
      (m1 a.key).data.drop 72 = (m a.key).data.drop 72 ∧ 165 ≤ (m1 a.key).data.length) := by
  obtain ⟨hne, b, s, h, e1, e2, e3, e4, e5, e6⟩ := o.token hi ht
  rcases e3 with ⟨g1, g2, _⟩ | ⟨g1, g2, g3, _⟩
  · exact .inl ⟨g1, g2⟩
  · right
    have h3 := recheck_same (x := x) (m := m) (m1 := m1) ht.1 (by rw [o.env_eq]; exact e4) e5 g3
    rw [o.env_eq] at h3
    by_cases he : (m a.key).owner ++ exceptBytes (m a.key).data 0 [(64, 72)] = (m1 a.key).owner ++ exceptBytes (m1 a.key).data 0 [(64, 72)]
    · right
      obtain ⟨k1, k2⟩ := List.append_inj he (by rw [(hm a.key).1, (hm1 a.key).1])
      simp only [exceptBytes] at k2
      have t3 := ht.2.2.1
      have hl : (sl (m a.key).data 0 64).length = (sl (m1 a.key).data 0 64).length := by rw [sl_length, sl_length]; omega
      obtain ⟨k3, k4⟩ := List.append_inj k2 hl
      rw [sl_zero_take, sl_zero_take] at k3
      exact ⟨g1, k1.symm, k3.symm, k4.symm, g2⟩
    · exact .inl ⟨a, List.mem_of_getElem? hi, ht, he, h3⟩

theorem amounts_flatMap {α : Type} (l : List α) (f : α → List Chg) (ty : Nat) (key : Bytes) :
    (amounts (l.flatMap f) ty key).sum = (l.map fun e => (amounts (f e) ty key).sum).sum := by
  induction l with
  | nil => rfl
  | cons a l ih => simp only [List.flatMap_cons, amounts_append, List.sum_append, List.map_cons, List.sum_cons, ih]

/-- Sums over the accounts that satisfy `p` are bounded by the charges, if each is. -/
theorem filter_sum_le {α β : Type} {p : α → Bool} {f : α → Nat} {g : β → Nat} {as : List α} {bs : List β}
    (h : All2 (fun a b => p a = true → f a ≤ g b) as bs) : ((as.filter p).map f).sum ≤ (bs.map g).sum := by
  induction h with
  | nil => simp
  | cons h1 _ ih =>
    rename_i a b as bs _
    simp only [List.filter_cons, List.map_cons, List.sum_cons]
    by_cases hp : p a = true
    · rw [if_pos hp]
      have := h1 hp
      simp only [List.map_cons, List.sum_cons]
      omega
    · rw [if_neg hp]; omega

/-- The lost tokens are covered by the charges to a general limit of the mint. -/
theorem Out.tokensCharged (o : Out env cpi m m' swig wallet rest ix w r ixs m1 x cls hs total acc as') (hm : m.Typed) (hm1 : m1.Typed)
    {mint : Bytes} {ty : Nat} (hty : ∀ n, ⟨ty, mint, n⟩ ∈ eitherSeg r.actions P.tokenLimit P.tokenRecurringLimit mint n) :
    TokenClash env m m1 wallet.key rest ∨
    tokensLost m m' wallet.key mint rest ≤ (amounts ((if total = 0 then [] else solSeg x r.actions total) ++
      acc.flatMap fun e => segOf x m1 r.actions e.1 e.2) ty mint).sum := by
  by_cases hcl : TokenClash env m m1 wallet.key rest
  · exact .inl hcl
  · right
    rw [amounts_append, List.sum_append, amounts_flatMap]
    have hlen := o.accLen
    cases hacc : acc with
    | nil => rw [hacc] at hlen; simp at hlen
    | cons e0 acc' =>
      refine Nat.le_trans ?_ (Nat.le_add_left _ _)
      rw [List.map_cons, List.sum_cons]
      refine Nat.le_trans ?_ (Nat.le_add_left _ _)
      unfold tokensLost
      refine filter_sum_le (All2.ofGet (by rw [hacc] at hlen; simpa using hlen.symm) ?_)
      intro i a e hi he hp
      obtain ⟨p1, p2, p3⟩ := of_decide_eq_true hp
      obtain ⟨hne, b, s, h, e1, e2, e3, e4, e5, e6⟩ := o.token hi p1
      rw [hacc] at e1
      simp only [List.getElem?_cons_succ] at e1
      rw [he] at e1
      cases e1
      have hmm : m' a.key = m1 a.key := o.other _ hne
      rw [hmm] at p3 ⊢
      rcases o.tokenSame hm hm1 hi p1 with ⟨g, _⟩ | g | ⟨g1, g2, g3, g4, g5⟩
      · exact absurd g p3
      · exact absurd g hcl
      · have hb := e6 (by omega)
        have hmint : sl (m1 a.key).data 0 32 = mint := by
          rw [← p2, mintOf, sl_zero_take, sl_zero_take]
          have := congrArg (List.take 32) g3
          simpa [List.take_take] using this
        unfold tokensOf
        by_cases hs : s = 0
        · omega
        · simp only [segOf]
          rw [if_neg (by intro h; rcases h with h | h; exacts [g1 h, hs h]), hmint]
          have := le_sum_of_mem (amounts_mem (c := ⟨ty, mint, s⟩) (ty := ty) (key := mint)
            (cs := tokenSeg x r.actions a.key mint s) (List.mem_append_left _ (hty s)) rfl (fun _ => rfl))
          simp only at this
          omega

/-! ## Destination limits -/

theorem All2.diag {α : Type} {R : α → α → Prop} : ∀ {l : List α}, (∀ a ∈ l, R a a) → All2 R l l := by
  intro l
  induction l with
  | nil => intro _; exact .nil
  | cons a l ih => intro h; exact .cons (h a (by simp)) (ih fun b hb => h b (by simp [hb]))

/-- Transfers to one destination are charged to its limit. -/
theorem dest_amounts {as : List Act} {d1 d2 ty : Nat} {kf : Key → Bytes} {d : Key} (ts : List (Key × Nat))
    (hty : ∀ n, ⟨ty, kf d, n⟩ ∈ eitherSeg as d1 d2 (kf d) n) :
    ((ts.filter fun t => decide (t.1 = d)).map Prod.snd).sum ≤
      (amounts (ts.flatMap fun t => eitherSeg as d1 d2 (kf t.1) t.2) ty (kf d)).sum := by
  rw [amounts_flatMap]
  refine filter_sum_le (All2.diag fun t _ ht => ?_)
  have ht := of_decide_eq_true ht
  rw [ht]
  exact le_sum_of_mem (amounts_mem (c := ⟨ty, kf d, t.2⟩) (hty t.2) rfl (fun _ => rfl))

theorem eitherSeg_first {as : List Act} {d1 d2 : Nat} {key d : Bytes} (h : payload? as d1 key = some d) (n : Nat) :
    ⟨d1, key, n⟩ ∈ eitherSeg as d1 d2 key n := by unfold eitherSeg; rw [h]; simp

theorem eitherSeg_second {as : List Act} {d1 d2 : Nat} {key d : Bytes} (h1 : payload? as d1 key = none) (h : payload? as d2 key = some d)
    (n : Nat) : ⟨d2, key, n⟩ ∈ eitherSeg as d1 d2 key n := by unfold eitherSeg; rw [h1, h]; simp

theorem eitherSeg_some {as : List Act} {d1 d2 : Nat} {key : Bytes} {n : Nat} (h : eitherSeg as d1 d2 key n ≠ []) :
    (payload? as d1 key).isSome = true ∨ (payload? as d2 key).isSome = true := by
  unfold eitherSeg at h
  split at h
  · exact .inl (by assumption)
  · split at h
    · exact .inr (by assumption)
    · exact absurd rfl h

theorem amounts_sum_append_right (a b : List Chg) (ty : Nat) (key : Bytes) :
    (amounts b ty key).sum ≤ (amounts (a ++ b) ty key).sum := by rw [amounts_append, List.sum_append]; omega

theorem amounts_sum_append_left (a b : List Chg) (ty : Nat) (key : Bytes) :
    (amounts a ty key).sum ≤ (amounts (a ++ b) ty key).sum := by rw [amounts_append, List.sum_append]; omega

theorem amounts_sum_mem {α : Type} {l : List α} {f : α → List Chg} {e : α} (he : e ∈ l) (ty : Nat) (key : Bytes) :
    (amounts (f e) ty key).sum ≤ (amounts (l.flatMap f) ty key).sum := by
  rw [amounts_flatMap]
  exact le_sum_of_mem (List.mem_map.mpr ⟨e, he, rfl⟩)

theorem tokenTransfers_eq (src : Key) (ixs : List Inner) : tokenTransfers src ixs = ixs.filterMap (tokenTransferFrom src) := by
  unfold tokenTransfers
  congr 1
  funext ix
  unfold tokenTransferFrom
  by_cases hp : ix.program = tokenId ∨ ix.program = token2022Id
  · rw [if_pos hp, if_pos hp]
    unfold tokenDestIx
    cases hd : ix.data with
    | nil => cases ix.accounts with
      | nil => rfl
      | cons a l => cases l with
        | nil => rfl
        | cons b l => simp
    | cons b0 bs =>
      simp only [List.cons_ne_nil, if_false, List.getD_cons_zero, List.head?_cons, Option.some.injEq]
      cases hacc : ix.accounts with
      | nil => split <;> simp
      | cons a l =>
        cases l with
        | nil =>
          split
          · rfl
          · rename_i i hi
            have : i ≠ 0 := by
              intro h0
              subst h0
              split at hi
              · split at hi <;> cases hi
              · split at hi
                · split at hi <;> cases hi
                · cases hi
            cases i with
            | zero => exact absurd rfl this
            | succ i => simp
        | cons b l =>
          by_cases h3 : b0 = 3
          · subst h3
            by_cases h9 : 9 ≤ (3 :: bs).length
            · simp only [if_true, if_pos h9]
              by_cases ha : a.key = src <;> simp [ha]
              simpa using h9
            · simp only [if_true, if_neg h9]
              by_cases ha : a.key = src <;> simp [ha, h9]
              have h9' : ¬ 8 ≤ bs.length := by simpa using h9
              omega
          · by_cases h12 : b0 = 12
            · subst h12
              by_cases h9 : 10 ≤ (12 :: bs).length
              · have h9' : 9 ≤ bs.length := by simpa using h9
                cases l with
                | nil => by_cases ha : a.key = src <;> simp [ha, h9']
                | cons d l => by_cases ha : a.key = src <;> simp [ha, h9']
              · have h9' : ¬ 9 ≤ bs.length := by simpa using h9
                by_cases ha : a.key = src <;> simp [ha, h9']
            · simp only [if_neg h3, if_neg h12]
              by_cases ha : a.key = src <;> simp [ha, h3, h12]
  · rw [if_neg hp, if_neg hp]

end

end Verif
