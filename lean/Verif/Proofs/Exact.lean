import Verif.Proofs.Tracked
import Verif.Spec.Exact

/-! What is charged at most. -/

namespace Verif

theorem amounts_nil {cs : List Chg} {ty : Nat} {key : Bytes} (h : ∀ c ∈ cs, c.ty ≠ ty ∨ (repeatable ty = true ∧ c.key ≠ key)) :
    amounts cs ty key = [] := by
  unfold amounts
  rw [List.filter_eq_nil_iff.mpr]
  · rfl
  · intro c hc hd
    obtain ⟨h1, h2⟩ := of_decide_eq_true hd
    rcases h c hc with g | ⟨g1, g2⟩
    · exact g h1
    · exact g2 (h2 g1)

theorem either_mem {as : List Act} {t1 t2 : Nat} {key : Bytes} {n : Nat} {c : Chg} (h : c ∈ eitherSeg as t1 t2 key n) :
    (c.ty = t1 ∨ c.ty = t2) ∧ c.key = key ∧ c.amount = n := by
  unfold eitherSeg at h
  split at h
  · simp only [List.mem_singleton] at h; subst h; exact ⟨.inl rfl, rfl, rfl⟩
  · split at h
    · simp only [List.mem_singleton] at h; subst h; exact ⟨.inr rfl, rfl, rfl⟩
    · cases h

theorem either_le {as : List Act} {t1 t2 : Nat} {key : Bytes} {n : Nat} (ty : Nat) (k : Bytes) :
    (amounts (eitherSeg as t1 t2 key n) ty k).sum ≤ n := by
  unfold eitherSeg amounts
  split
  · simp only [List.filter_cons, List.filter_nil]; split <;> simp
  · split
    · simp only [List.filter_cons, List.filter_nil]; split <;> simp
    · simp

/-- The charges to a general limit: those of the general part. -/
theorem spend_le {as : List Act} {g1 g2 d1 d2 : Nat} {key : Bytes} {kf : Key → Bytes} {held : Bool} {spent : Nat} {ts : List (Key × Nat)}
    {ty : Nat} (k : Bytes) (h1 : d1 ≠ ty) (h2 : d2 ≠ ty) :
    (amounts (spendSeg as g1 g2 d1 d2 key kf held spent ts) ty k).sum ≤ spent := by
  unfold spendSeg
  rw [amounts_append, List.sum_append, amounts_nil (cs := if held then _ else _)]
  · have := either_le (as := as) (t1 := g1) (t2 := g2) (key := key) (n := spent) ty k
    simpa using this
  · intro c hc
    split at hc
    · obtain ⟨t, _, ht⟩ := List.mem_flatMap.mp hc
      left
      rcases (either_mem ht).1 with g | g
      · rw [g]; exact h1
      · rw [g]; exact h2
    · cases hc

theorem spend_zero {as : List Act} {g1 g2 d1 d2 : Nat} {key : Bytes} {kf : Key → Bytes} {held : Bool} {spent : Nat} {ts : List (Key × Nat)}
    {ty : Nat} {k : Bytes} (hg : (g1 ≠ ty ∧ g2 ≠ ty) ∨ (repeatable ty = true ∧ key ≠ k)) (h1 : d1 ≠ ty) (h2 : d2 ≠ ty) :
    amounts (spendSeg as g1 g2 d1 d2 key kf held spent ts) ty k = [] := by
  refine amounts_nil fun c hc => ?_
  unfold spendSeg at hc
  rcases List.mem_append.mp hc with hc | hc
  · obtain ⟨e1, e2, _⟩ := either_mem hc
    rcases hg with ⟨g1, g2⟩ | ⟨g1, g2⟩
    · left
      rcases e1 with e1 | e1
      · rw [e1]; exact g1
      · rw [e1]; exact g2
    · exact .inr ⟨g1, by rw [e2]; exact g2⟩
  · left
    split at hc
    · obtain ⟨t, _, ht⟩ := List.mem_flatMap.mp hc
      rcases (either_mem ht).1 with g | g
      · rw [g]; exact h1
      · rw [g]; exact h2
    · cases hc

theorem sum_le_filter {α β : Type} {p : α → Bool} {f : α → Nat} {g : β → Nat} {as : List α} {bs : List β}
    (h : All2 (fun a b => g b ≤ if p a = true then f a else 0) as bs) : (bs.map g).sum ≤ ((as.filter p).map f).sum := by
  induction h with
  | nil => simp
  | cons h1 _ ih =>
    rename_i a b as bs _
    simp only [List.filter_cons, List.map_cons, List.sum_cons]
    by_cases hp : p a = true
    · rw [if_pos hp] at h1 ⊢
      simp only [List.map_cons, List.sum_cons]
      omega
    · rw [if_neg hp] at h1 ⊢; omega

theorem sum_zero {α : Type} {f : α → Nat} {l : List α} (h : ∀ a ∈ l, f a = 0) : (l.map f).sum = 0 := by
  induction l with
  | nil => rfl
  | cons a l ih => rw [List.map_cons, List.sum_cons, h a (by simp), ih fun b hb => h b (by simp [hb])]

section
variable {env : Env} {cpi : Cpi} {m m' : Mem} {swig wallet : Meta} {rest : List Meta} {ix : Bytes} {w : Wallet} {r : Role}
  {ixs : List Inner} {m1 : Mem} {x : SignCtx} {cls : List Class} {hs : List (Option Bytes)} {total : Nat} {acc : List (Meta × Class)}
  {as' : List Act}

/-- SOL limits are charged the lamports that left the wallet address. -/
theorem Out.solAmounts {ty : Nat} (hty : ty = P.solLimit ∨ ty = P.solRecurringLimit) :
    (amounts ((if total = 0 then [] else solSeg x r.actions total) ++ acc.flatMap fun e => segOf x m1 r.actions e.1 e.2) ty []).sum ≤ total := by
  rw [amounts_append, List.sum_append, amounts_flatMap, sum_zero (l := acc), Nat.add_zero]
  · split
    · simp [amounts]
    · exact spend_le _ (by rcases hty with rfl | rfl <;> decide) (by rcases hty with rfl | rfl <;> decide)
  · intro e _
    have hz : ∀ cs : List Chg, amounts cs ty [] = [] → (amounts cs ty []).sum = 0 := fun _ h => by rw [h]; rfl
    apply hz
    obtain ⟨a, c⟩ := e
    cases c with
    | token b s =>
      simp only [segOf]
      split
      · rfl
      · exact spend_zero (.inl (by rcases hty with rfl | rfl <;> decide)) (by rcases hty with rfl | rfl <;> decide)
          (by rcases hty with rfl | rfl <;> decide)
    | stake st b l s =>
      simp only [segOf]
      split
      · rfl
      · refine amounts_nil fun c hc => .inl ?_
        rcases (either_mem hc).1 with g | g <;> rw [g] <;> rcases hty with rfl | rfl <;> decide
    | scope ro b s =>
      simp only [segOf]
      split
      · rfl
      · refine amounts_nil fun c hc => .inl ?_
        rw [List.mem_singleton] at hc
        rw [hc]
        show P.programScope ≠ ty
        rcases hty with rfl | rfl <;> decide
    | none => rfl
    | thisSwig l => rfl
    | wallet => rfl

/-- Everything counted for the account with index `i` after the first two. -/
theorem Out.fewAt (o : Out env cpi m m' swig wallet rest ix w r ixs m1 x cls hs total acc as') {i : Nat} {a : Meta} {e : Meta × Class}
    (hi : rest[i]? = some a) (he : acc[i + 1]? = some e) :
    ∃ c0 c hh, e = (a, c) ∧ Seen m a c0 ∧ ((m a.key).owner = swigId → c0 = .none) ∧ Mono c0 c ∧ OkOf x m1 r.actions a hh c ∧
      Few env cpi (swig :: wallet :: rest) wallet.key (walletSeeds swig.key ++ [[w.walletBump]])
        (m.setData swig.key (w.used (rd ix 4 4)).encode) ixs a c0 c := by
  have hl := o.clsLen
  have hlt : i < cls.length := by
    have := (List.getElem?_eq_some_iff.mp hi).1
    omega
  have hc : cls[i]? = some cls[i] := List.getElem?_eq_getElem hlt
  have hz : ((wallet :: rest).zip (Class.wallet :: cls))[i + 1]? = some (a, cls[i]) := by
    rw [List.getElem?_zip_eq_some]
    exact ⟨by simpa using hi, by simp [hc]⟩
  obtain ⟨e', f1, f2, f3⟩ := o.few.get hz
  rw [he] at f1
  cases f1
  obtain ⟨e', g1, g2, g3⟩ := o.mono.get hz
  rw [he] at g1
  cases g1
  obtain ⟨hh, h1, h2⟩ := o.ok.get he
  obtain ⟨s1, s2⟩ := o.seen _ (List.mem_of_getElem? hz)
  obtain ⟨a', c⟩ := e
  simp only at f2
  subst f2
  exact ⟨cls[i], c, hh, rfl, s1, s2, g3, h2, f3⟩

theorem Out.tokenAmounts (o : Out env cpi m m' swig wallet rest ix w r ixs m1 x cls hs total acc as') {ty : Nat} {mint : Bytes}
    (hty : ty = P.tokenLimit ∨ ty = P.tokenRecurringLimit) :
    (amounts ((if total = 0 then [] else solSeg x r.actions total) ++ acc.flatMap fun e => segOf x m1 r.actions e.1 e.2) ty mint).sum ≤
      ((listedTokens m' wallet.key mint rest).map fun a => addedUp tokensOut env cpi m (swig :: wallet :: rest) swig wallet ix w ixs a.key).sum := by
  have hrep : repeatable ty = true := by rcases hty with rfl | rfl <;> rfl
  rw [amounts_append, List.sum_append, amounts_flatMap]
  have hsol : (amounts (if total = 0 then [] else solSeg x r.actions total) ty mint).sum = 0 := by
    split
    · rfl
    · rw [show solSeg x r.actions total = _ from rfl]
      unfold solSeg
      rw [spend_zero (.inl (by rcases hty with rfl | rfl <;> decide)) (by rcases hty with rfl | rfl <;> decide)
        (by rcases hty with rfl | rfl <;> decide)]
      rfl
  rw [hsol, Nat.zero_add]
  have hlen := o.accLen
  cases hacc : acc with
  | nil => rw [hacc] at hlen; simp at hlen
  | cons e0 acc' =>
    have h0 : (amounts (segOf x m1 r.actions e0.1 e0.2) ty mint).sum = 0 := by
      obtain ⟨e', g1, g2, g3⟩ := o.mono.get (i := 0) (a := (wallet, Class.wallet)) rfl
      rw [hacc] at g1
      cases g1
      obtain ⟨a, c⟩ := e0
      cases c <;> first | rfl | cases g3
    rw [List.map_cons, List.sum_cons, h0, Nat.zero_add]
    refine sum_le_filter (All2.ofGet (by rw [hacc] at hlen; simpa using hlen.symm) ?_)
    intro i a e hi he
    obtain ⟨c0, c, hh, rfl, s1, s2, g1, g2, g3⟩ := o.fewAt hi (by rw [hacc]; simpa using he)
    cases c with
    | token b s =>
      simp only [segOf]
      split
      · simp [amounts]
      · rename_i hng
        have hng' : ¬ Gone (m1 a.key) ∧ s ≠ 0 := ⟨fun h => hng (.inl h), fun h => hng (.inr h)⟩
        rcases g2 with ⟨k, _⟩ | ⟨_, _, _, k1, _⟩
        · exact absurd k hng'.1
        · cases s1 with
          | token t1 t2 =>
            have hne : a.key ≠ swig.key := fun hk => by
              have := s2 (by rw [hk]; exact o.owner)
              cases this
            obtain ⟨q1, q2⟩ := g3
            have hmm : m' a.key = m1 a.key := o.other _ hne
            have hz : tokensOf ((m.setData swig.key (w.used (rd ix 4 4)).encode) a.key) = rd (m a.key).data 64 8 := by
              rw [Mem.setData_other _ _ hne]; rfl
            have hw : a.writable = true := by
              cases hw : a.writable with
              | true => rfl
              | false => exact absurd (q1 hw) hng'.2
            by_cases hm : sl (m1 a.key).data 0 32 = mint
            · rw [if_pos (by simp only [decide_eq_true_eq]; rw [hmm]; exact ⟨hw, by rw [k1]; exact o.wallet_eq, hm⟩)]
              have hle : (amounts (tokenSeg x r.actions a.key (sl (m1 a.key).data 0 32) s) ty mint).sum ≤ s :=
                spend_le _ (by rcases hty with rfl | rfl <;> decide) (by rcases hty with rfl | rfl <;> decide)
              unfold addedUp
              omega
            · have : amounts (tokenSeg x r.actions a.key (sl (m1 a.key).data 0 32) s) ty mint = [] :=
                spend_zero (.inr ⟨hrep, hm⟩) (by rcases hty with rfl | rfl <;> decide) (by rcases hty with rfl | rfl <;> decide)
              rw [this]
              exact Nat.zero_le _
          | none => cases g1
          | wallet => cases g1
          | stake => cases g1
          | scope => cases g1
    | stake st b l s =>
      simp only [segOf]
      split
      · simp [amounts]
      · rw [amounts_nil (fun c hc => .inl ?_)]
        · exact Nat.zero_le _
        · rcases (either_mem hc).1 with g | g <;> rw [g] <;> rcases hty with rfl | rfl <;> decide
    | scope ro b s =>
      simp only [segOf]
      split
      · simp [amounts]
      · rw [amounts_nil (fun c hc => .inl ?_)]
        · exact Nat.zero_le _
        · rw [List.mem_singleton] at hc
          rw [hc]
          show P.programScope ≠ ty
          rcases hty with rfl | rfl <;> decide
    | none => simp [segOf, amounts]
    | thisSwig l => simp [segOf, amounts]
    | wallet => simp [segOf, amounts]

theorem Out.stakeAmounts (o : Out env cpi m m' swig wallet rest ix w r ixs m1 x cls hs total acc as')
    (hk : StakeKept env cpi m (swig :: wallet :: rest) swig wallet ix w ixs) {ty : Nat}
    (hty : ty = P.stakeLimit ∨ ty = P.stakeRecurringLimit) :
    (amounts ((if total = 0 then [] else solSeg x r.actions total) ++ acc.flatMap fun e => segOf x m1 r.actions e.1 e.2) ty []).sum ≤
      ((listedStakes m rest).map fun a => addedUp stakeMove env cpi m (swig :: wallet :: rest) swig wallet ix w ixs a.key).sum := by
  rw [amounts_append, List.sum_append, amounts_flatMap]
  have hsol : (amounts (if total = 0 then [] else solSeg x r.actions total) ty []).sum = 0 := by
    split
    · rfl
    · unfold solSeg
      rw [spend_zero (.inl (by rcases hty with rfl | rfl <;> decide)) (by rcases hty with rfl | rfl <;> decide)
        (by rcases hty with rfl | rfl <;> decide)]
      rfl
  rw [hsol, Nat.zero_add]
  have hlen := o.accLen
  cases hacc : acc with
  | nil => rw [hacc] at hlen; simp at hlen
  | cons e0 acc' =>
    have h0 : (amounts (segOf x m1 r.actions e0.1 e0.2) ty []).sum = 0 := by
      obtain ⟨e', g1, g2, g3⟩ := o.mono.get (i := 0) (a := (wallet, Class.wallet)) rfl
      rw [hacc] at g1
      cases g1
      obtain ⟨a, c⟩ := e0
      cases c <;> first | rfl | cases g3
    rw [List.map_cons, List.sum_cons, h0, Nat.zero_add]
    refine sum_le_filter (All2.ofGet (by rw [hacc] at hlen; simpa using hlen.symm) ?_)
    intro i a e hi he
    obtain ⟨c0, c, hh, rfl, s1, s2, g1, g2, g3⟩ := o.fewAt hi (by rw [hacc]; simpa using he)
    cases c with
    | token b s =>
      simp only [segOf]
      split
      · simp [amounts]
      · have : amounts (tokenSeg x r.actions a.key (sl (m1 a.key).data 0 32) s) ty [] = [] :=
          spend_zero (.inl (by rcases hty with rfl | rfl <;> decide)) (by rcases hty with rfl | rfl <;> decide)
            (by rcases hty with rfl | rfl <;> decide)
        rw [this]
        exact Nat.zero_le _
    | stake st b l s =>
      simp only [segOf]
      split
      · simp [amounts]
      · rename_i hng
        have hs0 : s ≠ 0 := fun h => hng (.inl h)
        cases s1 with
        | stake t1 t2 t3 =>
          have hne : a.key ≠ swig.key := fun hk => by
            have := s2 (by rw [hk]; exact o.owner)
            cases this
          obtain ⟨q1, q2⟩ := g3
          have q2 := q2 (hk a (by simp [List.mem_of_getElem? hi]) t1)
          have hw : a.writable = true := by
            cases hw : a.writable with
            | true => rfl
            | false => exact absurd (q1 hw) hs0
          rw [if_pos (by simp only [decide_eq_true_eq]; exact ⟨hw, t1⟩)]
          have hle := either_le (as := r.actions) (t1 := P.stakeLimit) (t2 := P.stakeRecurringLimit) (key := []) (n := s) ty []
          rw [Mem.setData_other _ _ hne] at q2
          unfold stakedOf at q2
          unfold addedUp
          omega
        | none => cases g1
        | wallet => cases g1
        | token => cases g1
        | scope => cases g1
    | scope ro b s =>
      simp only [segOf]
      split
      · simp [amounts]
      · rw [amounts_nil (fun c hc => .inl ?_)]
        · exact Nat.zero_le _
        · rw [List.mem_singleton] at hc
          rw [hc]
          show P.programScope ≠ ty
          rcases hty with rfl | rfl <;> decide
    | none => simp [segOf, amounts]
    | thisSwig l => simp [segOf, amounts]
    | wallet => simp [segOf, amounts]

end
end Verif
