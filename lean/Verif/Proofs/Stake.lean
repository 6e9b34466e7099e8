import Verif.Spec.Stake
import Verif.Proofs.Tracked

/-! Stake accounts of a settled signing. -/

namespace Verif

section
variable {env : Env} {cpi : Cpi} {m m' : Mem} {swig wallet : Meta} {rest : List Meta} {ix : Bytes} {w : Wallet} {r : Role}
  {ixs : List Inner} {m1 : Mem} {x : SignCtx} {cls : List Class} {hs : List (Option Bytes)} {total : Nat} {acc : List (Meta × Class)}
  {as' : List Act}

/-- A stake account of the wallet. -/
theorem Out.stake (o : Out env cpi m m' swig wallet rest ix w r ixs m1 x cls hs total acc as') (hm : m.Typed) {i : Nat} {a : Meta}
    (hi : rest[i]? = some a) (ht : WalletStake m wallet.key a) :
    a.key ≠ swig.key ∧ ∃ st b l s h, acc[i + 1]? = some (a, .stake st b l s) ∧ stakedOf (m a.key) ≤ b + s ∧ b ≤ stakedOf (m a.key) + s ∧
      (m a.key).lamports ≤ l + s ∧ OkOf x m1 r.actions a h (.stake st b l s) ∧
      hashExcept env (m a.key) [(0, 4), (124, 200)] = .ok (h.getD []) ∧ h.isSome = true ∧ l = (m1 a.key).lamports ∧
      (164 ≤ (m1 a.key).data.length → b = stakedOf (m1 a.key)) := by
  obtain ⟨t1, t2, t3, t4⟩ := ht
  have hne : a.key ≠ swig.key := by
    intro e
    have := o.owner
    rw [← e] at this
    rw [this] at t2
    exact absurd t2 (by decide)
  have hsame : (m.setData swig.key (w.used (rd ix 4 4)).encode) a.key = m a.key := Mem.setData_other _ _ hne
  obtain ⟨c0, c, h1, h2⟩ := o.classify hi
  have h3 := classify_stake h2 t2 t3 t4
  subst h3
  obtain ⟨c', h, e1, e2, e3, e4, ⟨j, e5⟩, e6⟩ := o.account hi h1
  obtain ⟨f1, f2⟩ := snap_ok t1 (rs := [(0, 4), (124, 200)]) rfl e5
  rw [hsame, o.env_eq] at f1
  have hb := rd8_lt (m a.key).data 156
  have hl := (hm a.key).2
  refine ⟨hne, ?_⟩
  have : ∃ st b l s, c' = .stake st b l s ∧ rd (m a.key).data 156 8 ≤ b + s ∧ b ≤ rd (m a.key).data 156 8 + s ∧
      (m a.key).lamports ≤ l + s := by
    cases e3 with
    | same => exact ⟨_, _, _, _, rfl, by omega, by omega, by omega⟩
    | stake h =>
      obtain ⟨_, k2, k3, k4⟩ := h hb hl
      exact ⟨_, _, _, _, rfl, k2, k3, k4⟩
  obtain ⟨st, b, l, s, rfl, k1, k2, k3⟩ := this
  refine ⟨st, b, l, s, h, e1, k1, k2, k3, e4, f1, f2, ?_⟩
  rcases e6 with ⟨g1, g2⟩ | g
  · cases g1
    rw [g2, hsame]
    exact ⟨rfl, fun _ => rfl⟩
  · exact g t1

/-- ... its owner, rent reserve, authorities and lock-up are unchanged, or there is a collision. -/
theorem Out.stakeSame (o : Out env cpi m m' swig wallet rest ix w r ixs m1 x cls hs total acc as') (hm : m.Typed) (hm1 : m1.Typed) {i : Nat}
    {a : Meta} (hi : rest[i]? = some a) (ht : WalletStake m wallet.key a) :
    StakeClash env m m1 wallet.key rest ∨
    ((m1 a.key).owner = (m a.key).owner ∧ exceptBytes (m1 a.key).data 0 [(0, 4), (124, 200)] = exceptBytes (m a.key).data 0 [(0, 4), (124, 200)]) := by
  obtain ⟨hne, st, b, l, s, h, e1, _, _, _, e3, e4, e5, _⟩ := o.stake hm hi ht
  have h3 := recheck_same (x := x) (m := m) (m1 := m1) ht.1 (by rw [o.env_eq]; exact e4) e5 e3.1
  rw [o.env_eq] at h3
  by_cases he : (m a.key).owner ++ exceptBytes (m a.key).data 0 [(0, 4), (124, 200)] =
      (m1 a.key).owner ++ exceptBytes (m1 a.key).data 0 [(0, 4), (124, 200)]
  · obtain ⟨k1, k2⟩ := List.append_inj he (by rw [(hm a.key).1, (hm1 a.key).1])
    exact .inr ⟨k1.symm, k2.symm⟩
  · exact .inl ⟨a, List.mem_of_getElem? hi, ht, he, h3⟩

/-- One stake account moved by at most what was recorded for it. -/
theorem Out.stakeMove_le (o : Out env cpi m m' swig wallet rest ix w r ixs m1 x cls hs total acc as') (hm : m.Typed) {i : Nat} {a : Meta}
    (hi : rest[i]? = some a) (ht : WalletStake m wallet.key a) (hsz : StakeSize m m' wallet.key rest) :
    ∃ st b l s h, acc[i + 1]? = some (a, .stake st b l s) ∧ stakeMove (m a.key) (m' a.key) ≤ s ∧ OkOf x m1 r.actions a h (.stake st b l s) := by
  obtain ⟨hne, st, b, l, s, h, e1, k1, k2, k3, e3, _, _, e4, e5⟩ := o.stake hm hi ht
  have hmm : m' a.key = m1 a.key := o.other _ hne
  have h1 := hsz a (List.mem_of_getElem? hi) ht
  have h2 := ht.2.2.1
  rw [hmm] at h1
  have h3 := e5 (by omega)
  refine ⟨st, b, l, s, h, e1, ?_, e3⟩
  rw [hmm]
  unfold stakeMove
  omega

/-- What happened to the stake accounts is covered by the charges to a stake limit. -/
theorem Out.stakeCharged (o : Out env cpi m m' swig wallet rest ix w r ixs m1 x cls hs total acc as') (hm : m.Typed)
    (hsz : StakeSize m m' wallet.key rest) (hall : payload? r.actions P.stakeAll [] = none) {ty : Nat}
    (hty : ∀ n, ⟨ty, [], n⟩ ∈ eitherSeg r.actions P.stakeLimit P.stakeRecurringLimit [] n) :
    stakeMoves m m' wallet.key rest ≤ (amounts ((if total = 0 then [] else solSeg x r.actions total) ++
      acc.flatMap fun e => segOf x m1 r.actions e.1 e.2) ty []).sum := by
  rw [amounts_append, List.sum_append, amounts_flatMap]
  have hlen := o.accLen
  cases hacc : acc with
  | nil => rw [hacc] at hlen; simp at hlen
  | cons e0 acc' =>
    refine Nat.le_trans ?_ (Nat.le_add_left _ _)
    rw [List.map_cons, List.sum_cons]
    refine Nat.le_trans ?_ (Nat.le_add_left _ _)
    unfold stakeMoves
    refine filter_sum_le (All2.ofGet (by rw [hacc] at hlen; simpa using hlen.symm) ?_)
    intro i a e hi he hp
    have p1 := of_decide_eq_true hp
    obtain ⟨st, b, l, s, h, e1, e2, e3⟩ := o.stakeMove_le hm hi p1 hsz
    rw [hacc] at e1
    simp only [List.getElem?_cons_succ] at e1
    rw [he] at e1
    cases e1
    by_cases hs : s = 0
    · omega
    · simp only [segOf]
      rw [if_neg (by intro h; rcases h with h | h; exacts [hs h, by rw [hall] at h; cases h])]
      have := le_sum_of_mem (amounts_mem (c := ⟨ty, [], s⟩) (ty := ty) (key := [])
        (cs := eitherSeg r.actions P.stakeLimit P.stakeRecurringLimit [] s) (hty s) rfl (fun _ => rfl))
      simp only at this
      omega

end

end Verif
