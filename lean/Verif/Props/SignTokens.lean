import Verif.Proofs.Tracked
import Verif.Props.Limits
import Verif.Spec.SampleSign

/-!
# Properties C53 - C58: tokens, integrity, programs, destinations

As in `Props.Sign`: a restricted role signs with SignV2, the called programs are arbitrary; conclusions allow for explicit SHA-256
collisions (`ConfigClash`: the two versions of the configuration account; `TokenClash`: of a token account).
-/

namespace Verif

section
variable {env : Env} {cpi : Cpi} {m m' : Mem} {swig wallet : Meta} {rest : List Meta} {ix : Bytes} {w : Wallet} {r : Role}

theorem RestrictedSign.typed1 (h : RestrictedSign env cpi m m' swig wallet rest ix w r) {ixs : List Inner} {m1 : Mem}
    (h1 : AfterCalls env cpi m (swig :: wallet :: rest) swig wallet ix w ixs m1) : m1.Typed :=
  execAll_typed h.runtime.calls (setData_typed h.runtime.mem _ _) h1.2

/-! ## C53: token limits

Closed accounts are left out (`tokensLost`): C53 is false for them, see `C53_refuted`. -/

/-- Fixed token limit of a mint: the wallet's token accounts of that mint, together, lose at most what was taken off the limit. -/
theorem C53_limit_partial (h : RestrictedSign env cpi m m' swig wallet rest ix w r) {mint d : Bytes}
    (hl : r.limit? P.tokenLimit mint = some d) :
    ∃ ixs m1, AfterCalls env cpi m (swig :: wallet :: rest) swig wallet ix w ixs m1 ∧
      (ConfigClash env m m1 swig ix w ∨ TokenClash env m m1 wallet.key rest ∨
      ∃ w' r' d', StoredAs m' swig ix w' r' ∧ r'.limit? P.tokenLimit mint = some d' ∧ rd d' 32 8 ≤ rd d 32 8 ∧
        tokensLost m m' wallet.key mint rest ≤ rd d 32 8 - rd d' 32 8) := by
  obtain ⟨ixs, m1, h1, h2 | ⟨x, cls, hs, total, acc, as', o⟩⟩ := h.out
  · exact ⟨ixs, m1, h1, .inl h2⟩
  · refine ⟨ixs, m1, h1, .inr ?_⟩
    rcases o.tokensCharged h.runtime.mem (h.typed1 h1) (mint := mint) (ty := P.tokenLimit) (eitherSeg_first hl) with g | g
    · exact .inl g
    · obtain ⟨d', e1, e2⟩ := (o.plays.payload h.acts).2.2 _ _ _ hl
      have e3 := chargeList_token (payload?_len h.acts hl (n := 40) rfl) e2
      exact .inr ⟨_, _, d', o.stored, e1, by omega, by omega⟩

/-- Recurring token limit of a mint (no fixed one): they lose at most the sum of charges approved by the limit in the current slot. -/
theorem C53_recurring_partial (h : RestrictedSign env cpi m m' swig wallet rest ix w r) {mint d : Bytes}
    (hn : r.limit? P.tokenLimit mint = none) (hl : r.limit? P.tokenRecurringLimit mint = some d) :
    ∃ ixs m1, AfterCalls env cpi m (swig :: wallet :: rest) swig wallet ix w ixs m1 ∧
      (ConfigClash env m m1 swig ix w ∨ TokenClash env m m1 wallet.key rest ∨
      ∃ w' r' d' cs, StoredAs m' swig ix w' r' ∧ r'.limit? P.tokenRecurringLimit mint = some d' ∧
        play TokenRecurringLimit.charge (.of d) cs = (.of d', cs) ∧ (∀ c ∈ cs, c.slot = env.slot) ∧
        tokensLost m m' wallet.key mint rest ≤ Charge.total cs) := by
  obtain ⟨ixs, m1, h1, h2 | ⟨x, cls, hs, total, acc, as', o⟩⟩ := h.out
  · exact ⟨ixs, m1, h1, .inl h2⟩
  · refine ⟨ixs, m1, h1, .inr ?_⟩
    rcases o.tokensCharged h.runtime.mem (h.typed1 h1) (mint := mint) (ty := P.tokenRecurringLimit) (eitherSeg_second hn hl) with g | g
    · exact .inl g
    · obtain ⟨d', e1, e2⟩ := (o.plays.payload h.acts).2.2 _ _ _ hl
      have e3 := chargeList_tokenRec h.runtime.slot (payload?_len h.acts hl (n := 64) rfl) e2
      refine .inr ⟨_, _, d', _, o.stored, e1, e3, ?_, ?_⟩
      · intro c hc
        obtain ⟨n, _, rfl⟩ := List.mem_map.mp hc
        rfl
      · rw [total_map]; exact g

/-- What is known about one token account that lost tokens. -/
theorem Out.lost {ixs : List Inner} {m1 : Mem} {x : SignCtx} {cls : List Class} {hs : List (Option Bytes)} {total : Nat}
    {acc : List (Meta × Class)} {as' : List Act} (o : Out env cpi m m' swig wallet rest ix w r ixs m1 x cls hs total acc as')
    (hm : m.Typed) (hm1 : m1.Typed) {a : Meta} (ha : a ∈ rest)
    (ht : WalletToken m wallet.key a) (hopen : ¬ (m' a.key).Closed) (hlost : tokensOf (m' a.key) < tokensOf (m a.key)) :
    TokenClash env m m1 wallet.key rest ∨
    ∃ b s, (a, Class.token b s) ∈ acc ∧ s ≠ 0 ∧ tokensOf (m a.key) - tokensOf (m' a.key) ≤ s ∧
      TokenOk x r.actions a.key (mintOf (m a.key)) s ∧
      segOf x m1 r.actions a (.token b s) = tokenSeg x r.actions a.key (mintOf (m a.key)) s := by
  obtain ⟨i, hi⟩ := List.getElem?_of_mem ha
  obtain ⟨hne, b, s, hh, e1, e2, e3, e4, e5, e6⟩ := o.token hi ht
  have hmm : m' a.key = m1 a.key := o.other _ hne
  rw [hmm] at hopen hlost ⊢
  rcases o.tokenSame hm hm1 hi ht with ⟨g, _⟩ | g | ⟨g1, g2, g3, g4, g5⟩
  · exact absurd g hopen
  · exact .inl g
  · right
    have hb := e6 (by omega)
    have hmint : sl (m1 a.key).data 0 32 = mintOf (m a.key) := by
      rw [mintOf, sl_zero_take, sl_zero_take]
      have := congrArg (List.take 32) g3
      simpa [List.take_take] using this
    unfold tokensOf at *
    have hs : s ≠ 0 := by intro hs; omega
    refine ⟨b, s, List.mem_of_getElem? e1, hs, by omega, ?_, ?_⟩
    · rcases e3 with ⟨g, _⟩ | ⟨_, _, _, _, _, g⟩
      · exact absurd g g1
      · have := g hs
        rw [hmint] at this
        exact this
    · simp only [segOf]
      rw [if_neg (by intro h; rcases h with h | h; exacts [g1 h, hs h]), hmint]

/-- No limit of any kind for the mint: no token account of that mint loses anything. -/
theorem C53_no_limit_partial (h : RestrictedSign env cpi m m' swig wallet rest ix w r) {a : Meta} (ha : a ∈ rest)
    (ht : WalletToken m wallet.key a) (hopen : ¬ (m' a.key).Closed)
    (hn : ∀ act ∈ r.actions, (act.ty = P.tokenLimit ∨ act.ty = P.tokenRecurringLimit ∨ act.ty = P.tokenDestinationLimit ∨
      act.ty = P.tokenRecurringDestinationLimit) → act.data.take 32 ≠ mintOf (m a.key)) :
    ∃ ixs m1, AfterCalls env cpi m (swig :: wallet :: rest) swig wallet ix w ixs m1 ∧
      (ConfigClash env m m1 swig ix w ∨ TokenClash env m m1 wallet.key rest ∨ tokensOf (m a.key) ≤ tokensOf (m' a.key)) := by
  obtain ⟨ixs, m1, h1, h2 | ⟨x, cls, hs, total, acc, as', o⟩⟩ := h.out
  · exact ⟨ixs, m1, h1, .inl h2⟩
  · refine ⟨ixs, m1, h1, .inr ?_⟩
    by_cases hlost : tokensOf (m' a.key) < tokensOf (m a.key)
    · rcases o.lost h.runtime.mem (h.typed1 h1) ha ht hopen hlost with g | ⟨b, s, _, _, _, g, _⟩
      · exact .inl g
      · exfalso
        rcases g.some with k | k
        · rcases eitherSeg_some k with k | k
          · obtain ⟨d, k⟩ := Option.isSome_iff_exists.mp k
            unfold payload? at k
            obtain ⟨act, f1, f2⟩ := Option.map_eq_some_iff.mp k
            have f3 := List.find?_some f1
            have f3 := of_decide_eq_true f3
            exact hn act (List.mem_of_find?_eq_some f1) (.inl f3.1) (f3.2 rfl)
          · obtain ⟨d, k⟩ := Option.isSome_iff_exists.mp k
            unfold payload? at k
            obtain ⟨act, f1, f2⟩ := Option.map_eq_some_iff.mp k
            have f3 := List.find?_some f1
            have f3 := of_decide_eq_true f3
            exact hn act (List.mem_of_find?_eq_some f1) (.inr (.inl f3.1)) (f3.2 rfl)
        · obtain ⟨act, f1, f2⟩ := List.any_eq_true.mp k
          simp at f2
          exact hn act f1 (.inr (.inr f2.1)) f2.2.symm
    · exact .inr (by omega)

/-- Destination limits for the mint: a token account that lost tokens lost at most what the request's own transfers out of it add up to;
each of these transfers goes to a destination with a limit, and is charged to it in full. -/
theorem C53_destinations_partial (h : RestrictedSign env cpi m m' swig wallet rest ix w r) {a : Meta} (ha : a ∈ rest)
    (ht : WalletToken m wallet.key a) (hopen : ¬ (m' a.key).Closed) (hlost : tokensOf (m' a.key) < tokensOf (m a.key))
    (hd : ∃ act ∈ r.actions, (act.ty = P.tokenDestinationLimit ∨ act.ty = P.tokenRecurringDestinationLimit) ∧
      act.data.take 32 = mintOf (m a.key)) :
    ∃ ixs m1, AfterCalls env cpi m (swig :: wallet :: rest) swig wallet ix w ixs m1 ∧
      (ConfigClash env m m1 swig ix w ∨ TokenClash env m m1 wallet.key rest ∨
      ∃ w' r' ts, StoredAs m' swig ix w' r' ∧ ts = ixs.filterMap (tokenTransferFrom a.key) ∧
        tokensOf (m a.key) - tokensOf (m' a.key) ≤ (ts.map Prod.snd).sum ∧
        ∀ t ∈ ts,
          (∃ d d' cs, r.limit? P.tokenRecurringDestinationLimit (mintOf (m a.key) ++ t.1) = some d ∧
            r'.limit? P.tokenRecurringDestinationLimit (mintOf (m a.key) ++ t.1) = some d' ∧
            play TokenRecurringDestinationLimit.charge (.of d) cs = (.of d', cs) ∧ (∀ c ∈ cs, c.slot = env.slot) ∧
            ((ts.filter fun t' => decide (t'.1 = t.1)).map Prod.snd).sum ≤ Charge.total cs) ∨
          (∃ d d', r.limit? P.tokenDestinationLimit (mintOf (m a.key) ++ t.1) = some d ∧
            r'.limit? P.tokenDestinationLimit (mintOf (m a.key) ++ t.1) = some d' ∧ rd d' 64 8 ≤ rd d 64 8 ∧
            ((ts.filter fun t' => decide (t'.1 = t.1)).map Prod.snd).sum ≤ rd d 64 8 - rd d' 64 8)) := by
  obtain ⟨ixs, m1, h1, h2 | ⟨x, cls, hs, total, acc, as', o⟩⟩ := h.out
  · exact ⟨ixs, m1, h1, .inl h2⟩
  · refine ⟨ixs, m1, h1, .inr ?_⟩
    rcases o.lost h.runtime.mem (h.typed1 h1) ha ht hopen hlost with g | ⟨b, s, g1, g2, g3, g4, g5⟩
    · exact .inl g
    · right
      have hheld : tokenDestHeld (mintOf (m a.key)) r.actions = true := by
        obtain ⟨act, k1, k2, k3⟩ := hd
        exact List.any_eq_true.mpr ⟨act, k1, by simp [k2, k3]⟩
      obtain ⟨k1, k2, k3⟩ := g4.dest hheld
      rw [tokenTransfers_eq, o.ixs_eq] at k1 k2 k3
      refine ⟨_, _, ixs.filterMap (tokenTransferFrom a.key), o.stored, rfl, by omega, fun t htm => ?_⟩
      have hcov : ∀ ty, (∀ n, ⟨ty, mintOf (m a.key) ++ t.1, n⟩ ∈ eitherSeg r.actions P.tokenRecurringDestinationLimit P.tokenDestinationLimit
            (mintOf (m a.key) ++ t.1) n) →
          (((ixs.filterMap (tokenTransferFrom a.key)).filter fun t' => decide (t'.1 = t.1)).map Prod.snd).sum ≤
          (amounts ((if total = 0 then [] else solSeg x r.actions total) ++ acc.flatMap fun e => segOf x m1 r.actions e.1 e.2) ty
            (mintOf (m a.key) ++ t.1)).sum := by
        intro ty hty
        refine Nat.le_trans ?_ (amounts_sum_append_right _ _ _ _)
        refine Nat.le_trans ?_ (amounts_sum_mem (f := fun e : Meta × Class => segOf x m1 r.actions e.1 e.2) g1 _ _)
        simp only [g5]
        unfold tokenSeg spendSeg
        refine Nat.le_trans ?_ (amounts_sum_append_right _ _ _ _)
        rw [if_pos hheld, tokenTransfers_eq, o.ixs_eq]
        exact dest_amounts (kf := fun d => mintOf (m a.key) ++ d) _ hty
      cases hrec : r.limit? P.tokenRecurringDestinationLimit (mintOf (m a.key) ++ t.1) with
      | some d =>
        left
        obtain ⟨d', e1, e2⟩ := (o.plays.payload h.acts).2.2 _ _ _ hrec
        have e3 := chargeList_tokenRecDest h.runtime.slot (payload?_len h.acts hrec (n := 96) rfl) e2
        refine ⟨d, d', _, rfl, e1, e3, ?_, ?_⟩
        · intro c hc
          obtain ⟨n, _, rfl⟩ := List.mem_map.mp hc
          rfl
        · rw [total_map]
          exact hcov _ (eitherSeg_first hrec)
      | none =>
        right
        rcases eitherSeg_some (k3 t htm) with f | f
        · rw [show payload? r.actions P.tokenRecurringDestinationLimit (mintOf (m a.key) ++ t.1) = none from hrec] at f
          cases f
        · obtain ⟨d, f⟩ := Option.isSome_iff_exists.mp f
          obtain ⟨d', e1, e2⟩ := (o.plays.payload h.acts).2.2 _ _ _ f
          have e3 := chargeList_tokenDest (payload?_len h.acts f (n := 72) rfl) e2
          have := hcov _ (eitherSeg_second hrec f)
          exact ⟨d, d', f, e1, by omega, by omega⟩

/-- A token account of the wallet can only be closed by a role with the close permission. -/
theorem C53_closed (h : RestrictedSign env cpi m m' swig wallet rest ix w r) {a : Meta} (ha : a ∈ rest)
    (ht : WalletToken m wallet.key a) (hcl : (m' a.key).Closed) :
    ∃ ixs m1, AfterCalls env cpi m (swig :: wallet :: rest) swig wallet ix w ixs m1 ∧
      (ConfigClash env m m1 swig ix w ∨ TokenClash env m m1 wallet.key rest ∨ ∃ act ∈ r.actions, act.ty = P.closeSwigAuthority) := by
  obtain ⟨ixs, m1, h1, h2 | ⟨x, cls, hs, total, acc, as', o⟩⟩ := h.out
  · exact ⟨ixs, m1, h1, .inl h2⟩
  · refine ⟨ixs, m1, h1, .inr ?_⟩
    obtain ⟨i, hi⟩ := List.getElem?_of_mem ha
    have hmm : m' a.key = m1 a.key := o.other _ (o.token hi ht).1
    rw [hmm] at hcl
    rcases o.tokenSame h.runtime.mem (h.typed1 h1) hi ht with ⟨_, g⟩ | g | ⟨g, _⟩
    · exact .inr ((payload?_isSome_iff rfl []).mp g)
    · exact .inl g
    · exact absurd hcl g

/-! ## C54: integrity -/

/-- The configuration account afterwards: the same wallet, with the replay counter of the acting role advanced (`Wallet.used`) and
its actions unchanged up to the counters of limits (`Act.fixed`: everything but remaining amount and time of the last reset). -/
theorem C54_config (h : RestrictedSign env cpi m m' swig wallet rest ix w r) :
    ∃ ixs m1, AfterCalls env cpi m (swig :: wallet :: rest) swig wallet ix w ixs m1 ∧
      (ConfigClash env m m1 swig ix w ∨
      (m' swig.key).owner = (m swig.key).owner ∧
      ∃ as', (m' swig.key).data = ((w.used (rd ix 4 4)).setActions (rd ix 4 4) as').encode ∧
        All2 (fun a a' : Act => a'.ty = a.ty ∧ a'.data.length = a.data.length ∧ a'.fixed = a.fixed) r.actions as') := by
  obtain ⟨ixs, m1, h1, h2 | ⟨x, cls, hs, total, acc, as', o⟩⟩ := h.out
  · exact ⟨ixs, m1, h1, .inl h2⟩
  · by_cases hcc : ConfigClash env m m1 swig ix w
    · exact ⟨ixs, m1, h1, .inl hcc⟩
    refine ⟨ixs, m1, h1, .inr ⟨?_, as', o.stored.2.1, All2.imp' (fun a a' hc => ?_) o.charged⟩⟩
    · rw [o.own]
      rcases o.sameOwner with g | g
      · exact absurd g hcc
      · exact g
    · obtain ⟨e1, e2⟩ := hc
      refine ⟨e1, e2.len, ?_⟩
      have := e2.fixed
      cases a; cases a'
      simp only at e1 this ⊢
      subst e1
      exact this

/-- A token account of the wallet keeps owner program, mint and authority (bytes 0-64) and everything after the amount (delegate, state,
close authority, extensions: bytes from 72), unless it is closed. -/
theorem C54_token (h : RestrictedSign env cpi m m' swig wallet rest ix w r) {a : Meta} (ha : a ∈ rest)
    (ht : WalletToken m wallet.key a) (hopen : ¬ (m' a.key).Closed) :
    ∃ ixs m1, AfterCalls env cpi m (swig :: wallet :: rest) swig wallet ix w ixs m1 ∧
      (ConfigClash env m m1 swig ix w ∨ TokenClash env m m1 wallet.key rest ∨
      ((m' a.key).owner = (m a.key).owner ∧ (m' a.key).data.length = (m a.key).data.length ∧
        ∀ i, i < 64 ∨ 72 ≤ i → (m' a.key).data[i]? = (m a.key).data[i]?)) := by
  obtain ⟨ixs, m1, h1, h2 | ⟨x, cls, hs, total, acc, as', o⟩⟩ := h.out
  · exact ⟨ixs, m1, h1, .inl h2⟩
  · refine ⟨ixs, m1, h1, .inr ?_⟩
    obtain ⟨i, hi⟩ := List.getElem?_of_mem ha
    have hmm : m' a.key = m1 a.key := o.other _ (o.token hi ht).1
    rw [hmm] at hopen ⊢
    rcases o.tokenSame h.runtime.mem (h.typed1 h1) hi ht with ⟨g, _⟩ | g | ⟨_, g1, g2, g3, g4⟩
    · exact absurd g hopen
    · exact .inl g
    · refine .inr ⟨g1, ?_, fun i hi => ?_⟩
      · have := congrArg List.length g3
        have := ht.2.2.1
        simp at *
        omega
      · rcases hi with hi | hi
        · have := congrArg (·[i]?) g2
          simpa [List.getElem?_take, hi] using this
        · have := congrArg (·[i - 72]?) g3
          simp only [List.getElem?_drop, show 72 + (i - 72) = i by omega] at this
          exact this

end

/-! ## The hypotheses are met -/

open Sample in
/-- Limit 100, 70 tokens paid; the token account stays open. -/
example : ∃ m', RestrictedSign signEnv demoCpi (signMem acts1) m' signSwig signAddr signRest (signIx [paySol 300, payToken 70])
    (signWallet acts1) ⟨1, 1, K 11, acts1⟩ ∧ (Role.limit? ⟨1, 1, K 11, acts1⟩ P.tokenLimit (K 50)).isSome ∧
    WalletToken (signMem acts1) (K 2) ⟨K 30, false, true⟩ ∧ ¬ (m' (K 30)).Closed ∧
    tokensLost (signMem acts1) m' (K 2) (K 50) signRest = 70 :=
  runSign_exists acts1 [paySol 300, payToken 70]
    (fun m' => (Role.limit? ⟨1, 1, K 11, acts1⟩ P.tokenLimit (K 50)).isSome ∧
      WalletToken (signMem acts1) (K 2) ⟨K 30, false, true⟩ ∧ ¬ (m' (K 30)).Closed ∧
      tokensLost (signMem acts1) m' (K 2) (K 50) signRest = 70) (by decide +kernel) (by decide +kernel)

open Sample in
/-- Recurring limit 100, refilled in this slot, 70 tokens paid. -/
example : ∃ m', RestrictedSign signEnv demoCpi (signMem acts2) m' signSwig signAddr signRest (signIx [payToken 30, payToken 40])
    (signWallet acts2) ⟨1, 1, K 11, acts2⟩ ∧ Role.limit? ⟨1, 1, K 11, acts2⟩ P.tokenLimit (K 50) = none ∧
    (Role.limit? ⟨1, 1, K 11, acts2⟩ P.tokenRecurringLimit (K 50)).isSome ∧
    tokensLost (signMem acts2) m' (K 2) (K 50) signRest = 70 :=
  runSign_exists acts2 [payToken 30, payToken 40]
    (fun m' => Role.limit? ⟨1, 1, K 11, acts2⟩ P.tokenLimit (K 50) = none ∧
      (Role.limit? ⟨1, 1, K 11, acts2⟩ P.tokenRecurringLimit (K 50)).isSome ∧
      tokensLost (signMem acts2) m' (K 2) (K 50) signRest = 70) (by decide +kernel) (by decide +kernel)

open Sample in
/-- No token limit, the token account is open and untouched while the wallet is funded. -/
example : ∃ m', RestrictedSign signEnv demoCpi (signMem acts4) m' signSwig signAddr signRest (signIx [fundSol 100])
    (signWallet acts4) ⟨1, 1, K 11, acts4⟩ ∧ ⟨K 30, false, true⟩ ∈ signRest ∧ WalletToken (signMem acts4) (K 2) ⟨K 30, false, true⟩ ∧
    ¬ (m' (K 30)).Closed ∧
    (∀ act ∈ acts4, (act.ty = P.tokenLimit ∨ act.ty = P.tokenRecurringLimit ∨ act.ty = P.tokenDestinationLimit ∨
      act.ty = P.tokenRecurringDestinationLimit) → act.data.take 32 ≠ mintOf (signMem acts4 (K 30))) :=
  runSign_exists acts4 [fundSol 100]
    (fun m' => ⟨K 30, false, true⟩ ∈ signRest ∧ WalletToken (signMem acts4) (K 2) ⟨K 30, false, true⟩ ∧
      ¬ (m' (K 30)).Closed ∧
      (∀ act ∈ acts4, (act.ty = P.tokenLimit ∨ act.ty = P.tokenRecurringLimit ∨ act.ty = P.tokenDestinationLimit ∨
        act.ty = P.tokenRecurringDestinationLimit) → act.data.take 32 ≠ mintOf (signMem acts4 (K 30)))) (by decide +kernel) (by decide +kernel)

open Sample in
/-- Destination limit 90 for `K 31`, 70 tokens paid in two transfers. -/
example : ∃ m', RestrictedSign signEnv demoCpi (signMem acts3) m' signSwig signAddr signRest (signIx [payToken 30, payToken 40])
    (signWallet acts3) ⟨1, 1, K 11, acts3⟩ ∧ ¬ (m' (K 30)).Closed ∧ tokensOf (m' (K 30)) + 70 = tokensOf (signMem acts3 (K 30)) ∧
    (∃ act ∈ acts3, (act.ty = P.tokenDestinationLimit ∨ act.ty = P.tokenRecurringDestinationLimit) ∧
      act.data.take 32 = mintOf (signMem acts3 (K 30))) :=
  runSign_exists acts3 [payToken 30, payToken 40]
    (fun m' => ¬ (m' (K 30)).Closed ∧ tokensOf (m' (K 30)) + 70 = tokensOf (signMem acts3 (K 30)) ∧
      (∃ act ∈ acts3, (act.ty = P.tokenDestinationLimit ∨ act.ty = P.tokenRecurringDestinationLimit) ∧
        act.data.take 32 = mintOf (signMem acts3 (K 30)))) (by decide +kernel) (by decide +kernel)

open Sample in
/-- C53 as stated is false: a restricted role without any token limit, allowed to close, moves all 1000 tokens of the wallet away and
closes the token account; nothing is charged.  (In this environment there are no SHA-256 collisions.) -/
theorem C53_refuted : ∃ env cpi m m' swig wallet rest ix w r a, RestrictedSign env cpi m m' swig wallet rest ix w r ∧
    (∀ x y, ¬ Clash env x y) ∧ a ∈ rest ∧ WalletToken m wallet.key a ∧
    (∀ act ∈ r.actions, act.ty ≠ P.tokenLimit ∧ act.ty ≠ P.tokenRecurringLimit ∧ act.ty ≠ P.tokenDestinationLimit ∧
      act.ty ≠ P.tokenRecurringDestinationLimit) ∧
    tokensOf (m a.key) = 1000 ∧ tokensOf (m' a.key) = 0 ∧
    ∃ b, ¬ WalletToken m wallet.key b ∧ mintOf (m b.key) = mintOf (m a.key) ∧ tokensOf (m' b.key) = tokensOf (m b.key) + 1000 := by
  obtain ⟨m', h, h1, h2, h3, h4, h5, h6⟩ := runSign_exists acts5 [payToken 1000, closeToken]
    (fun m' => ⟨K 30, false, true⟩ ∈ signRest ∧ WalletToken (signMem acts5) (K 2) ⟨K 30, false, true⟩ ∧
      (∀ act ∈ acts5, act.ty ≠ P.tokenLimit ∧ act.ty ≠ P.tokenRecurringLimit ∧ act.ty ≠ P.tokenDestinationLimit ∧
        act.ty ≠ P.tokenRecurringDestinationLimit) ∧
      tokensOf (signMem acts5 (K 30)) = 1000 ∧ tokensOf (m' (K 30)) = 0 ∧
      (¬ WalletToken (signMem acts5) (K 2) ⟨K 31, false, true⟩ ∧ mintOf (signMem acts5 (K 31)) = mintOf (signMem acts5 (K 30)) ∧
        tokensOf (m' (K 31)) = tokensOf (signMem acts5 (K 31)) + 1000)) (by decide +kernel) (by decide +kernel)
  exact ⟨_, _, _, m', _, _, _, _, _, _, ⟨K 30, false, true⟩, h, signEnv_noClash, h1, h2, h3, h4, h5, ⟨K 31, false, true⟩, h6⟩

end Verif
