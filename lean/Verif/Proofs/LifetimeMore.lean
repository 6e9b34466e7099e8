import Verif.Proofs.Lifetime
import Verif.Proofs.ChargesRec
import Verif.Props.Scope
import Verif.Spec.LifetimeMore

/-! From what one signing charges to a limit to what all signings of a role together charge to it. -/

namespace Verif

section
variable {k : Key} {id : Nat} {m m' : Mem} {w : Wallet} {r : Role} {es : List Signing}

/-- A property of permissions that neither sub-account operations nor charges change. -/
structure Lasting (C : List Act → Prop) : Prop where
  quiet : ∀ as as', limitsOf as' = limitsOf as → C as → C as'
  charged : ∀ as as', All2 Act.Charged as as' → C as → C as'

theorem Lasting.none {ty : Nat} {key : Bytes} (h1 : ty ≠ P.subAccount) (h2 : ty ≠ P.subAccountV2All) :
    Lasting fun as => payload? as ty key = none :=
  ⟨fun as as' he hn => by rw [← payload?_limits h1 h2, he, payload?_limits h1 h2]; exact hn, fun as as' hc hn => by
    have := payload?_charged hc ty key
    rw [hn] at this
    simpa using this⟩

theorem Lasting.and {C D : List Act → Prop} (hC : Lasting C) (hD : Lasting D) : Lasting fun as => C as ∧ D as :=
  ⟨fun as as' he h => ⟨hC.quiet as as' he h.1, hD.quiet as as' he h.2⟩, fun as as' he h => ⟨hC.charged as as' he h.1, hD.charged as as' he h.2⟩⟩

theorem Lasting.trivial : Lasting fun _ => True := ⟨fun _ _ _ _ => True.intro, fun _ _ _ _ => True.intro⟩

/-- An amount that only decreases: the decreases of all signings together. -/
theorem Spending.fixed {ty : Nat} {key : Bytes} (h1 : ty ≠ P.subAccount) (h2 : ty ≠ P.subAccountV2All) {amt : Bytes → Nat} {f : Signing → Nat}
    {X G : Signing → Prop} {C : List Act → Prop} (hC : Lasting C) {F : Bytes → Prop}
    (step : ∀ e w r d, e.By k id → Open e.before k w → w.role? id = some r → Restricted r → C r.actions → G e → F d →
      r.limit? ty key = some d → X e ∨ ∃ w' r' d', StoredAs e.after e.swig e.ix w' r' ∧ r'.limit? ty key = some d' ∧ F d' ∧
        amt d' ≤ amt d ∧ f e ≤ amt d - amt d')
    (h : Spending k id m es m') (ho : Open m k w) (hr : w.role? id = some r) (hres : Restricted r) (hc : C r.actions) (hg : ∀ e ∈ es, G e)
    {d : Bytes} (hf : F d) (hl : r.limit? ty key = some d) : (∃ e ∈ es, X e) ∨ (es.map f).sum ≤ amt d := by
  refine h.induct (fun as es => ∀ d, C as → (∀ e ∈ es, G e) → F d → payload? as ty key = some d → (∃ e ∈ es, X e) ∨ (es.map f).sum ≤ amt d)
    ?_ ?_ ?_ ho hr hres d hc hg hf hl
  · intro as d _ _ _ _; exact .inr (Nat.zero_le _)
  · intro as as' es he hI d hc hg hf hd
    rw [← payload?_limits h1 h2, ← he, payload?_limits h1 h2] at hd
    exact hI d (hC.quiet _ _ he hc) hg hf hd
  · intro e es w w' r r' hb ho hr hres ho' hr' hch hI d hc hg hf hd
    rcases step e w r d hb ho hr hres hc (hg e (List.mem_cons_self ..)) hf hd with g | ⟨w2, r2, d', g1, g2, g3, g4, g5⟩
    · exact .inl ⟨e, List.mem_cons_self .., g⟩
    · rw [hb.same ho' hr' g1] at g2
      rcases hI d' (hC.charged _ _ hch hc) (fun e he => hg e (List.mem_cons_of_mem _ he)) g3 g2 with ⟨x, hx, q⟩ | q
      · exact .inl ⟨x, List.mem_cons_of_mem _ hx, q⟩
      · right
        rw [List.map_cons, List.sum_cons]
        omega

/-- A limit that charges change in any way: the charges of all signings together, in the order of the signings. -/
theorem Spending.charges {S : Type} {charge : S → Charge → R S} {of : Bytes → S} {ty : Nat} {key : Bytes} (h1 : ty ≠ P.subAccount)
    (h2 : ty ≠ P.subAccountV2All) {f : Signing → Nat} {X G : Signing → Prop} {C : List Act → Prop} (hC : Lasting C) {F : Bytes → Prop}
    (step : ∀ e w r d, e.By k id → Open e.before k w → w.role? id = some r → Restricted r → C r.actions → G e → F d →
      r.limit? ty key = some d → X e ∨ ∃ w' r' d' cs, StoredAs e.after e.swig e.ix w' r' ∧ r'.limit? ty key = some d' ∧ F d' ∧
        play charge (of d) cs = (of d', cs) ∧ (∀ c ∈ cs, c.slot = e.env.slot) ∧ f e ≤ Charge.total cs)
    (h : Spending k id m es m') (ho : Open m k w) (hr : w.role? id = some r) (hres : Restricted r) (hc : C r.actions) (hg : ∀ e ∈ es, G e)
    {d : Bytes} (hf : F d) (hl : r.limit? ty key = some d) :
    (∃ e ∈ es, X e) ∨ ∃ cs, (play charge (of d) cs).2 = cs ∧ (∀ c ∈ cs, ∃ e ∈ es, c.slot = e.env.slot) ∧
      (es.Pairwise (fun a b => a.env.slot ≤ b.env.slot) → cs.Pairwise (fun a b => a.slot ≤ b.slot)) ∧ (es.map f).sum ≤ Charge.total cs := by
  refine h.induct (fun as es => ∀ d, C as → (∀ e ∈ es, G e) → F d → payload? as ty key = some d →
    (∃ e ∈ es, X e) ∨ ∃ cs, (play charge (of d) cs).2 = cs ∧ (∀ c ∈ cs, ∃ e ∈ es, c.slot = e.env.slot) ∧
      (es.Pairwise (fun a b => a.env.slot ≤ b.env.slot) → cs.Pairwise (fun a b => a.slot ≤ b.slot)) ∧ (es.map f).sum ≤ Charge.total cs)
    ?_ ?_ ?_ ho hr hres d hc hg hf hl
  · intro as d _ _ _ _
    exact .inr ⟨[], rfl, (fun _ h => nomatch h), (fun _ => .nil), Nat.zero_le _⟩
  · intro as as' es he hI d hc hg hf hd
    rw [← payload?_limits h1 h2, ← he, payload?_limits h1 h2] at hd
    exact hI d (hC.quiet _ _ he hc) hg hf hd
  · intro e es w w' r r' hb ho hr hres ho' hr' hch hI d hc hg hf hd
    rcases step e w r d hb ho hr hres hc (hg e (List.mem_cons_self ..)) hf hd with g | ⟨w2, r2, d', cs, g1, g2, g3, g4, g5, g6⟩
    · exact .inl ⟨e, List.mem_cons_self .., g⟩
    · rw [hb.same ho' hr' g1] at g2
      rcases hI d' (hC.charged _ _ hch hc) (fun e he => hg e (List.mem_cons_of_mem _ he)) g3 g2 with ⟨x, hx, q⟩ | ⟨cs', q1, q2, q3, q4⟩
      · exact .inl ⟨x, List.mem_cons_of_mem _ hx, q⟩
      · refine .inr ⟨cs ++ cs', ?_, ?_, ?_, ?_⟩
        · rw [play_append, g4]; dsimp only; rw [q1]
        · intro c hc
          rcases List.mem_append.mp hc with hc | hc
          · exact ⟨e, List.mem_cons_self .., g5 c hc⟩
          · obtain ⟨x, hx, hs⟩ := q2 c hc
            exact ⟨x, List.mem_cons_of_mem _ hx, hs⟩
        · intro hp
          obtain ⟨p1, p2⟩ := List.pairwise_cons.mp hp
          refine List.pairwise_append.mpr ⟨?_, q3 p2, ?_⟩
          · refine List.pairwise_of_forall_mem_list fun a ha b hb => ?_
            rw [g5 a ha, g5 b hb]; exact Nat.le_refl _
          · intro a ha b hb
            obtain ⟨x, hx, hs⟩ := q2 b hb
            rw [g5 a ha, hs]
            exact p1 x hx
        · rw [List.map_cons, List.sum_cons]
          unfold Charge.total at *
          rw [List.map_append, List.sum_append]
          omega

end

/-! ## What a signing pays to a destination -/

section
variable {env : Env} {cpi : Cpi} {m m' : Mem} {swig wallet : Meta} {rest : List Meta} {ix : Bytes} {w : Wallet} {r : Role} {ixs : List Inner}
  {m1 : Mem} {x : SignCtx} {cls : List Class} {hs : List (Option Bytes)} {total : Nat} {acc : List (Meta × Class)} {as' : List Act}

/-- What a signing that makes the wallet address lose lamports pays to one destination is covered by the charges to its limit. -/
theorem Out.solPaidCharged (o : Out env cpi m m' swig wallet rest ix w r ixs m1 x cls hs total acc as') (ht : total ≠ 0) {dest : Key} {ty : Nat}
    (hheld : solDestHeld r.actions = true)
    (hty : ∀ n, ⟨ty, dest, n⟩ ∈ eitherSeg r.actions P.solRecurringDestinationLimit P.solDestinationLimit dest n) :
    paidTo dest (ixs.filterMap (transferFrom wallet.key)) ≤
      (amounts ((if total = 0 then [] else solSeg x r.actions total) ++ acc.flatMap fun e => segOf x m1 r.actions e.1 e.2) ty dest).sum := by
  have hts : solTransfers x.wallet x.ixs = ixs.filterMap (transferFrom wallet.key) := by rw [o.wallet_eq, o.ixs_eq]; rfl
  refine Nat.le_trans ?_ (amounts_sum_append_left _ _ _ _)
  rw [if_neg ht]
  unfold solSeg spendSeg
  refine Nat.le_trans ?_ (amounts_sum_append_right _ _ _ _)
  rw [if_pos hheld, hts]
  exact dest_amounts (kf := fun d => d) _ hty

/-- What the losing token accounts of a mint pay to one destination is covered by the charges to the limit of the destination. -/
theorem Out.tokensPaidCharged (o : Out env cpi m m' swig wallet rest ix w r ixs m1 x cls hs total acc as') (hm : m.Typed) (hm1 : m1.Typed)
    {mint : Bytes} {dest : Key} {ty : Nat} (hheld : tokenDestHeld mint r.actions = true)
    (hty : ∀ n, ⟨ty, mint ++ dest, n⟩ ∈ eitherSeg r.actions P.tokenRecurringDestinationLimit P.tokenDestinationLimit (mint ++ dest) n) :
    TokenClash env m m1 wallet.key rest ∨
    ((rest.filter fun a => decide (WalletToken m wallet.key a ∧ mintOf (m a.key) = mint ∧ ¬ (m' a.key).Closed ∧
      tokensOf (m' a.key) < tokensOf (m a.key))).map fun a =>
        paidTo dest (ixs.filterMap (tokenTransferFrom a.key))).sum ≤
      (amounts ((if total = 0 then [] else solSeg x r.actions total) ++
      acc.flatMap fun e => segOf x m1 r.actions e.1 e.2) ty (mint ++ dest)).sum := by
  by_cases hcl : TokenClash env m m1 wallet.key rest
  · exact .inl hcl
  · right
    rw [amounts_append, List.sum_append, amounts_flatMap]
    have hlen := o.accLen
    cases hacc : acc with
    | nil => rw [hacc] at hlen; simp at hlen
    | cons e0 acc' =>
      refine Nat.le_trans ?_ (Nat.le_add_left _ _)
      rw [List.map_cons, List.sum_cons]
      refine Nat.le_trans ?_ (Nat.le_add_left _ _)
      refine filter_sum_le (All2.ofGet (by rw [hacc] at hlen; simpa using hlen.symm) ?_)
      intro i a e hi he hp
      obtain ⟨p1, p2, p3, p4⟩ := of_decide_eq_true hp
      obtain ⟨hne, b, s, h, e1, e2, e3, e4, e5, e6⟩ := o.token hi p1
      rw [hacc] at e1
      simp only [List.getElem?_cons_succ] at e1
      rw [he] at e1
      cases e1
      have hmm : m' a.key = m1 a.key := o.other _ hne
      rw [hmm] at p3 p4
      rcases o.tokenSame hm hm1 hi p1 with ⟨g, _⟩ | g | ⟨g1, g2, g3, g4, g5⟩
      · exact absurd g p3
      · exact absurd g hcl
      · have hb := e6 (by omega)
        have hmint : sl (m1 a.key).data 0 32 = mint := by
          rw [← p2, mintOf, sl_zero_take, sl_zero_take]
          have := congrArg (List.take 32) g3
          simpa [List.take_take] using this
        unfold tokensOf at p4
        have hs : s ≠ 0 := by intro hs; omega
        simp only [segOf]
        rw [if_neg (by intro h; rcases h with h | h; exacts [g1 h, hs h]), hmint]
        unfold tokenSeg spendSeg
        refine Nat.le_trans ?_ (amounts_sum_append_right _ _ _ _)
        rw [if_pos hheld, tokenTransfers_eq, o.ixs_eq]
        exact dest_amounts (kf := fun d => mint ++ d) _ hty

end

/-! ## Program scopes keep their shape -/

theorem ProgramScope.charge_keeps {s s' : ProgramScope} {c : Charge} (h : s.charge c = .ok s') :
    s'.limit = s.limit ∧ s'.window = s.window ∧ s'.scopeType = s.scopeType ∧ s'.numericType = s.numericType ∧
      s'.balanceFieldStart = s.balanceFieldStart ∧ s'.balanceFieldEnd = s.balanceFieldEnd := by
  unfold ProgramScope.charge ProgramScope.run at h
  dsimp only at h
  split at h
  · cases h; simp
  · split at h
    · split at h
      · cases h
      · cases h; simp
    · split at h
      · obtain ⟨s1, g1, g2⟩ := bind_ok_iff.mp h
        have : s1.limit = s.limit ∧ s1.window = s.window ∧ s1.scopeType = s.scopeType ∧ s1.numericType = s.numericType ∧
            s1.balanceFieldStart = s.balanceFieldStart ∧ s1.balanceFieldEnd = s.balanceFieldEnd := by
          unfold ProgramScope.refill at g1
          repeat' split at g1
          all_goals first | cases g1; simp | skip
          all_goals simp_all
        split at g2
        · cases g2
        · cases g2; simpa using this
      · cases h

theorem ProgramScope.play_keeps (s : ProgramScope) (cs : List Charge) :
    (play ProgramScope.charge s cs).1.limit = s.limit ∧ (play ProgramScope.charge s cs).1.window = s.window ∧
      (play ProgramScope.charge s cs).1.scopeType = s.scopeType ∧ (play ProgramScope.charge s cs).1.numericType = s.numericType ∧
      (play ProgramScope.charge s cs).1.balanceFieldStart = s.balanceFieldStart ∧
      (play ProgramScope.charge s cs).1.balanceFieldEnd = s.balanceFieldEnd := by
  induction cs generalizing s with
  | nil => simp [play]
  | cons c cs ih =>
    cases hc : s.charge c with
    | error e => simpa [play, hc] using ih s
    | ok s' =>
      have := ProgramScope.charge_keeps hc
      have := ih s'
      simp [play, hc]
      simp_all

end Verif
