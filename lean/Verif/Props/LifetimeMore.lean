import Verif.Proofs.LifetimeMore
import Verif.Spec.LifetimeMore
import Verif.Props.Lifetime
import Verif.Props.Stake
import Verif.Props.SignCalls

/-!
# Property C74, continued: stake limits, destination limits and program scopes over the lifetime of a role

Vocabulary: Spec/Lifetime.lean (`Spending`: a history with the signings of the role listed) and Spec/LifetimeMore.lean (what one signing pays
to a destination, moves in stake accounts, takes from a scoped balance).
-/

namespace Verif

section
variable {k : Key} {id : Nat} {m m' : Mem} {w : Wallet} {r : Role} {es : List Signing}

/-! ## Stake limits -/

/-- A role with a fixed stake limit (and no permission for all stake operations): all its signings together move at most the amount the limit
states now in the wallet's stake accounts. -/
theorem C74_stake_limit (ho : Open m k w) (hr : w.role? id = some r) (hres : Restricted r) {d : Bytes} (hall : r.limit? P.stakeAll [] = none)
    (hl : r.limit? P.stakeLimit [] = some d) (hsz : ∀ e ∈ es, StakeSize e.before e.after e.wallet.key e.rest)
    (h : Spending k id m es m') : (es.map Signing.stakeMoved).sum ≤ rd d 0 8 := by
  have key := h.fixed (ty := P.stakeLimit) (key := []) (by decide) (by decide) (amt := fun d => rd d 0 8) (f := Signing.stakeMoved)
    (X := fun _ => False) (G := fun e => StakeSize e.before e.after e.wallet.key e.rest) (F := fun _ => True)
    (Lasting.none (ty := P.stakeAll) (key := []) (by decide) (by decide)) ?_ ho hr hres hall hsz trivial hl
  · exact key.resolve_left fun ⟨_, _, h⟩ => h
  · intro e w r d hb ho hr hres hc hg _ hd
    obtain ⟨ixs, m1, h1, h2 | ⟨w2, r2, d', h2, h3, h4, h5⟩⟩ := C67_limit_partial (hb.restricted ho hr hres) hg hc hd
    · exact (hb.noClash ho h1 h2).elim
    · exact .inr ⟨w2, r2, d', h2, h3, trivial, h4, h5⟩

/-- A recurring stake limit (amount, window, last reset, remaining amount): per interval of slots. -/
theorem C74_stake_recurring (ho : Open m k w) (hr : w.role? id = some r) (hres : Restricted r) {d : Bytes} (hall : r.limit? P.stakeAll [] = none)
    (hn : r.limit? P.stakeLimit [] = none) (hl : r.limit? P.stakeRecurringLimit [] = some d) (hW : 0 < rd d 8 8) {s t : Nat}
    (hst : ∀ e ∈ es, s ≤ e.env.slot ∧ e.env.slot ≤ t) (hsz : ∀ e ∈ es, StakeSize e.before e.after e.wallet.key e.rest)
    (h : Spending k id m es m') : (es.map Signing.stakeMoved).sum ≤ rd d 24 8 + rd d 0 8 * (1 + (t / rd d 8 8 - s / rd d 8 8)) := by
  have key := h.charges (ty := P.stakeRecurringLimit) (key := []) (by decide) (by decide) (charge := StakeRecurringLimit.charge)
    (of := StakeRecurringLimit.of) (f := Signing.stakeMoved) (X := fun _ => False) (G := fun e => StakeSize e.before e.after e.wallet.key e.rest)
    (F := fun _ => True) (C := fun as => payload? as P.stakeAll [] = none ∧ payload? as P.stakeLimit [] = none)
    ((Lasting.none (by decide) (by decide)).and (Lasting.none (by decide) (by decide))) ?_ ho hr hres ⟨hall, hn⟩ hsz trivial hl
  · rcases key with ⟨_, _, h⟩ | ⟨cs, h1, h2, _, h3⟩
    · exact h.elim
    · have := C19_stake_interval (.of d) hW s t cs (fun c hc => by obtain ⟨e, he, hs⟩ := h2 c hc; rw [hs]; exact hst e he)
      rw [h1] at this
      simp only [StakeRecurringLimit.of] at this
      omega
  · intro e w r d hb ho hr hres hc hg _ hd
    obtain ⟨ixs, m1, h1, h2 | ⟨w2, r2, d', cs, h2, h3, h4, h5, h6⟩⟩ := C67_recurring_partial (hb.restricted ho hr hres) hg hc.1 hc.2 hd
    · exact (hb.noClash ho h1 h2).elim
    · exact .inr ⟨w2, r2, d', cs, h2, h3, trivial, h4, h5, h6⟩

/-! ## SOL destination limits -/

theorem Signing.asked_eq {e : Signing} {w : Wallet} {ixs : List Inner} {m1 : Mem}
    (h : AfterCalls e.env e.cpi e.before (e.swig :: e.wallet :: e.rest) e.swig e.wallet e.ix w ixs m1) : e.asked = ixs := by
  unfold Signing.asked
  rw [h.1]

theorem held_of {as : List Act} {ty : Nat} {key d : Bytes} (h : payload? as ty key = some d) : ∃ a ∈ as, a.ty = ty := by
  unfold payload? at h
  obtain ⟨act, f1, f2⟩ := Option.map_eq_some_iff.mp h
  have f3 := List.find?_some f1
  exact ⟨act, List.mem_of_find?_eq_some f1, (of_decide_eq_true f3).1⟩

/-- A role with a fixed limit for a destination (and no recurring one for it): all its signings together pay at most the amount the limit
states now to that destination. -/
theorem C74_sol_destination (ho : Open m k w) (hr : w.role? id = some r) (hres : Restricted r) {dest : Key} {d : Bytes}
    (hn : r.limit? P.solRecurringDestinationLimit dest = none) (hl : r.limit? P.solDestinationLimit dest = some d)
    (h : Spending k id m es m') : (es.map (Signing.solPaid · dest)).sum ≤ rd d 32 8 := by
  have key := h.fixed (ty := P.solDestinationLimit) (key := dest) (by decide) (by decide) (amt := fun d => rd d 32 8) (f := (Signing.solPaid · dest))
    (X := fun _ => False) (G := fun _ => True) (F := fun _ => True)
    (Lasting.none (ty := P.solRecurringDestinationLimit) (key := dest) (by decide) (by decide)) ?_ ho hr hres hn (fun _ _ => trivial) trivial hl
  · exact key.resolve_left fun ⟨_, _, h⟩ => h
  · intro e w r d hb ho hr hres hc _ _ hd
    have hR := hb.restricted ho hr hres
    obtain ⟨ixs, m1, h1, h2 | ⟨x, cls, hs, total, acc, as', o⟩⟩ := hR.out
    · exact (hb.noClash ho h1 h2).elim
    · obtain ⟨d', e1, e2⟩ := (o.plays.payload hR.acts).2.2 _ _ _ hd
      have e3 := chargeList_solDest (payload?_len hR.acts hd (n := 40) rfl) e2
      refine .inr ⟨_, _, d', o.stored, e1, trivial, by omega, ?_⟩
      unfold Signing.solPaid
      split
      · exact Nat.zero_le _
      · rename_i hlost
        unfold Signing.transfers
        rw [Signing.asked_eq h1]
        have hle := o.lamports
        have ht : total ≠ 0 := by intro h0; unfold Signing.lamportsLost at hlost; omega
        have hheld : solDestHeld r.actions = true := by
          obtain ⟨a, q1, q2⟩ := held_of hd
          exact List.any_eq_true.mpr ⟨a, q1, by simp [q2]⟩
        have := o.solPaidCharged ht hheld (eitherSeg_second hc hd)
        omega

/-- A recurring limit for a destination (amount, window, last reset, remaining amount): the signings of the slots `s` to `t` pay at most what
remains plus one full amount per started window of `window + 1` slots. -/
theorem C74_sol_recurring_destination (ho : Open m k w) (hr : w.role? id = some r) (hres : Restricted r) {dest : Key} {d : Bytes}
    (hl : r.limit? P.solRecurringDestinationLimit dest = some d) {s t : Nat} (ht : t < 2 ^ 64)
    (hst : ∀ e ∈ es, s ≤ e.env.slot ∧ e.env.slot ≤ t) (hord : es.Pairwise fun a b => a.env.slot ≤ b.env.slot)
    (h : Spending k id m es m') : (es.map (Signing.solPaid · dest)).sum ≤ rd d 56 8 + rd d 32 8 * (1 + (t - s) / (rd d 40 8 + 1)) := by
  have key := h.charges (ty := P.solRecurringDestinationLimit) (key := dest) (by decide) (by decide) (charge := SolRecurringDestinationLimit.charge)
    (of := SolRecurringDestinationLimit.of) (f := (Signing.solPaid · dest)) (X := fun _ => False) (G := fun _ => True)
    (F := fun _ => True) Lasting.trivial ?_ ho hr hres trivial (fun _ _ => trivial) trivial hl
  · rcases key with ⟨_, _, h⟩ | ⟨cs, h1, h2, hp, h3⟩
    · exact h.elim
    · have := C20_sol_interval (.of d) s t ht cs (fun c hc => by obtain ⟨e, he, hs⟩ := h2 c hc; rw [hs]; exact hst e he) (hp hord)
      rw [h1] at this
      simp only [SolRecurringDestinationLimit.of] at this
      omega
  · intro e w r d hb ho hr hres hc _ _ hd
    have hR := hb.restricted ho hr hres
    obtain ⟨ixs, m1, h1, h2 | ⟨x, cls, hs, total, acc, as', o⟩⟩ := hR.out
    · exact (hb.noClash ho h1 h2).elim
    · obtain ⟨d', e1, e2⟩ := (o.plays.payload hR.acts).2.2 _ _ _ hd
      have e3 := chargeList_solRecDest hR.runtime.slot (payload?_len hR.acts hd (n := 64) rfl) e2
      refine .inr ⟨_, _, d', _, o.stored, e1, trivial, e3, ?_, ?_⟩
      · intro c hc
        obtain ⟨n, _, rfl⟩ := List.mem_map.mp hc
        rfl
      · rw [total_map]
        unfold Signing.solPaid
        split
        · exact Nat.zero_le _
        · rename_i hlost
          unfold Signing.transfers
          rw [Signing.asked_eq h1]
          have hle := o.lamports
          have ht : total ≠ 0 := by intro h0; unfold Signing.lamportsLost at hlost; omega
          have hheld : solDestHeld r.actions = true := by
            obtain ⟨a, q1, q2⟩ := held_of hd
            exact List.any_eq_true.mpr ⟨a, q1, by simp [q2]⟩
          exact o.solPaidCharged ht hheld (eitherSeg_first hd)

theorem paidTo_cons (dest : Key) (t : Key × Nat) (ts : List (Key × Nat)) :
    paidTo dest (t :: ts) = (if t.1 = dest then t.2 else 0) + paidTo dest ts := by
  unfold paidTo
  by_cases h : t.1 = dest
  · simp [h]
  · simp [h]

theorem sum_map_add {α : Type} (l : List α) (f g : α → Nat) : (l.map fun a => f a + g a).sum = (l.map f).sum + (l.map g).sum := by
  induction l with
  | nil => rfl
  | cons a l ih => simp only [List.map_cons, List.sum_cons, ih]; omega

theorem sum_map_zero {α : Type} (l : List α) : (l.map fun _ => 0).sum = 0 := by
  induction l with
  | nil => rfl
  | cons a l ih => simp only [List.map_cons, List.sum_cons, ih]

theorem sum_map_le {α : Type} {l : List α} {f g : α → Nat} (h : ∀ a ∈ l, f a ≤ g a) : (l.map f).sum ≤ (l.map g).sum := by
  induction l with
  | nil => exact Nat.le_refl _
  | cons a l ih =>
    simp only [List.map_cons, List.sum_cons]
    have := h a (by simp)
    have := ih fun b hb => h b (by simp [hb])
    omega

theorem sum_swap {α β : Type} (l : List α) (l' : List β) (f : α → β → Nat) :
    (l.map fun a => (l'.map fun b => f a b).sum).sum = (l'.map fun b => (l.map fun a => f a b).sum).sum := by
  induction l with
  | nil => simp only [List.map_nil, List.sum_nil]; exact (sum_map_zero l').symm
  | cons a l ih => simp only [List.map_cons, List.sum_cons, ih]; exact (sum_map_add l' _ _).symm

/-- All transfers, sorted by destination. -/
theorem sum_paidTo {dests : List Key} {ts : List (Key × Nat)} (h : ∀ t ∈ ts, t.1 ∈ dests) :
    (ts.map Prod.snd).sum ≤ (dests.map fun dest => paidTo dest ts).sum := by
  induction ts with
  | nil => exact Nat.zero_le _
  | cons t ts ih =>
    have := ih fun t' ht => h t' (by simp [ht])
    simp only [paidTo_cons, List.map_cons, List.sum_cons]
    rw [sum_map_add]
    have : t.2 ≤ (dests.map fun dest => if t.1 = dest then t.2 else 0).sum :=
      le_sum_of_mem (List.mem_map.mpr ⟨t.1, h t (by simp), by simp⟩)
    omega

/-- A role with destination limits: every lamport that its signings take out of the wallet is paid to one of the destinations `dests` for which
it has a limit now. -/
theorem C74_sol_destinations_cover (ho : Open m k w) (hr : w.role? id = some r) (hres : Restricted r) {dests : List Key}
    (hd : ∃ dest, (r.limit? P.solDestinationLimit dest).isSome ∨ (r.limit? P.solRecurringDestinationLimit dest).isSome)
    (hall : ∀ dest, (r.limit? P.solDestinationLimit dest).isSome ∨ (r.limit? P.solRecurringDestinationLimit dest).isSome → dest ∈ dests)
    (h : Spending k id m es m') : ∀ e ∈ es, e.lamportsLost ≤ (dests.map e.solPaid).sum := by
  have some : ∀ ty key as as', (ty ≠ P.subAccount ∧ ty ≠ P.subAccountV2All) → limitsOf as' = limitsOf as → payload? as' ty key = payload? as ty key := by
    intro ty key as as' ht he
    rw [← payload?_limits ht.1 ht.2, he, payload?_limits ht.1 ht.2]
  refine h.induct (fun as es => (∃ dest, (payload? as P.solDestinationLimit dest).isSome ∨ (payload? as P.solRecurringDestinationLimit dest).isSome) →
    (∀ dest, (payload? as P.solDestinationLimit dest).isSome ∨ (payload? as P.solRecurringDestinationLimit dest).isSome → dest ∈ dests) →
    ∀ e ∈ es, e.lamportsLost ≤ (dests.map e.solPaid).sum) ?_ ?_ ?_ ho hr hres hd hall
  · intro as _ _ e he; cases he
  · intro as as' es he hI h1 h2
    simp only [← some _ _ _ _ (⟨by decide, by decide⟩ : P.solDestinationLimit ≠ P.subAccount ∧ _) he,
      ← some _ _ _ _ (⟨by decide, by decide⟩ : P.solRecurringDestinationLimit ≠ P.subAccount ∧ _) he] at h1 h2
    exact hI h1 h2
  · intro e es w w' r r' hb ho hr hres ho' hr' hch hI h1 h2 x hx
    rcases List.mem_cons.mp hx with rfl | hx
    · by_cases hlost : x.lamportsLost = 0
      · rw [hlost]; exact Nat.zero_le _
      · have hheld : ∃ a ∈ r.actions, a.ty = P.solDestinationLimit ∨ a.ty = P.solRecurringDestinationLimit := by
          obtain ⟨dest, q | q⟩ := h1
          · obtain ⟨d, q⟩ := Option.isSome_iff_exists.mp q
            obtain ⟨a, p1, p2⟩ := held_of q
            exact ⟨a, p1, .inl p2⟩
          · obtain ⟨d, q⟩ := Option.isSome_iff_exists.mp q
            obtain ⟨a, p1, p2⟩ := held_of q
            exact ⟨a, p1, .inr p2⟩
        obtain ⟨ixs, m1, g1, g2 | ⟨w2, r2, ts, g2, g3, g4, g5⟩⟩ := C56_destinations (hb.restricted ho hr hres) hheld
          (by unfold Signing.lamportsLost at hlost; omega)
        · exact (hb.noClash ho g1 g2).elim
        · have hts : x.transfers = ts := by unfold Signing.transfers; rw [Signing.asked_eq g1]; exact g3.symm
          have : (dests.map x.solPaid) = dests.map fun dest => paidTo dest ts := by
            refine List.map_congr_left fun dest _ => ?_
            unfold Signing.solPaid
            rw [if_neg hlost, hts]
          rw [this]
          refine Nat.le_trans g4 (sum_paidTo fun t ht => h2 _ ?_)
          rcases g5 t ht with ⟨d, d', cs, q, _⟩ | ⟨d, d', q, _⟩
          · exact .inr (by rw [show payload? r.actions _ _ = _ from q]; rfl)
          · exact .inl (by rw [show payload? r.actions _ _ = _ from q]; rfl)
    · have keep := payload?_charged hch
      simp only [← keep] at h1 h2
      exact hI h1 h2 x hx

/-- Altogether: a role whose destination limits are `dests` (destination, record of the fixed limit) takes at most the sum of these limits out
of the wallet. -/
theorem C74_sol_destinations_total (ho : Open m k w) (hr : w.role? id = some r) (hres : Restricted r) {dests : List (Key × Bytes)} (hne : dests ≠ [])
    (hn : ∀ dest, r.limit? P.solRecurringDestinationLimit dest = none)
    (hall : ∀ dest d, r.limit? P.solDestinationLimit dest = some d ↔ (dest, d) ∈ dests)
    (h : Spending k id m es m') : (es.map Signing.lamportsLost).sum ≤ (dests.map fun x => rd x.2 32 8).sum := by
  have c := C74_sol_destinations_cover ho hr hres (dests := dests.map Prod.fst) ?_ ?_ h
  · refine Nat.le_trans (sum_map_le (g := fun e => ((dests.map Prod.fst).map e.solPaid).sum) c) ?_
    rw [sum_swap, List.map_map]
    exact sum_map_le fun x hx => C74_sol_destination ho hr hres (hn _) ((hall x.1 x.2).mpr hx) h
  · obtain ⟨x, hx⟩ := List.exists_mem_of_ne_nil _ hne
    exact ⟨x.1, .inl (by rw [(hall x.1 x.2).mpr hx]; rfl)⟩
  · intro dest hd
    rw [hn] at hd
    rcases hd with hd | hd
    · obtain ⟨d, hd⟩ := Option.isSome_iff_exists.mp hd
      exact List.mem_map.mpr ⟨(dest, d), (hall dest d).mp hd, rfl⟩
    · cases hd

/-! ## Token destination limits -/

theorem tokenHeld_of {as : List Act} {ty : Nat} {mint dest d : Bytes} (ht : ty = P.tokenDestinationLimit ∨ ty = P.tokenRecurringDestinationLimit)
    (hm : mint.length = 32) (h : payload? as ty (mint ++ dest) = some d) : tokenDestHeld mint as = true := by
  unfold payload? at h
  obtain ⟨act, f1, f2⟩ := Option.map_eq_some_iff.mp h
  have f3 := List.find?_some f1
  have f3 := of_decide_eq_true f3
  refine List.any_eq_true.mpr ⟨act, List.mem_of_find?_eq_some f1, ?_⟩
  have f4 : act.data.take 64 = mint ++ dest := by
    rcases ht with rfl | rfl
    · exact f3.2 rfl
    · exact f3.2 rfl
  have f5 : act.data.take 32 = mint := by
    have := congrArg (List.take 32) f4
    rw [List.take_take, List.take_left' hm] at this
    exact this
  have f6 : act.ty = P.tokenDestinationLimit ∨ act.ty = P.tokenRecurringDestinationLimit := by rw [f3.1]; exact ht
  simp [f5, f6]

/-- A role with a fixed limit for a mint and a destination (and no recurring one): all its signings together pay at most the amount the limit
states now from the wallet's token accounts of the mint to that destination, or two versions of a token account collide. -/
theorem C74_token_destination (ho : Open m k w) (hr : w.role? id = some r) (hres : Restricted r) {mint : Bytes} {dest : Key} {d : Bytes}
    (hm : mint.length = 32) (hn : r.limit? P.tokenRecurringDestinationLimit (mint ++ dest) = none)
    (hl : r.limit? P.tokenDestinationLimit (mint ++ dest) = some d)
    (h : Spending k id m es m') : (∃ e ∈ es, e.TokenCollision) ∨ (es.map (Signing.tokensPaid · mint dest)).sum ≤ rd d 64 8 := by
  refine h.fixed (ty := P.tokenDestinationLimit) (key := mint ++ dest) (by decide) (by decide) (amt := fun d => rd d 64 8)
    (f := (Signing.tokensPaid · mint dest)) (X := Signing.TokenCollision) (G := fun _ => True) (F := fun _ => True)
    (Lasting.none (ty := P.tokenRecurringDestinationLimit) (key := mint ++ dest) (by decide) (by decide)) ?_ ho hr hres hn (fun _ _ => trivial) trivial hl
  intro e w r d hb ho hr hres hc _ _ hd
  have hR := hb.restricted ho hr hres
  obtain ⟨ixs, m1, h1, h2 | ⟨x, cls, hs, total, acc, as', o⟩⟩ := hR.out
  · exact (hb.noClash ho h1 h2).elim
  · obtain ⟨d', e1, e2⟩ := (o.plays.payload hR.acts).2.2 _ _ _ hd
    have e3 := chargeList_tokenDest (payload?_len hR.acts hd (n := 72) rfl) e2
    rcases o.tokensPaidCharged hR.runtime.mem (hR.typed1 h1) (tokenHeld_of (.inl rfl) hm hd) (eitherSeg_second hc hd) with g | g
    · exact .inl ⟨w, ixs, m1, by rw [hb.config]; exact ho, h1, g⟩
    · refine .inr ⟨_, _, d', o.stored, e1, trivial, by omega, ?_⟩
      unfold Signing.tokensPaid
      rw [Signing.asked_eq h1]
      omega

/-- The same for a recurring limit (amount, window, last reset, remaining amount), per interval of slots. -/
theorem C74_token_recurring_destination (ho : Open m k w) (hr : w.role? id = some r) (hres : Restricted r) {mint : Bytes} {dest : Key} {d : Bytes}
    (hm : mint.length = 32) (hl : r.limit? P.tokenRecurringDestinationLimit (mint ++ dest) = some d) {s t : Nat} (ht : t < 2 ^ 64)
    (hst : ∀ e ∈ es, s ≤ e.env.slot ∧ e.env.slot ≤ t) (hord : es.Pairwise fun a b => a.env.slot ≤ b.env.slot)
    (h : Spending k id m es m') : (∃ e ∈ es, e.TokenCollision) ∨
      (es.map (Signing.tokensPaid · mint dest)).sum ≤ rd d 88 8 + rd d 64 8 * (1 + (t - s) / (rd d 72 8 + 1)) := by
  have key := h.charges (ty := P.tokenRecurringDestinationLimit) (key := mint ++ dest) (by decide) (by decide)
    (charge := TokenRecurringDestinationLimit.charge) (of := TokenRecurringDestinationLimit.of) (f := (Signing.tokensPaid · mint dest))
    (X := Signing.TokenCollision) (G := fun _ => True) (F := fun _ => True) Lasting.trivial ?_ ho hr hres trivial (fun _ _ => trivial) trivial hl
  · rcases key with g | ⟨cs, h1, h2, hp, h3⟩
    · exact .inl g
    · right
      have := C20_token_interval (.of d) s t ht cs (fun c hc => by obtain ⟨e, he, hs⟩ := h2 c hc; rw [hs]; exact hst e he) (hp hord)
      rw [h1] at this
      simp only [TokenRecurringDestinationLimit.of] at this
      omega
  · intro e w r d hb ho hr hres hc _ _ hd
    have hR := hb.restricted ho hr hres
    obtain ⟨ixs, m1, h1, h2 | ⟨x, cls, hs, total, acc, as', o⟩⟩ := hR.out
    · exact (hb.noClash ho h1 h2).elim
    · obtain ⟨d', e1, e2⟩ := (o.plays.payload hR.acts).2.2 _ _ _ hd
      have e3 := chargeList_tokenRecDest hR.runtime.slot (payload?_len hR.acts hd (n := 96) rfl) e2
      rcases o.tokensPaidCharged hR.runtime.mem (hR.typed1 h1) (tokenHeld_of (.inr rfl) hm hd) (eitherSeg_first hd) with g | g
      · exact .inl ⟨w, ixs, m1, by rw [hb.config]; exact ho, h1, g⟩
      · refine .inr ⟨_, _, d', _, o.stored, e1, trivial, e3, ?_, ?_⟩
        · intro c hc
          obtain ⟨n, _, rfl⟩ := List.mem_map.mp hc
          rfl
        · rw [total_map]
          unfold Signing.tokensPaid
          rw [Signing.asked_eq h1]
          exact g

/-! ## Program scopes -/

/-- What C66 says of one signing, with the shape of the scope afterwards. -/
theorem Signing.By.scope {e : Signing} (hb : e.By k id) {w : Wallet} {r : Role} (ho : Open e.before k w) (hr : w.role? id = some r)
    (hres : Restricted r) {target : Key} {d : Bytes} (hu : e.ScopeUsed k id target) (hl : r.limit? P.programScope target = some d) (hf : HasField d)
    (ht : rd d 112 8 = 1 ∨ rd d 112 8 = 2) : ∃ w' r' d' cs, StoredAs e.after e.swig e.ix w' r' ∧ r'.limit? P.programScope target = some d' ∧
      (rd d' 16 16 = rd d 16 16 ∧ rd d' 32 8 = rd d 32 8 ∧ rd d' 112 8 = rd d 112 8 ∧ rd d' 128 8 = rd d 128 8 ∧ rd d' 136 8 = rd d 136 8) ∧
      play ProgramScope.charge (.decode d) cs = (.decode d', cs) ∧ (∀ c ∈ cs, c.slot = e.env.slot) ∧ e.scopeLost target d ≤ Charge.total cs := by
  have hR := hb.restricted ho hr hres
  obtain ⟨ixs, m1, h1, h2 | ⟨x, cls, hs, total, acc, as', o⟩⟩ := hR.out
  · exact (hb.noClash ho h1 h2).elim
  · obtain ⟨d', e1, e2⟩ := (o.plays.payload hR.acts).2.2 _ _ _ hl
    have e3 := chargeList_scope hR.runtime.slot (payload?_len hR.acts hl (n := 144) rfl) e2
    have kp := ProgramScope.play_keeps (.decode d) ((amounts ((if total = 0 then [] else solSeg x r.actions total) ++
      acc.flatMap fun e => segOf x m1 r.actions e.1 e.2) P.programScope target).map fun n => ⟨n, e.env.slot⟩)
    rw [e3] at kp
    refine ⟨_, _, d', _, o.stored, e1, ⟨kp.1, kp.2.1, kp.2.2.1, kp.2.2.2.2.1, kp.2.2.2.2.2⟩, e3, ?_, ?_⟩
    · intro c hc
      obtain ⟨n, _, rfl⟩ := List.mem_map.mp hc
      rfl
    · rw [total_map]
      unfold Signing.scopeLost
      split
      · rename_i hex
        obtain ⟨a, ha, rfl, hwr⟩ := hex
        have hid : r.id = id := (role?_mem hr).2
        exact o.scopeCharged hR.wf hR.stored (role?_mem hr).1 (fun a ha => hR.runtime.keys a (by simp [ha])) ha hwr hu.1 hl hf (by omega)
          (fun r' hr' hlt => hu.2 w ho r' hr' (by omega))
      · exact Nat.zero_le _

theorem Signing.scopeLost_congr (e : Signing) (target : Key) {d d' : Bytes} (h1 : rd d' 128 8 = rd d 128 8) (h2 : rd d' 136 8 = rd d 136 8) :
    e.scopeLost target d' = e.scopeLost target d := by
  unfold Signing.scopeLost fieldOf
  rw [h1, h2]

/-- A role with a scope with a total limit: all its signings together take at most what is left of the limit out of the balance that the scope
names. -/
theorem C74_scope_limit (ho : Open m k w) (hr : w.role? id = some r) (hres : Restricted r) {target : Key} {d : Bytes}
    (hl : r.limit? P.programScope target = some d) (hf : HasField d) (ht : rd d 112 8 = 1) (hmax : rd d 16 16 < 2 ^ 128 - 1)
    (hused : rd d 0 16 ≤ rd d 16 16) (hu : ∀ e ∈ es, e.ScopeUsed k id target) (h : Spending k id m es m') :
    (es.map (Signing.scopeLost · target d)).sum ≤ rd d 16 16 - rd d 0 16 := by
  have key := h.charges (ty := P.programScope) (key := target) (by decide) (by decide) (charge := ProgramScope.charge) (of := ProgramScope.decode)
    (f := (Signing.scopeLost · target d)) (X := fun _ => False) (G := fun e => e.ScopeUsed k id target)
    (F := fun d' => rd d' 112 8 = 1 ∧ rd d' 128 8 = rd d 128 8 ∧ rd d' 136 8 = rd d 136 8) Lasting.trivial ?_ ho hr hres trivial hu
    ⟨ht, rfl, rfl⟩ hl
  · rcases key with ⟨_, _, h⟩ | ⟨cs, h1, h2, _, h3⟩
    · exact h.elim
    · have := (C22_limit_total (.decode d) (by show rd d 112 8 % 256 = 1; omega) hmax hused cs).2
      rw [h1] at this
      change rd d 0 16 + Charge.total cs ≤ rd d 16 16 at this
      omega
  · rintro e w r d1 hb ho hr hres _ hg ⟨f1, f2, f3⟩ hd
    have hf1 : HasField d1 := by unfold HasField at *; omega
    obtain ⟨w', r', d', cs, g1, g2, ⟨_, _, g3, g4, g5⟩, g6, g7, g8⟩ := hb.scope ho hr hres hg hd hf1 (.inl f1)
    rw [e.scopeLost_congr target f2 f3] at g8
    exact .inr ⟨w', r', d', cs, g1, g2, ⟨g3.trans f1, g4.trans f2, g5.trans f3⟩, g6, g7, g8⟩

/-- A recurring scope: the signings of the slots `s` to `t` take at most what is left plus one full amount for each aligned window the interval
touches. -/
theorem C74_scope_recurring (ho : Open m k w) (hr : w.role? id = some r) (hres : Restricted r) {target : Key} {d : Bytes}
    (hl : r.limit? P.programScope target = some d) (hf : HasField d) (ht : rd d 112 8 = 2) (hmax : rd d 16 16 < 2 ^ 128 - 1)
    (hW : 0 < rd d 32 8) {s t : Nat} (hst : ∀ e ∈ es, s ≤ e.env.slot ∧ e.env.slot ≤ t) (hu : ∀ e ∈ es, e.ScopeUsed k id target)
    (h : Spending k id m es m') :
    (es.map (Signing.scopeLost · target d)).sum ≤ (rd d 16 16 - rd d 0 16) + rd d 16 16 * (1 + (t / rd d 32 8 - s / rd d 32 8)) := by
  have key := h.charges (ty := P.programScope) (key := target) (by decide) (by decide) (charge := ProgramScope.charge) (of := ProgramScope.decode)
    (f := (Signing.scopeLost · target d)) (X := fun _ => False) (G := fun e => e.ScopeUsed k id target)
    (F := fun d' => rd d' 112 8 = 2 ∧ rd d' 128 8 = rd d 128 8 ∧ rd d' 136 8 = rd d 136 8) Lasting.trivial ?_ ho hr hres trivial hu
    ⟨ht, rfl, rfl⟩ hl
  · rcases key with ⟨_, _, h⟩ | ⟨cs, h1, h2, _, h3⟩
    · exact h.elim
    · have := C22_recurring_interval (.decode d) (by show rd d 112 8 % 256 = 2; omega) hmax hW s t cs
        (fun c hc => by obtain ⟨e, he, hs⟩ := h2 c hc; rw [hs]; exact hst e he)
      rw [h1] at this
      exact Nat.le_trans h3 this
  · rintro e w r d1 hb ho hr hres _ hg ⟨f1, f2, f3⟩ hd
    have hf1 : HasField d1 := by unfold HasField at *; omega
    obtain ⟨w', r', d', cs, g1, g2, ⟨_, _, g3, g4, g5⟩, g6, g7, g8⟩ := hb.scope ho hr hres hg hd hf1 (.inr f1)
    rw [e.scopeLost_congr target f2 f3] at g8
    exact .inr ⟨w', r', d', cs, g1, g2, ⟨g3.trans f1, g4.trans f2, g5.trans f3⟩, g6, g7, g8⟩

end

/-! ## Worked cases -/

namespace Sample

/-- What two signings of 300 lamports and of 70 tokens leave of the destination limits 500 and 90. -/
def acts3' : List Act := [⟨P.solDestinationLimit, K 40 ++ natLE 8 200⟩, ⟨P.tokenDestinationLimit, K 50 ++ K 31 ++ natLE 8 20⟩, ⟨P.programAll, []⟩]

/-- The hypotheses of C74_sol_destination, C74_sol_destinations_total and C74_token_destination hold: together 500 lamports to `K 40` and 90
tokens of the mint `K 50` to `K 31`. -/
example : ∃ m1 m2, Open (signMem acts3) (K 1) (signWallet acts3) ∧ Spending (K 1) 1 (signMem acts3)
      [⟨signEnv, demoCpi, signMem acts3, m1, signSwig, signAddr, signRest, signIx [paySol 100, paySol 200, payToken 70]⟩,
        ⟨signEnv, demoCpi, signMem acts3', m2, signSwig, signAddr, signRest, signIx [payToken 20, paySol 200]⟩] m2 ∧
    (Signing.solPaid ⟨signEnv, demoCpi, signMem acts3, m1, signSwig, signAddr, signRest, signIx [paySol 100, paySol 200, payToken 70]⟩ (K 40) = 300 ∧
      Signing.solPaid ⟨signEnv, demoCpi, signMem acts3', m2, signSwig, signAddr, signRest, signIx [payToken 20, paySol 200]⟩ (K 40) = 200 ∧
      Signing.tokensPaid ⟨signEnv, demoCpi, signMem acts3, m1, signSwig, signAddr, signRest, signIx [paySol 100, paySol 200, payToken 70]⟩ (K 50) (K 31) = 70 ∧
      Signing.tokensPaid ⟨signEnv, demoCpi, signMem acts3', m2, signSwig, signAddr, signRest, signIx [payToken 20, paySol 200]⟩ (K 50) (K 31) = 20) :=
  spending2 (acts' := acts3') (fun m1 m2 =>
    Signing.solPaid ⟨signEnv, demoCpi, signMem acts3, m1, signSwig, signAddr, signRest, signIx [paySol 100, paySol 200, payToken 70]⟩ (K 40) = 300 ∧
      Signing.solPaid ⟨signEnv, demoCpi, signMem acts3', m2, signSwig, signAddr, signRest, signIx [payToken 20, paySol 200]⟩ (K 40) = 200 ∧
      Signing.tokensPaid ⟨signEnv, demoCpi, signMem acts3, m1, signSwig, signAddr, signRest, signIx [paySol 100, paySol 200, payToken 70]⟩ (K 50) (K 31) = 70 ∧
      Signing.tokensPaid ⟨signEnv, demoCpi, signMem acts3', m2, signSwig, signAddr, signRest, signIx [payToken 20, paySol 200]⟩ (K 50) (K 31) = 20)
    (by decide +kernel) (by decide +kernel)

example : (signWallet acts3).role? 1 = some ⟨1, 1, K 11, acts3⟩ ∧ Restricted ⟨1, 1, K 11, acts3⟩ ∧
    Role.limit? ⟨1, 1, K 11, acts3⟩ P.solDestinationLimit (K 40) = some (K 40 ++ natLE 8 500) ∧
    (∀ dest, Role.limit? ⟨1, 1, K 11, acts3⟩ P.solRecurringDestinationLimit dest = none) ∧
    Role.limit? ⟨1, 1, K 11, acts3⟩ P.tokenDestinationLimit (K 50 ++ K 31) = some (K 50 ++ K 31 ++ natLE 8 90) ∧
    Role.limit? ⟨1, 1, K 11, acts3⟩ P.tokenRecurringDestinationLimit (K 50 ++ K 31) = none :=
  ⟨rfl, by decide, by decide, fun _ => rfl, by decide, by decide⟩

/-- The only destination of the role is `K 40`. -/
example (dest d : Bytes) : Role.limit? ⟨1, 1, K 11, acts3⟩ P.solDestinationLimit dest = some d ↔ (dest, d) ∈ [(K 40, K 40 ++ natLE 8 500)] := by
  have e : Role.limit? ⟨1, 1, K 11, acts3⟩ P.solDestinationLimit dest = if K 40 = dest then some (K 40 ++ natLE 8 500) else none := by
    by_cases h : K 40 = dest
    · subst h; rw [if_pos rfl]; decide
    · rw [if_neg h]
      unfold Role.limit? payload?
      rw [List.find?_eq_none.mpr ?_]; rfl
      intro a ha hg
      have hg := of_decide_eq_true hg
      have hty := hg.1
      simp only [acts3, List.mem_cons, List.not_mem_nil, or_false] at ha
      rcases ha with rfl | rfl | rfl
      · exact h (hg.2 rfl)
      · cases hty
      · cases hty
  rw [e]
  by_cases h : K 40 = dest
  · subst h
    rw [if_pos rfl]
    constructor
    · intro h; cases h; simp
    · intro h; simp at h; rw [h]
  · rw [if_neg h]
    constructor
    · intro h; cases h
    · intro g; simp at g; exact absurd g.1.symm h

/-- Recurring destination limits: 500 lamports and 90 tokens per 10 slots, 300 lamports and 70 tokens left. -/
def destActs : List Act := [⟨P.solRecurringDestinationLimit, K 40 ++ natLE 8 500 ++ natLE 8 10 ++ natLE 8 95 ++ natLE 8 300⟩,
  ⟨P.tokenRecurringDestinationLimit, K 50 ++ K 31 ++ natLE 8 90 ++ natLE 8 10 ++ natLE 8 95 ++ natLE 8 70⟩, ⟨P.programAll, []⟩]

def destActs' : List Act := [⟨P.solRecurringDestinationLimit, K 40 ++ natLE 8 500 ++ natLE 8 10 ++ natLE 8 95 ++ natLE 8 100⟩,
  ⟨P.tokenRecurringDestinationLimit, K 50 ++ K 31 ++ natLE 8 90 ++ natLE 8 10 ++ natLE 8 95 ++ natLE 8 30⟩, ⟨P.programAll, []⟩]

/-- The hypotheses of C74_sol_recurring_destination and C74_token_recurring_destination hold (and that of C74_sol_destinations_cover). -/
example : ∃ m1 m2, Open (signMem destActs) (K 1) (signWallet destActs) ∧ Spending (K 1) 1 (signMem destActs)
      [⟨signEnv, demoCpi, signMem destActs, m1, signSwig, signAddr, signRest, signIx [paySol 200, payToken 40]⟩,
        ⟨signEnv, demoCpi, signMem destActs', m2, signSwig, signAddr, signRest, signIx [payToken 30, paySol 100]⟩] m2 ∧
    (Signing.solPaid ⟨signEnv, demoCpi, signMem destActs, m1, signSwig, signAddr, signRest, signIx [paySol 200, payToken 40]⟩ (K 40) = 200 ∧
      Signing.tokensPaid ⟨signEnv, demoCpi, signMem destActs', m2, signSwig, signAddr, signRest, signIx [payToken 30, paySol 100]⟩ (K 50) (K 31) = 30) :=
  spending2 (acts' := destActs') (fun m1 m2 =>
    Signing.solPaid ⟨signEnv, demoCpi, signMem destActs, m1, signSwig, signAddr, signRest, signIx [paySol 200, payToken 40]⟩ (K 40) = 200 ∧
      Signing.tokensPaid ⟨signEnv, demoCpi, signMem destActs', m2, signSwig, signAddr, signRest, signIx [payToken 30, paySol 100]⟩ (K 50) (K 31) = 30)
    (by decide +kernel) (by decide +kernel)

example : (signWallet destActs).role? 1 = some ⟨1, 1, K 11, destActs⟩ ∧ Restricted ⟨1, 1, K 11, destActs⟩ ∧
    (Role.limit? ⟨1, 1, K 11, destActs⟩ P.solRecurringDestinationLimit (K 40)).isSome = true ∧
    (Role.limit? ⟨1, 1, K 11, destActs⟩ P.tokenRecurringDestinationLimit (K 50 ++ K 31)).isSome = true ∧ signEnv.slot = 100 :=
  ⟨rfl, by decide, by decide, by decide, rfl⟩

/-- Two signings with one more account, the second with the limits as the first left them. -/
theorem spendingMore2 {acts acts' : List Act} {a a' : Acct} {i1 i2 : List Bytes} (p : Mem → Mem → Prop) [∀ a b, Decidable (p a b)]
    (hd : decide ((signWallet acts).WF ∧ (signWallet acts').WF ∧ (rd (signIx i1) 0 2 = 11 ∧ rd (signIx i1) 4 4 = 1) ∧
      (rd (signIx i2) 0 2 = 11 ∧ rd (signIx i2) 4 4 = 1) ∧ (a.owner.length = 32 ∧ a.lamports < 2 ^ 64) ∧ a'.owner.length = 32 ∧ a'.lamports < 2 ^ 64) = true)
    (k1 : (match process signEnv moreCpi (moreMem (signWallet acts) a) (signSwig :: signAddr :: moreRest) (signIx i1) with
      | .ok m1 => (match process signEnv moreCpi (moreMem (signWallet acts') a') (signSwig :: signAddr :: moreRest) (signIx i2) with
        | .ok m2 => decide ((m1 (K 1)).data = (signWallet acts').encode ∧ (m1 (K 1)).owner = swigId ∧ p m1 m2) | _ => false) | _ => false) = true) :
    ∃ m1 m2, Open (moreMem (signWallet acts) a) (K 1) (signWallet acts) ∧ Spending (K 1) 1 (moreMem (signWallet acts) a)
      [⟨signEnv, moreCpi, moreMem (signWallet acts) a, m1, signSwig, signAddr, moreRest, signIx i1⟩,
        ⟨signEnv, moreCpi, moreMem (signWallet acts') a', m2, signSwig, signAddr, moreRest, signIx i2⟩] m2 ∧ p m1 m2 := by
  obtain ⟨d1, d2, d3, d4, d5, d6⟩ := of_decide_eq_true hd
  have op : ∀ (acts : List Act) (a : Acct), (signWallet acts).WF → Open (moreMem (signWallet acts) a) (K 1) (signWallet acts) := fun acts a h => ⟨rfl, h, rfl⟩
  have fn : ∀ (acts : List Act) (a : Acct) (ix : Bytes), (signWallet acts).WF → (a.owner.length = 32 ∧ a.lamports < 2 ^ 64) →
      Fine signEnv moreCpi (moreMem (signWallet acts) a) (signSwig :: signAddr :: moreRest) ix := by
    intro acts a ix hw ha
    refine ⟨?_, ?_, ?_⟩
    · intro s r es
      cases es
      exact ⟨moreMem_typed _ _ ha, moreCpi_typed, by decide, by decide, fun h => by cases h⟩
    · intro s r w' es ho'
      cases es
      rw [ho'.unique (op acts a hw)]
      exact ⟨show 2 + 1 < 2 ^ 16 by decide, show 2 + 1 < 2 ^ 32 by decide⟩
    · intro s wl r w' ixs m1 es _ _ _ h
      exact h.1 h.2
  have by1 : ∀ (acts : List Act) (a : Acct) (i : List Bytes) (m' : Mem), (signWallet acts).WF → (a.owner.length = 32 ∧ a.lamports < 2 ^ 64) →
      (rd (signIx i) 0 2 = 11 ∧ rd (signIx i) 4 4 = 1) →
      process signEnv moreCpi (moreMem (signWallet acts) a) (signSwig :: signAddr :: moreRest) (signIx i) = .ok m' →
      Signing.By ⟨signEnv, moreCpi, moreMem (signWallet acts) a, m', signSwig, signAddr, moreRest, signIx i⟩ (K 1) 1 :=
    fun acts a i m' h1 h2 h3 h4 => ⟨rfl, h3.1, h3.2, fn acts a (signIx i) h1 h2, h4⟩
  have same : ∀ {m1 : Mem}, (m1 (K 1)).data = (signWallet acts').encode → (m1 (K 1)).owner = swigId →
      Between (K 1) 1 1 m1 (moreMem (signWallet acts') a') := fun {m1} q1 q2 =>
    .outside (show (signWallet acts').encode = _ from q1.symm) (show swigId = _ from q2.symm)
  split at k1
  · rename_i m1 h1
    split at k1
    · rename_i m2 h2
      obtain ⟨g1, g2, g3⟩ := of_decide_eq_true k1
      exact ⟨m1, m2, op _ _ d1, .sign (by1 _ _ _ _ d1 d5 d3 h1) (.other (same g1 g2) (.sign (by1 _ _ _ _ d2 d6 d4 h2) (.nil _))), g3⟩
    · cases k1
  · cases k1

/-- The hypotheses of C74_stake_limit hold: 500 and 100 lamports withdrawn, together the whole limit. -/
example : ∃ m1 m2, Open (moreMem (signWallet stakeActs) stakeAcct) (K 1) (signWallet stakeActs) ∧
    Spending (K 1) 1 (moreMem (signWallet stakeActs) stakeAcct)
      [⟨signEnv, moreCpi, moreMem (signWallet stakeActs) stakeAcct, m1, signSwig, signAddr, moreRest, signIx [withdrawStake 500]⟩,
        ⟨signEnv, moreCpi, moreMem (signWallet [⟨P.stakeLimit, natLE 8 100⟩, ⟨P.programAll, []⟩]) stakeAcct, m2, signSwig, signAddr, moreRest,
          signIx [withdrawStake 100]⟩] m2 ∧
    (stakeMoves (moreMem (signWallet stakeActs) stakeAcct) m1 (K 2) moreRest = 500 ∧
      (∀ a ∈ moreRest, WalletStake (moreMem (signWallet stakeActs) stakeAcct) (K 2) a → (m1 a.key).data.length = 200) ∧
      stakeMoves (moreMem (signWallet [⟨P.stakeLimit, natLE 8 100⟩, ⟨P.programAll, []⟩]) stakeAcct) m2 (K 2) moreRest = 100) :=
  spendingMore2 (acts' := [⟨P.stakeLimit, natLE 8 100⟩, ⟨P.programAll, []⟩]) (a' := stakeAcct) (fun m1 m2 =>
    stakeMoves (moreMem (signWallet stakeActs) stakeAcct) m1 (K 2) moreRest = 500 ∧
      (∀ a ∈ moreRest, WalletStake (moreMem (signWallet stakeActs) stakeAcct) (K 2) a → (m1 a.key).data.length = 200) ∧
      stakeMoves (moreMem (signWallet [⟨P.stakeLimit, natLE 8 100⟩, ⟨P.programAll, []⟩]) stakeAcct) m2 (K 2) moreRest = 100)
    (by decide +kernel) (by decide +kernel)

/-- Recurring: 600 every 10 slots, last reset in slot 0. -/
example : ∃ m1 m2, Open (moreMem (signWallet stakeActs2) stakeAcct) (K 1) (signWallet stakeActs2) ∧
    Spending (K 1) 1 (moreMem (signWallet stakeActs2) stakeAcct)
      [⟨signEnv, moreCpi, moreMem (signWallet stakeActs2) stakeAcct, m1, signSwig, signAddr, moreRest, signIx [withdrawStake 500]⟩,
        ⟨signEnv, moreCpi, moreMem (signWallet [⟨P.stakeRecurringLimit, natLE 8 600 ++ natLE 8 10 ++ natLE 8 100 ++ natLE 8 100⟩, ⟨P.programAll, []⟩])
          stakeAcct, m2, signSwig, signAddr, moreRest, signIx [withdrawStake 100]⟩] m2 ∧
    stakeMoves (moreMem (signWallet stakeActs2) stakeAcct) m1 (K 2) moreRest = 500 :=
  spendingMore2 (acts' := [⟨P.stakeRecurringLimit, natLE 8 600 ++ natLE 8 10 ++ natLE 8 100 ++ natLE 8 100⟩, ⟨P.programAll, []⟩]) (a' := stakeAcct)
    (fun m1 _ => stakeMoves (moreMem (signWallet stakeActs2) stakeAcct) m1 (K 2) moreRest = 500) (by decide +kernel) (by decide +kernel)

example : (signWallet stakeActs).role? 1 = some ⟨1, 1, K 11, stakeActs⟩ ∧ Restricted ⟨1, 1, K 11, stakeActs⟩ ∧
    Role.limit? ⟨1, 1, K 11, stakeActs⟩ P.stakeAll [] = none ∧ Role.limit? ⟨1, 1, K 11, stakeActs⟩ P.stakeLimit [] = some (natLE 8 600) ∧
    Restricted ⟨1, 1, K 11, stakeActs2⟩ ∧ Role.limit? ⟨1, 1, K 11, stakeActs2⟩ P.stakeAll [] = none ∧
    Role.limit? ⟨1, 1, K 11, stakeActs2⟩ P.stakeLimit [] = none ∧
    ∃ d, Role.limit? ⟨1, 1, K 11, stakeActs2⟩ P.stakeRecurringLimit [] = some d ∧ 0 < rd d 8 8 :=
  ⟨rfl, by decide, by decide, by decide, by decide, by decide, by decide, _, rfl, by decide⟩

/-- The hypotheses of C74_scope_limit hold: a scope with limit 100 of which 30 are used; 60 and then 10 are paid out. -/
example : ∃ m1 m2, Open (moreMem (signWallet scopeActs) vault) (K 1) (signWallet scopeActs) ∧ Spending (K 1) 1 (moreMem (signWallet scopeActs) vault)
      [⟨signEnv, moreCpi, moreMem (signWallet scopeActs) vault, m1, signSwig, signAddr, moreRest, signIx [payOut 60]⟩,
        ⟨signEnv, moreCpi, moreMem (signWallet [⟨P.programAll, []⟩, ⟨P.programScope, scope 90 100 1 0 8⟩]) vault, m2, signSwig, signAddr, moreRest,
          signIx [payOut 10]⟩] m2 ∧
    (Signing.scopeLost ⟨signEnv, moreCpi, moreMem (signWallet scopeActs) vault, m1, signSwig, signAddr, moreRest, signIx [payOut 60]⟩ (K 80)
        (scope 30 100 1 0 8) = 60 ∧
      Signing.scopeLost ⟨signEnv, moreCpi, moreMem (signWallet [⟨P.programAll, []⟩, ⟨P.programScope, scope 90 100 1 0 8⟩]) vault, m2, signSwig, signAddr,
        moreRest, signIx [payOut 10]⟩ (K 80) (scope 30 100 1 0 8) = 10) :=
  spendingMore2 (acts' := [⟨P.programAll, []⟩, ⟨P.programScope, scope 90 100 1 0 8⟩]) (a' := vault) (fun m1 m2 =>
    Signing.scopeLost ⟨signEnv, moreCpi, moreMem (signWallet scopeActs) vault, m1, signSwig, signAddr, moreRest, signIx [payOut 60]⟩ (K 80)
        (scope 30 100 1 0 8) = 60 ∧
      Signing.scopeLost ⟨signEnv, moreCpi, moreMem (signWallet [⟨P.programAll, []⟩, ⟨P.programScope, scope 90 100 1 0 8⟩]) vault, m2, signSwig, signAddr,
        moreRest, signIx [payOut 10]⟩ (K 80) (scope 30 100 1 0 8) = 10) (by decide +kernel) (by decide +kernel)

/-- No role before role 1 has a scope for the account `K 80`, which belongs to the program `K 60`. -/
theorem vault_used (m' : Mem) (ix : Bytes) (acts : List Act) (hw : (signWallet acts).WF) (h0 : payload? ((signWallet acts).roles.head?.map Role.actions |>.getD [])
    P.programScope (K 80) = none) : Signing.ScopeUsed ⟨signEnv, moreCpi, moreMem (signWallet acts) vault, m', signSwig, signAddr, moreRest, ix⟩ (K 1) 1 (K 80) := by
  refine ⟨(by decide : Ordinary vault), fun w ho r hr hlt => ?_⟩
  have e : w = signWallet acts := ho.unique (⟨rfl, hw, rfl⟩ : Open (moreMem (signWallet acts) vault) (K 1) (signWallet acts))
  rw [e] at hr
  simp only [signWallet, List.mem_cons, List.not_mem_nil, or_false] at hr
  rcases hr with rfl | rfl
  · exact h0
  · simp at hlt

example (m' : Mem) : Signing.ScopeUsed ⟨signEnv, moreCpi, moreMem (signWallet scopeActs) vault, m', signSwig, signAddr, moreRest, signIx [payOut 60]⟩
    (K 1) 1 (K 80) ∧ Restricted ⟨1, 1, K 11, scopeActs⟩ ∧ Role.limit? ⟨1, 1, K 11, scopeActs⟩ P.programScope (K 80) = some (scope 30 100 1 0 8) ∧
    rd (scope 30 100 1 0 8) 128 8 < rd (scope 30 100 1 0 8) 136 8 ∧
    rd (scope 30 100 1 0 8) 112 8 = 1 ∧ rd (scope 30 100 1 0 8) 16 16 = 100 ∧ rd (scope 30 100 1 0 8) 0 16 = 30 ∧
    Role.limit? ⟨1, 1, K 11, scopeActs2⟩ P.programScope (K 80) = some (scope 30 100 2 0 8) ∧ rd (scope 30 100 2 0 8) 112 8 = 2 ∧
    0 < rd (scope 30 100 2 0 8) 32 8 :=
  ⟨vault_used _ _ _ (by decide +kernel) (by decide), by decide, by decide, by decide, by decide, by decide, by decide, by decide, by decide, by decide⟩

end Sample

end Verif
