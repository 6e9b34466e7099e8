import Verif.Proofs.MemorySub
import Verif.Proofs.Scope

/-!
SignV2: no undefined access.
-/

namespace Verif

/-- A field that lies inside the account. -/
def ScopeIn (m : Mem) (k : Key) (s : Bytes) : Prop :=
  rd s 128 8 ≤ rd s 136 8 ∧ (rd s 128 8 < rd s 136 8 → rd s 136 8 ≤ (m k).data.length)

theorem wsub64_le {a b : Nat} (ha : a < 2 ^ 64) (hb : b ≤ a) : wsub64 a b = a - b := by
  unfold wsub64
  rw [Nat.mod_eq_of_lt (show b < 2 ^ 64 by omega)]
  omega

theorem readScopeBalance_safe {d s : Bytes} (h : rd s 128 8 ≤ rd s 136 8) : Safe (readScopeBalance d (ProgramScope.decode s)) := by
  have hlt : rd s 136 8 < 2 ^ 64 := rd_lt s 136 8
  unfold readScopeBalance
  refine .ite (fun _ => .ok _) fun _ => .ite (fun _ => .error (by decide)) fun h1 => ?_
  split
  · exact .error (by decide)
  · refine .ite (fun _ => .error (by decide)) fun h2 => .ite (fun _ => .ok _) fun h3 => ?_
    simp only [ProgramScope.decode] at h1 h2 h3
    rw [wsub64_le hlt h] at h2
    omega

theorem readAccountBalance_safe {d s : Bytes} (h : rd s 128 8 ≤ rd s 136 8) : Safe ((ProgramScope.decode s).readAccountBalance d) := by
  have hlt : rd s 136 8 < 2 ^ 64 := rd_lt s 136 8
  unfold ProgramScope.readAccountBalance
  refine .ite (fun _ => .ok _) fun _ => .ite (fun _ => .error (by decide)) fun h1 => ?_
  split
  · exact .error (by decide)
  · unfold readNumericField
    refine .ite (fun _ => .error (by decide)) fun h2 => .ite (fun _ => .ok _) fun h3 => ?_
    simp only [ProgramScope.decode] at h1 h2 h3
    rw [wsub64_le hlt h] at h2
    omega

/-- The scope a role has for an account. -/
theorem payload_scope {w : Wallet} {m : Mem} (hs : w.Sane m) {r : Role} (hr : r ∈ w.roles) {k s : Bytes}
    (h : payload? r.actions P.programScope k = some s) : ScopeIn m k s := by
  unfold payload? at h
  cases hf : r.actions.find? (fun a => a.grants P.programScope k) with
  | none => rw [hf] at h; cases h
  | some a =>
    rw [hf] at h
    cases h
    have g := List.find?_some hf
    have g := of_decide_eq_true g
    have hk : sl a.data 80 112 = k := g.2 rfl
    have := hs.scopes r hr a (List.mem_of_find?_eq_some hf) g.1
    rw [hk] at this
    exact this

theorem classify_safe {m : Mem} {prev : List Meta} {cls : List Class} {cache : Option (List (Nat × Bytes))} {a : Meta}
    (h : ∀ c e, cache = some c → findScope c a.key = some e → rd e.2 128 8 ≤ rd e.2 136 8) : Safe (classify m prev cls cache a) := by
  unfold classify
  dsimp only
  refine .ite (fun _ => by safe) fun _ => .ite (fun _ => .ok _) fun _ => .ite (fun _ => by safe) fun _ => .ite (fun _ => by safe) fun _ =>
    .ite (fun _ => .ok _) fun _ => ?_
  split
  · exact .ok _
  · split
    · exact .ok _
    · rename_i c _ role s hf
      exact .bind (readScopeBalance_safe (h c _ rfl hf)) fun _ _ => .ok _

theorem classifyGo_safe {m : Mem} {cache : Option (List (Nat × Bytes))}
    (h : ∀ (k : Key) c e, cache = some c → findScope c k = some e → rd e.2 128 8 ≤ rd e.2 136 8) :
    ∀ {rest prev : List Meta} {cls : List Class}, Safe (classifyGo m cache prev cls rest) := by
  intro rest
  induction rest with
  | nil => intro prev cls; exact .ok _
  | cons a rest ih => intro prev cls; exact .bind (classify_safe fun c e => h a.key c e) fun _ _ => ih

theorem classifyAll_safe {m : Mem} {metas : List Meta} (ho : ∀ a, metas.head? = some a → (m a.key).owner = swigId → Opened m a.key) :
    Safe (classifyAll m metas) := by
  cases metas with
  | nil => exact .error (by decide)
  | cons a rest =>
    refine .bind (classify_safe fun c e hc => by cases hc) fun _ _ => classifyGo_safe fun k c e hc hf => ?_
    unfold cacheOf at hc
    split at hc
    · rename_i hcfg
      unfold isConfig at hcfg
      simp only [Bool.and_eq_true, decide_eq_true_eq, beq_iff_eq] at hcfg
      obtain ⟨w, hw, hd, hs⟩ := (ho a rfl hcfg.1.1).wallet hcfg.2
      rw [hd] at hc
      rw [findScope_enc hw hc] at hf
      obtain ⟨id, _, hid⟩ := List.exists_of_findSome?_eq_some hf
      cases hr : w.role? id with
      | none => rw [hr] at hid; cases hid
      | some r =>
        rw [hr] at hid
        simp only [Option.bind_some] at hid
        cases hp : payload? r.actions P.programScope k with
        | none => rw [hp] at hid; cases hid
        | some d =>
          rw [hp] at hid
          cases hid
          exact (payload_scope hs (role?_mem hr).1 hp).1
    · cases hc

/-! ## Charges -/

theorem chargeSol_safe {n : Nat} {d : Bytes} : Safe (chargeSol n d) := by unfold chargeSol SolLimit.run; safe
theorem chargeSolRec_safe {n s : Nat} {d : Bytes} : Safe (chargeSolRec n s d) := by
  unfold chargeSolRec SolRecurringLimit.run SolRecurringLimit.refill; safe
theorem chargeSolDest_safe {n : Nat} {d : Bytes} : Safe (chargeSolDest n d) := by unfold chargeSolDest SolDestinationLimit.run; safe
theorem chargeSolRecDest_safe {n s : Nat} {d : Bytes} : Safe (chargeSolRecDest n s d) := by
  unfold chargeSolRecDest SolRecurringDestinationLimit.run; dsimp only; safe
theorem chargeToken_safe {n : Nat} {d : Bytes} : Safe (chargeToken n d) := by unfold chargeToken TokenLimit.run; safe
theorem chargeTokenRec_safe {n s : Nat} {d : Bytes} : Safe (chargeTokenRec n s d) := by
  unfold chargeTokenRec TokenRecurringLimit.run TokenRecurringLimit.refill; safe
theorem chargeTokenDest_safe {n : Nat} {d : Bytes} : Safe (chargeTokenDest n d) := by
  unfold chargeTokenDest TokenDestinationLimit.run; safe
theorem chargeTokenRecDest_safe {n s : Nat} {d : Bytes} : Safe (chargeTokenRecDest n s d) := by
  unfold chargeTokenRecDest TokenRecurringDestinationLimit.run; dsimp only; safe
theorem chargeStake_safe {n : Nat} {d : Bytes} : Safe (chargeStake n d) := by unfold chargeStake StakeLimit.run; safe
theorem chargeStakeRec_safe {n s : Nat} {d : Bytes} : Safe (chargeStakeRec n s d) := by
  unfold chargeStakeRec StakeRecurringLimit.run StakeRecurringLimit.refill; safe
theorem chargeScope_safe {n s : Nat} {d : Bytes} : Safe (chargeScope n s d) := by
  unfold chargeScope ProgramScope.run ProgramScope.refill; dsimp only; safe

theorem hashExcept_safe {env : Env} {a : Acct} {rs : List (Nat × Nat)} : Safe (hashExcept env a rs) := by
  unfold hashExcept
  refine .bind ?_ fun _ _ => .ok _
  generalize 0 = pos
  induction rs generalizing pos with
  | nil => exact .ok _
  | cons e rs ih =>
    obtain ⟨s, e⟩ := e
    unfold exceptGo segment
    exact .bind (by safe) fun _ _ => .bind (ih e) fun _ _ => .ok _

section
variable {l : ActLoc} {w : Wallet} {id : Nat} {r : Role} {before after : List Role}

theorem Placed.good (h : Placed l w id r before after) {as : List Act} (hc : All2 Act.Charged r.actions as) :
    GoodActs (encActs 0 as) := ⟨as, All2.wf hc h.roleWf.acts, h.actsLt hc, rfl⟩

theorem Placed.find_safe (h : Placed l w id r before after) {as : List Act} (hc : All2 Act.Charged r.actions as) {m : Mem}
    {ty : Nat} {key : Bytes} : Safe (l.find (cfgMem l w id m as) ty key) := by
  unfold ActLoc.find
  rw [h.bytes hc, ok_bind]
  exact .bind (getActionMut_safe (h.good hc)) fun _ _ => .ok _

theorem Placed.has_safe (h : Placed l w id r before after) {as : List Act} (hc : All2 Act.Charged r.actions as) {m : Mem}
    {ty : Nat} {key : Bytes} : Safe (l.has (cfgMem l w id m as) ty key) := .bind (h.find_safe hc) fun _ _ => .ok _

theorem Placed.charge_safe (h : Placed l w id r before after) {as : List Act} (hc : All2 Act.Charged r.actions as) {m : Mem}
    {ty : Nat} {key : Bytes} {f : Bytes → R Bytes} (hf : ∀ d, Safe (f d)) : Safe (l.charge (cfgMem l w id m as) ty key f) := by
  unfold ActLoc.charge
  rw [h.bytes hc, ok_bind]
  refine .bind (getActionMut_safe (h.good hc)) fun o _ => ?_
  split
  · exact .ok _
  · exact .bind (.bind (hf _) fun _ _ => .ok _) fun _ _ => .ok _

end

section
variable {x : SignCtx} {w : Wallet} {id : Nat} {r : Role} {before after : List Role}

theorem Placed.chargeEither_safe (h : Placed x.loc w id r before after) {as : List Act} (hc : All2 Act.Charged r.actions as) {m : Mem}
    {ty1 ty2 : Nat} {key : Bytes} {f1 f2 : Bytes → R Bytes} (h1 : ∀ d, Safe (f1 d)) (h2 : ∀ d, Safe (f2 d)) :
    Safe (Verif.chargeEither x (cfgMem x.loc w id m as) ty1 ty2 key f1 f2) := by
  unfold Verif.chargeEither
  refine .bind (h.charge_safe hc h1) fun o _ => ?_
  split
  · exact .ok _
  · refine .bind (h.charge_safe hc h2) fun o _ => ?_
    split <;> exact .ok _

theorem Placed.chargeDests_safe (h : Placed x.loc w id r before after) {m : Mem} {ty1 ty2 : Nat} {kf : Key → Bytes} {slot : Nat}
    (hk1 : repeatable ty1 = true → ∀ d : Key, d.length = 32 → (kf d).length = keyLen ty1)
    (hk2 : repeatable ty2 = true → ∀ d : Key, d.length = 32 → (kf d).length = keyLen ty2)
    (h1 : ∀ n d, Safe (chargeFn ty1 n slot d)) (h2 : ∀ n d, Safe (chargeFn ty2 n slot d)) :
    ∀ {ts : List (Key × Nat)} {as : List Act} {sum : Nat}, All2 Act.Charged r.actions as → (∀ t ∈ ts, t.1.length = 32) →
    Safe (Verif.chargeDests (fun m d n => Verif.chargeEither x m ty1 ty2 (kf d) (chargeFn ty1 n slot) (chargeFn ty2 n slot))
      (cfgMem x.loc w id m as) sum ts) := by
  intro ts
  induction ts with
  | nil => intro as sum _ _; exact .ok _
  | cons t ts ih =>
    intro as sum hc hl
    obtain ⟨d, n⟩ := t
    have hd : d.length = 32 := hl (d, n) (by simp)
    unfold Verif.chargeDests
    refine .bind (by safe) fun _ _ => .bind (h.chargeEither_safe hc (h1 n) (h2 n)) fun y hy => ?_
    obtain ⟨m1, b⟩ := y
    obtain ⟨as1, rfl, _, p2, _⟩ := h.chargeEither hc (fun hr => hk1 hr d hd) (fun hr => hk2 hr d hd) hy
    exact .bind (by safe) fun _ _ => ih (charged_trans hc p2) fun t ht => hl t (by simp [ht])

theorem Placed.spend_safe (h : Placed x.loc w id r before after) {as : List Act} (hc : All2 Act.Charged r.actions as) {m : Mem}
    {g1 g2 d1 d2 : Nat} {key : Bytes} {kf : Key → Bytes} {spent slot : Nat} {ts : List (Key × Nat)}
    {hasF : Bytes → R Bool} {heldF : List Act → Bool}
    (hg1 : repeatable g1 = true → key.length = keyLen g1) (hg2 : repeatable g2 = true → key.length = keyLen g2)
    (hd1 : repeatable d1 = true → ∀ d : Key, d.length = 32 → (kf d).length = keyLen d1)
    (hd2 : repeatable d2 = true → ∀ d : Key, d.length = 32 → (kf d).length = keyLen d2)
    (hts : ∀ t ∈ ts, t.1.length = 32)
    (hheld : ∀ as : List Act, (∀ a ∈ as, a.WF) → actsSize as < 2 ^ 32 → hasF (encActs 0 as) = .ok (heldF as))
    (s1 : ∀ n d, Safe (chargeFn g1 n slot d)) (s2 : ∀ n d, Safe (chargeFn g2 n slot d))
    (s3 : ∀ n d, Safe (chargeFn d1 n slot d)) (s4 : ∀ n d, Safe (chargeFn d2 n slot d)) :
    Safe (do
      let (m, general) ← Verif.chargeEither x (cfgMem x.loc w id m as) g1 g2 key (chargeFn g1 spent slot) (chargeFn g2 spent slot)
      let acts ← x.loc.bytes m
      let has ← hasF acts
      let (m, dest) ← settleDests has
        (fun m d n => Verif.chargeEither x m d1 d2 (kf d) (chargeFn d1 n slot) (chargeFn d2 n slot)) m spent ts
      require (general = true ∨ dest = true) E.au_permissionDeniedMissingPermission
      .ok m : R Mem) := by
  refine .bind (h.chargeEither_safe hc (s1 _) (s2 _)) fun y hy => ?_
  obtain ⟨m1, b⟩ := y
  obtain ⟨as1, rfl, _, p2, _⟩ := h.chargeEither hc hg1 hg2 hy
  have hc1 := charged_trans hc p2
  dsimp only
  rw [h.bytes hc1, ok_bind, hheld as1 (All2.wf hc1 h.roleWf.acts) (h.actsLt hc1), ok_bind]
  refine .bind ?_ fun _ _ => by safe
  unfold settleDests
  exact .ite (fun _ => .bind (h.chargeDests_safe hd1 hd2 s3 s4 hc1 hts) fun _ _ => by safe) fun _ => .ok _

theorem Placed.settleSol_safe (h : Placed x.loc w id r before after) (hk : Keys32 x) {as : List Act}
    (hc : All2 Act.Charged r.actions as) {m : Mem} {spent : Nat} : Safe (Verif.settleSol x (cfgMem x.loc w id m as) spent) :=
  h.spend_safe hc (g1 := P.solLimit) (g2 := P.solRecurringLimit) (d1 := P.solRecurringDestinationLimit) (d2 := P.solDestinationLimit)
    (key := []) (kf := fun d => d) (hasF := hasSolDest) (heldF := solDestHeld) (by intro h; cases h) (by intro h; cases h)
    (fun _ d hd => hd) (fun _ d hd => hd) (solTransfers_len hk) (fun _ => hasSolDest_enc)
    (fun _ _ => chargeSol_safe) (fun _ _ => chargeSolRec_safe) (fun _ _ => chargeSolRecDest_safe) (fun _ _ => chargeSolDest_safe)

theorem Placed.settleTokenSpent_safe (h : Placed x.loc w id r before after) (hk : Keys32 x) {as : List Act}
    (hc : All2 Act.Charged r.actions as) {m : Mem} {src mint : Bytes} (hm : mint.length = 32) {spent : Nat} :
    Safe (Verif.settleTokenSpent x (cfgMem x.loc w id m as) src mint spent) :=
  h.spend_safe hc (g1 := P.tokenLimit) (g2 := P.tokenRecurringLimit) (d1 := P.tokenRecurringDestinationLimit)
    (d2 := P.tokenDestinationLimit) (key := mint) (kf := fun d => mint ++ d) (hasF := hasTokenDest mint) (heldF := tokenDestHeld mint)
    (fun _ => hm) (fun _ => hm) (fun _ d hd => by simp [hm, hd, keyLen]) (fun _ d hd => by simp [hm, hd, keyLen])
    (tokenTransfers_len hk src) (fun _ => hasTokenDest_enc mint)
    (fun _ _ => chargeToken_safe) (fun _ _ => chargeTokenRec_safe) (fun _ _ => chargeTokenRecDest_safe) (fun _ _ => chargeTokenDest_safe)

theorem recheck_safe {m : Mem} {a : Meta} {hh : Option Bytes} {rs : List (Nat × Nat)} (h : a.writable = true → hh.isSome = true) :
    Safe (recheck x m a hh rs) := by
  unfold recheck
  refine .ite (fun _ => .ok _) fun hw => .bind hashExcept_safe fun _ _ => ?_
  obtain ⟨v, hv⟩ := Option.isSome_iff_exists.mp (h (by simpa using hw))
  rw [hv]
  exact .bind (.ok _) fun _ _ => by safe

/-- The snapshot needed for the account exists. -/
def Snapped (r : Role) (a : Meta) (hh : Option Bytes) : Class → Prop
  | .thisSwig _ | .token .. | .stake .. => a.writable = true → hh.isSome = true
  | .scope .. => a.writable = true → ∀ s, payload? r.actions P.programScope a.key = some s → rd s 128 8 < rd s 136 8 → hh.isSome = true
  | _ => True

theorem Placed.settleOne_safe (h : Placed x.loc w id r before after) (hk : Keys32 x) {as : List Act}
    (hc : All2 Act.Charged r.actions as) {m : Mem} {a : Meta} {c : Class} {hh : Option Bytes} {total : Nat}
    (ha : c.tracked = true → a.key ≠ x.loc.swig ∧ a.key.length = 32) (hs : Snapped r a hh c) :
    Safe (Verif.settleOne x (cfgMem x.loc w id m as) a c hh total) := by
  cases c with
  | none => exact .ok _
  | wallet => exact .ok _
  | thisSwig l =>
    refine .bind (recheck_safe hs) fun _ _ => .bind (by safe) fun _ _ => .ite (fun _ => .ok _) fun _ => h.settleSol_safe hk hc
  | token b spent =>
    refine .ite (fun _ => ?_) fun _ => ?_
    · exact .bind (h.has_safe hc) fun _ _ => by safe
    · refine .bind (by safe) fun _ h1 => .bind (recheck_safe hs) fun _ _ => .bind (by safe) fun _ _ => .bind (by safe) fun _ _ =>
        .ite (fun _ => .ok _) fun _ => h.settleTokenSpent_safe hk hc ?_
      have := require_ok_iff.mp h1
      rw [sl_length]; omega
  | stake st b l spent =>
    refine .bind (recheck_safe hs) fun _ _ => .ite (fun _ => .ok _) fun _ => ?_
    exact .bind (h.has_safe hc) fun _ _ => .ite (fun _ => .ok _) fun _ =>
      .bind (h.chargeEither_safe hc (fun _ => chargeStake_safe) (fun _ => chargeStakeRec_safe)) fun _ _ => by safe
  | scope ro b spent =>
    obtain ⟨_, hl⟩ := ha rfl
    simp only [Verif.settleOne, settleScope]
    rw [h.find hc m P.programScope a.key (fun _ => hl), ok_bind]
    refine .bind (by safe) fun s h1 => .bind (by safe) fun rs h2 => .bind (recheck_safe fun hw => ?_) fun _ _ =>
      .ite (fun _ => .ok _) fun _ => .bind (h.charge_safe hc fun _ => chargeScope_safe) fun _ _ => by safe
    have h1 := orErr_ok h1
    have h2 := orErr_ok h2
    obtain ⟨s0, e0, hct⟩ := payload?_chargedTo hc h1
    obtain ⟨f1, f2, _, _⟩ := scope_decode_fixed hct
    unfold scopeRange at h2
    split at h2
    · rename_i hlt
      rw [f1, f2] at hlt
      exact hs hw s0 e0 hlt.1
    · cases h2

/-- One step of the settlement keeps the form of the ledger. -/
theorem Placed.settleOne_state (h : Placed x.loc w id r before after) (hk : Keys32 x) {as : List Act}
    (hc : All2 Act.Charged r.actions as) {m m' : Mem} {a : Meta} {c : Class} {hh : Option Bytes} {total : Nat}
    (ha : c.tracked = true → a.key ≠ x.loc.swig ∧ a.key.length = 32)
    (ho : Verif.settleOne x (cfgMem x.loc w id m as) a c hh total = .ok m') :
    ∃ as', m' = cfgMem x.loc w id m as' ∧ All2 Act.Charged as as' := by
  by_cases h0 : c.isSwig = false
  · obtain ⟨as', e1, _, e3, _⟩ := h.settleOne hk hc h0 ha ho
    exact ⟨as', e1, e3⟩
  · cases c with
    | thisSwig l =>
      simp only [Verif.settleOne, settleSwig] at ho
      obtain ⟨_, _, ho⟩ := bind_ok_iff.mp ho
      obtain ⟨_, _, ho⟩ := bind_ok_iff.mp ho
      split at ho
      · cases ho; exact ⟨as, rfl, All2.refl' Act.Charged.refl _⟩
      · obtain ⟨as', e1, _, e3, _⟩ := h.settleSol hk hc ho
        exact ⟨as', e1, e3⟩
    | _ => exact absurd rfl h0

theorem Placed.settleAll_safe (h : Placed x.loc w id r before after) (hk : Keys32 x) {m : Mem} {total : Nat} :
    ∀ {l : List (Meta × Class)} {hs : List (Option Bytes)} {as : List Act}, All2 Act.Charged r.actions as →
    All2 (fun e hh => (e.2.tracked = true → e.1.key ≠ x.loc.swig ∧ e.1.key.length = 32) ∧ Snapped r e.1 hh e.2) l hs →
    Safe (Verif.settleAll x total (cfgMem x.loc w id m as) l hs) := by
  intro l hs as hc ha
  induction ha generalizing as with
  | nil => exact .ok _
  | cons h1 _ ih =>
    rename_i e hh l hs _
    obtain ⟨a, c⟩ := e
    refine .bind (h.settleOne_safe hk hc h1.1 h1.2) fun m' hm => ?_
    obtain ⟨as', rfl, e3⟩ := h.settleOne_state hk hc h1.1 hm
    exact ih (charged_trans hc e3)

/-! ## The instructions -/

theorem trackAll_fst {x : SignCtx} {m : Mem} : ∀ {l l' : List (Meta × Class)}, trackAll x m l = .ok l' → l'.map Prod.fst = l.map Prod.fst := by
  intro l
  induction l with
  | nil => intro l' h; cases h; rfl
  | cons e l ih =>
    intro l' h
    obtain ⟨a, c⟩ := e
    simp only [trackAll] at h
    obtain ⟨c', _, h⟩ := bind_ok_iff.mp h
    obtain ⟨l1, h1, h⟩ := bind_ok_iff.mp h
    cases h
    simp [ih h1]

theorem keys_fst {l l' : List (Meta × Class)} (e : l'.map Prod.fst = l.map Prod.fst) (h : ∀ y ∈ l, y.1.key.length = 32) :
    ∀ y ∈ l', y.1.key.length = 32 := by
  intro y hy
  have : y.1 ∈ l.map Prod.fst := by rw [← e]; exact List.mem_map_of_mem hy
  obtain ⟨z, hz, e2⟩ := List.mem_map.mp this
  rw [← e2]; exact h z hz

theorem Placed.track_safe (h : Placed x.loc w id r before after) {m : Mem} (hd : (m x.loc.swig).data = w.encode)
    (hsc : ∀ k s, payload? r.actions P.programScope k = some s → rd s 128 8 ≤ rd s 136 8) {a : Meta} {c : Class} (hl : a.key.length = 32) :
    Safe (track x m a c) := by
  have hm := h.start hd
  have hc : All2 Act.Charged r.actions r.actions := All2.refl' Act.Charged.refl _
  unfold track
  refine .ite (fun _ => .ok _) fun _ => ?_
  split
  · dsimp only; exact .ite (fun _ => .ok _) fun _ => .ok _
  · dsimp only; exact .ite (fun _ => .ok _) fun _ => .ok _
  · unfold trackScoped
    have := h.find hc m P.programScope a.key (fun _ => hl)
    rw [← hm] at this
    rw [this, ok_bind]
    split
    · exact .ok _
    · rename_i s hs
      have := readAccountBalance_safe (d := (m a.key).data) (hsc _ _ hs)
      unfold trackScope
      split
      · exact .ok _
      · rename_i e; exact absurd e this.ne
      · exact .ok _
  · exact .ok _

theorem Placed.trackAll_safe (h : Placed x.loc w id r before after) {m : Mem} (hd : (m x.loc.swig).data = w.encode)
    (hsc : ∀ k s, payload? r.actions P.programScope k = some s → rd s 128 8 ≤ rd s 136 8) :
    ∀ {l : List (Meta × Class)}, (∀ y ∈ l, y.1.key.length = 32) → Safe (trackAll x m l) := by
  intro l
  induction l with
  | nil => intro _; exact .ok _
  | cons e l ih =>
    intro hl
    obtain ⟨a, c⟩ := e
    exact .bind (h.track_safe hd hsc (hl (a, c) (by simp))) fun _ _ => .bind (ih fun y hy => hl y (by simp [hy])) fun _ _ => .ok _

theorem execInner_keeps {env : Env} {cpi : Cpi} {metas : List Meta} {signer : Key} {seeds : List Bytes} {k : Key} (hc : cpi.Keeps k)
    {i : Inner} {m m' : Mem} (h : execInner env cpi m metas signer seeds i = .ok m') : (m' k).data = (m k).data := by
  rcases execInner_cpi h with h | ⟨_, _, h⟩
  · exact (hc _ _ _ h).1
  · rw [h, directTransfer_data]

theorem Placed.runIxs_safe (h : Placed x.loc w id r before after) {cpi : Cpi} (hcd : CallsDefined cpi) (hkeep : cpi.Keeps x.loc.swig)
    (hsc : ∀ k s, payload? r.actions P.programScope k = some s → rd s 128 8 ≤ rd s 136 8) :
    ∀ {ixs : List Inner} {m : Mem} {l : List (Meta × Class)} {total : Nat}, (m x.loc.swig).data = w.encode → (∀ i ∈ ixs, i.Complete) →
    (∀ y ∈ l, y.1.key.length = 32) → Safe (runIxs x cpi m l total ixs) := by
  intro ixs
  induction ixs with
  | nil => intro m l total _ _ _; exact .ok _
  | cons i ixs ih =>
    intro m l total hd hi hl
    have hc : All2 Act.Charged r.actions r.actions := All2.refl' Act.Charged.refl _
    unfold runIxs
    refine .bind ?_ fun _ _ => .bind (by safe) fun _ _ => .bind (execInner_safe hcd (hi i (by simp))) fun m' hm => ?_
    · unfold programOk
      refine .ite (fun _ => .ok _) fun _ => .ite (fun _ => .ok _) fun _ => ?_
      rw [h.start hd]
      exact h.has_safe hc
    · have hd' : (m' x.loc.swig).data = w.encode := by rw [execInner_keeps hkeep hm, hd]
      exact .bind (h.trackAll_safe hd' hsc hl) fun l' ht => ih hd' (fun j hj => hi j (by simp [hj])) (keys_fst (trackAll_fst ht) hl)

theorem Placed.snapAll_safe (h : Placed x.loc w id r before after) {m : Mem} (hd : (m x.loc.swig).data = w.encode) :
    ∀ {l : List (Meta × Class)} {i : Nat}, Safe (snapAll x m i l) := by
  intro l
  induction l with
  | nil => intro i; exact .ok _
  | cons e l ih =>
    intro i
    obtain ⟨a, c⟩ := e
    refine .bind (.ite (fun _ => .ok _) fun _ => .bind ?_ fun rs _ => ?_) fun _ _ => .bind ih fun _ _ => .ok _
    · unfold snapRanges
      split
      · exact .ok _
      · exact .ok _
      · exact .ok _
      · rw [h.start hd]
        exact .bind (h.find_safe (All2.refl' Act.Charged.refl _)) fun _ _ => .ok _
      · exact .ok _
    · unfold snapHash
      split
      · exact .ok _
      · exact .bind hashExcept_safe fun _ _ => by safe

theorem All2.span {α β γ : Type} {R : α → β → Prop} {S : α → γ → Prop} {T : β → γ → Prop} {as : List α} {bs : List β} {cs : List γ}
    (h1 : All2 R as bs) (h2 : All2 S as cs) (h : ∀ a ∈ as, ∀ b c, R a b → S a c → T b c) : All2 T bs cs := by
  induction h1 generalizing cs with
  | nil => cases h2; exact .nil
  | cons r1 _ ih =>
    cases h2 with
    | cons s1 h2 => exact .cons (h _ (by simp) _ _ r1 s1) (ih h2 fun a ha => h a (by simp [ha]))

theorem Placed.signLimited_safe (h : Placed x.loc w id r before after) (hk : Keys32 x) {cpi : Cpi} (hcd : CallsDefined cpi)
    (hkeep : cpi.Keeps x.loc.swig) {m : Mem} (hd : (m x.loc.swig).data = w.encode) (hi : ∀ i ∈ x.ixs, i.Complete)
    (hm32 : ∀ a ∈ x.metas, a.key.length = 32) {cls : List Class}
    (hsc : ∀ k s, k ≠ x.loc.swig → payload? r.actions P.programScope k = some s → ScopeIn m k s)
    (hsc1 : ∀ k s, payload? r.actions P.programScope k = some s → rd s 128 8 ≤ rd s 136 8)
    (hcl : ∀ e ∈ x.metas.zip cls, e.2.tracked = true → e.1.key ≠ x.loc.swig) : Safe (signLimited x cpi m cls) := by
  have hc : All2 Act.Charged r.actions r.actions := All2.refl' Act.Charged.refl _
  have hz : ∀ y ∈ x.metas.zip cls, y.1.key.length = 32 := fun y hy => hm32 _ (List.of_mem_zip hy).1
  unfold signLimited
  refine .bind (h.snapAll_safe hd) fun hs hsn => .bind (h.runIxs_safe hcd hkeep hsc1 hd hi hz) fun y hy => ?_
  obtain ⟨m1, acc, total⟩ := y
  have hmono0 : All2 (fun e e' : Meta × Class => e'.1 = e.1 ∧ Mono e.2 e'.2) (x.metas.zip cls) (x.metas.zip cls) :=
    All2.refl' (fun e => ⟨rfl, .same _⟩) _
  obtain ⟨hex, hmono, _⟩ := runIxs_ok hy hmono0
  have hd1 : (m1 x.loc.swig).data = w.encode := by rw [(execAll_keeps hkeep hex).1, hd]
  dsimp only
  rw [h.start hd1]
  refine h.settleAll_safe hk hc (All2.span hmono (snapAll_each hsn) fun e he e' hh h1 h2 => ?_)
  obtain ⟨a, c⟩ := e
  obtain ⟨a', c'⟩ := e'
  dsimp only at h1 h2
  obtain ⟨e, hmo⟩ := h1
  subst e
  obtain ⟨j, hj⟩ := h2
  refine ⟨fun ht => ⟨hcl (a', c) he (by rw [← hmo.tracked]; exact ht), hz (a', c) he⟩, ?_⟩
  have hsw : Snapped r a' hh c := by
    cases c with
    | none => trivial
    | wallet => trivial
    | thisSwig _ => exact fun hw => (snap_ok hw rfl hj).2
    | token _ _ => exact fun hw => (snap_ok hw rfl hj).2
    | stake _ _ _ _ => exact fun hw => (snap_ok hw rfl hj).2
    | scope ro b sp =>
      intro hw s hps hlt
      have hne := hcl (a', _) he rfl
      have hin := hsc _ _ hne hps
      refine (snap_ok hw (rs := [(rd s 128 8, rd s 136 8)]) ?_ hj).2
      have := h.find hc m P.programScope a'.key (fun _ => hz (a', _) he)
      rw [← h.start hd] at this
      simp only [snapRanges, this, ok_bind, hps, Option.bind_some, scopeRange, ProgramScope.decode]
      exact congrArg _ (if_pos ⟨hlt, hin.2 hlt⟩)
  cases hmo <;> exact hsw

end

section
variable {env : Env} {cpi : Cpi} {m : Mem} {metas : List Meta} {ix : Bytes}

theorem signV2_safe (hcd : CallsDefined cpi) (hx : TxData (m instructionsSysvarId).data)
    (ho : ∀ a, metas.head? = some a → (m a.key).owner = swigId → Opened m a.key) (hk : ∀ a ∈ metas, a.key.length = 32)
    (hkeep : ∀ a, metas.head? = some a → cpi.Keeps a.key)
    (ht : ∀ a, metas[1]? = some a → ∀ ixs, decodeIxs metas a.key [] (sl ix 8 (8 + rd ix 2 2)) = .ok ixs → ∀ i ∈ ixs, i.Complete)
    {cls : List Class} (hcls : classifyAll m metas = .ok cls) : Safe (signV2 env cpi m metas cls ix) := by
  unfold signV2
  split
  · rename_i swig wallet x3 rest
    refine .bind (by safe) fun _ _ => .bind (by safe) fun _ h1 => .bind (by safe) fun _ _ => .bind (by safe) fun a ha => .bind (by safe) fun p hp => ?_
    obtain ⟨c, cs, rfl, hc1, _, hrest⟩ := classifyAll_rest hcls
    obtain ⟨rfl, hown, _⟩ := classify_first hc1 (require_ok_iff.mp h1)
    have ho := ho _ rfl hown
    refine ho.act hx hp fun w r v hw hd hs hr hg hv hq => ?_
    obtain ⟨r', before, after, g1, g2, g3, g4, g5, _, g7, g8, _⟩ := actAs_view hw hq
    have e : r' = r := by
      have := role?_split g1 g2 g3
      rw [hr] at this
      exact (Option.some.inj this).symm
    subst e
    dsimp only
    refine .bind (by safe) fun ixs hix => ?_
    rw [Wallet.parts_bytes, g7, g8]
    have hpl := placed_used (swig := swig.key) hw g1 g2 g3 g4
    have hdat : ((m.setData swig.key (w.used a.role).encode) swig.key).data = (w.used a.role).encode := by simp
    have hcomp : ∀ i ∈ ixs, i.Complete := by
      have : a.payload = sl ix 8 (8 + rd ix 2 2) := by
        unfold parseSign at ha
        split at ha
        · cases ha
        · dsimp only at ha
          split at ha
          · cases ha
          · cases ha; rfl
      rw [this] at hix
      exact ht wallet rfl ixs hix
    have hch : All2 Act.Charged r'.actions r'.actions := All2.refl' Act.Charged.refl _
    unfold signWith
    have hm := hpl.start hdat
    refine .bind ?_ fun _ _ => .ite (fun _ => execAll_safe hcd hcomp) fun _ => .bind ?_ fun _ _ => .bind ?_ fun _ _ => ?_
    · unfold unrestricted
      rw [hm]
      exact .bind (hpl.has_safe hch) fun _ _ => .ite (fun _ => .ok _) fun _ => hpl.has_safe hch
    · rw [hm]; exact hpl.has_safe hch
    · unfold signCurated
      rw [hm]; exact .ite (fun _ => .ok _) fun _ => hpl.has_safe hch
    · refine Placed.signLimited_safe hpl (inner_keys hk hix) hcd (hkeep _ rfl) hdat hcomp hk (fun k s hne hps => ?_) (fun k s hps => ?_) ?_
      · have := payload_scope hs (role?_mem hr).1 hps
        unfold ScopeIn at *
        rw [Mem.setData_other _ _ hne]
        exact this
      · exact (payload_scope hs (role?_mem hr).1 hps).1
      · intro e he htr hkey
        rw [List.zip_cons_cons] at he
        rcases List.mem_cons.mp he with rfl | he
        · cases htr
        · have := (hrest e he).2 (by rw [hkey]; exact hown)
          rw [this] at htr
          cases htr
  · safe

theorem process_safe (h : InBounds cpi m metas ix) : Safe (process env cpi m metas ix) := by
  refine .bind (by safe) fun _ _ => .bind (classifyAll_safe h.first) fun cls hcls => ?_
  have inner : ∀ k b, innerOf metas ix = some (k, b) → ∀ ixs, decodeIxs metas k [] b = .ok ixs → ∀ i ∈ ixs, i.Complete :=
    fun k b e ixs hi => h.transfers k b ixs e hi
  unfold dispatch
  refine .ite (fun _ => .error (by decide)) fun _ => ?_
  generalize e : rd ix 0 2 = n
  split
  · exact addAuthorityV1_safe h.sysvar h.first
  · exact removeAuthorityV1_safe h.sysvar h.first
  · exact updateAuthorityV1_safe h.sysvar h.first
  · exact .error (by decide)
  · exact createSessionV1_safe h.sysvar h.first
  · exact createSubV1_safe h.sysvar h.first
  · exact withdrawSubV1_safe h.calls h.sysvar h.first h.keys (h.token e)
  · refine subSignV1_safe h.calls h.sysvar h.first h.keys fun a ha => inner _ _ ?_
    simp [innerOf, e, ha]
  · exact toggleSubV1_safe h.sysvar h.first (h.flag e)
  · refine signV2_safe h.calls h.sysvar h.first h.keys (h.held e) (fun a ha => inner _ _ ?_) hcls
    simp [innerOf, e, ha]
  · exact migrateV1_safe h.sysvar h.first (h.owner e)
  · exact transferAssetsV1_safe h.calls h.sysvar h.first
  · exact closeTokenV1_safe h.calls h.sysvar h.first
  · exact closeSwigV1_safe h.sysvar h.first
  · exact replaceAuthorityV1_safe h.sysvar h.first
  · exact setRentClaimerV1_safe h.sysvar h.first
  · exact createSubV2_safe h.sysvar h.first
  · exact toggleSubV2_safe h.sysvar h.first
  · refine subSignV2_safe h.calls h.sysvar h.first fun a ha => inner _ _ ?_
    simp [innerOf, e, ha]
  · exact withdrawSubV2_safe h.calls h.sysvar h.first
  · exact createV1_safe

end

end Verif
