import Verif.Proofs.AcceptWhole
import Verif.Props.AcceptSign
import Verif.Props.Stake
import Verif.Props.Scope

/-!
# Exactly which signing requests are accepted, whatever accounts are passed (C114)

C111 for any accounts, stake accounts and the targets of program scopes included.  `Inspected`, `LimitsAllowAll` and their parts are in
Verif/Spec/AcceptFull.lean.  Assumed as for C111: at most 254 accounts, and for roles with limits that the called programs leave the
configuration account alone, and 32-byte addresses.
-/

namespace Verif
open Client

section
variable {env : Env} {cpi : Cpi} {m : Mem} {swig : Meta} {rest : List Meta} {ix : Bytes} {w : Wallet}

/-- Such a request is accepted if the accounts pass the inspection and the execution succeeds. -/
theorem sign_reached_full (ho : Open m swig.key w) (hl : (swig :: rest).length ≤ 254) (hi : rd ix 0 2 = 11)
    {wallet x3 : Meta} {more : List Meta} {r : Role} {ixs : List Inner} (hr : rest = wallet :: x3 :: more) (hn : 8 + rd ix 2 2 ≤ ix.length)
    (hst : env.stackHeight = 1) (hw : (m wallet.key).owner = systemId)
    (hs : Speaks env m (swig :: rest) w (rd ix 4 4) (ix.drop (8 + rd ix 2 2)) (innerBytes ix) r)
    (hdec : decodeIxs (swig :: rest) wallet.key [] (innerBytes ix) = .ok ixs) (hin : Inspected m w swig.key wallet.key (x3 :: more)) :
    ∃ before after tl, All2 (FullClass m w swig.key wallet.key) (x3 :: more) tl ∧
      Placed ⟨swig.key, 48 + (rolesSize before + 16 + r.auth.length), (encActs 0 r.actions).length⟩ (w.used (rd ix 4 4)) (rd ix 4 4)
          { r with auth := usedCred r.authType r.auth } before after ∧
      (Accepted env cpi m (swig :: rest) ix ↔ ∃ m', signWith env cpi (m.setData swig.key (w.used (rd ix 4 4)).encode) (swig :: rest)
          (.thisSwig (m swig.key).lamports :: .wallet :: tl) wallet.key (walletSeeds swig.key ++ [[w.walletBump]])
          ⟨swig.key, 48 + (rolesSize before + 16 + r.auth.length), (encActs 0 r.actions).length⟩ ixs = .ok m') := by
  subst hr
  obtain ⟨tl, hpc, e⟩ := (process_full (env := env) (cpi := cpi) (ix := ix) ho.wf ho.data ho.owner hw hl).2 hin
  have hparse : parseSign ix = .ok ⟨rd ix 4 4, innerBytes ix, ix.drop (8 + rd ix 2 2)⟩ := by
    unfold parseSign
    rw [if_neg (by omega)]
    dsimp only
    rw [if_neg (by omega)]
    rfl
  obtain ⟨before, after, hpl, e2⟩ := signV2_reach (cpi := cpi) (tl := tl) (n := (m swig.key).lamports) ho.wf ho.data hst hparse
    ((speaks_iff ho.wf).mp hs) hdec
  refine ⟨before, after, tl, hpc, hpl, ?_⟩
  unfold Accepted
  rw [e, dispatch, if_neg (by omega), hi]
  show (∃ m', Verif.signV2 env cpi m (swig :: wallet :: x3 :: more) (.thisSwig (m swig.key).lamports :: .wallet :: tl) ix = .ok m') ↔ _
  rw [e2]

/-- What an accepted request meets, with the inspection. -/
theorem sign_needs_full (ho : Open m swig.key w) (hl : (swig :: rest).length ≤ 254) (hi : rd ix 0 2 = 11)
    (h : Accepted env cpi m (swig :: rest) ix) :
    ∃ wallet x3 more r ixs, rest = wallet :: x3 :: more ∧ 8 + rd ix 2 2 ≤ ix.length ∧ env.stackHeight = 1 ∧
      (m wallet.key).owner = systemId ∧ Inspected m w swig.key wallet.key (x3 :: more) ∧
      Speaks env m (swig :: rest) w (rd ix 4 4) (ix.drop (8 + rd ix 2 2)) (innerBytes ix) r ∧
        decodeIxs (swig :: rest) wallet.key [] (innerBytes ix) = .ok ixs := by
  obtain ⟨wallet, x3, more, r, ixs, rfl, h2, h3, h4, h5, h6⟩ := sign_needs ho hi h
  obtain ⟨m', h⟩ := h
  exact ⟨wallet, x3, more, r, ixs, rfl, h2, h3, h4, (process_full ho.wf ho.data ho.owner h4 hl).1 m' h, h5, h6⟩

/-- A request of a role that may do everything, or everything but manage roles, is accepted exactly if the parts of the request are there,
it is not made by another program, the second account belongs to the System program, the accounts pass the inspection, the credential of
the role accepts the instructions, they can be decoded, and they can be executed. -/
theorem C114_sign_free (ho : Open m swig.key w) (hl : (swig :: rest).length ≤ 254) (hi : rd ix 0 2 = 11)
    (hf : ∀ r, w.role? (rd ix 4 4) = some r → r.holds P.all ∨ r.holds P.allButManageAuthority) :
    Accepted env cpi m (swig :: rest) ix ↔
      ∃ wallet x3 more r ixs, rest = wallet :: x3 :: more ∧ 8 + rd ix 2 2 ≤ ix.length ∧ env.stackHeight = 1 ∧
        (m wallet.key).owner = systemId ∧ Inspected m w swig.key wallet.key (x3 :: more) ∧
        Speaks env m (swig :: rest) w (rd ix 4 4) (ix.drop (8 + rd ix 2 2)) (innerBytes ix) r ∧
        decodeIxs (swig :: rest) wallet.key [] (innerBytes ix) = .ok ixs ∧
        ∃ m', execAll env cpi (swig :: rest) wallet.key (walletSeeds swig.key ++ [[w.walletBump]])
          (m.setData swig.key (w.used (rd ix 4 4)).encode) ixs = .ok m' := by
  have free : ∀ r, w.role? (rd ix 4 4) = some r → ¬ Restricted { r with auth := usedCred r.authType r.auth } := by
    intro r hr h
    rcases hf r hr with e | e
    all_goals
      obtain ⟨a, ha, e⟩ := e
      first | exact (h a ha).1 e | exact (h a ha).2 e
  constructor
  · intro h
    obtain ⟨wallet, x3, more, r, ixs, h1, h2, h3, h4, hin, h5, h6⟩ := sign_needs_full ho hl hi h
    obtain ⟨before, after, tl, k1, k2, k3⟩ := sign_reached_full (cpi := cpi) ho hl hi h1 h2 h3 h4 h5 h6 hin
    have h := k3.mp h
    rw [signWith_free k2 (Mem.setData_data ..) (free r h5.1)] at h
    exact ⟨wallet, x3, more, r, ixs, h1, h2, h3, h4, hin, h5, h6, h⟩
  · rintro ⟨wallet, x3, more, r, ixs, h1, h2, h3, h4, hin, h5, h6, h⟩
    obtain ⟨before, after, tl, k1, k2, k3⟩ := sign_reached_full (cpi := cpi) ho hl hi h1 h2 h3 h4 h5 h6 hin
    refine k3.mpr ?_
    rw [signWith_free k2 (Mem.setData_data ..) (free r h5.1)]
    exact h

/-- The class of an account only depends on the account, and nothing is tracked in the configuration account. -/
theorem FullClass.setData {W : Wallet} {swig wallet : Key} {d : Bytes} {a : Meta} {c : Class} (ho : (m swig).owner = swigId)
    (h : FullClass m W swig wallet a c) : FullClass (m.setData swig d) W swig wallet a c := by
  by_cases e : a.key = swig
  · have hown : (m.setData swig d a.key).owner = swigId := by rw [Mem.setData_owner, e]; exact ho
    have hown' : (m a.key).owner = swigId := by rw [e]; exact ho
    have n1 : ∀ {m' : Mem}, (m' a.key).owner = swigId → ¬ Watched m' swig wallet a := fun h t => (token_not (watched_owner t).1).1 h
    have n2 : ∀ {m' : Mem}, (m' a.key).owner = swigId → ¬ StakeWatched m' swig wallet a := by
      intro m' h t
      rw [stakeWatched_owner t] at h
      exact stake_not.1 h
    have n3 : ∀ {m' : Mem}, (m' a.key).owner = swigId → ∀ s, ¬ TargetOf m' W a s := fun h s t => t.1 (.inl h)
    exact ⟨fun t => absurd t (n1 hown), fun t => absurd t (n2 hown), fun s t => absurd t (n3 hown s),
      fun _ _ _ => h.other (n1 hown') (n2 hown') (n3 hown')⟩
  · have hs : m.setData swig d a.key = m a.key := Mem.setData_other m d e
    have t1 : ∀ k, TokenOf (m.setData swig d) k a.key ↔ TokenOf m k a.key := fun k =>
      ⟨fun t => ⟨hs ▸ t.program, hs ▸ t.long, hs ▸ t.authority⟩, fun t => ⟨hs.symm ▸ t.program, hs.symm ▸ t.long, hs.symm ▸ t.authority⟩⟩
    have t2 : ∀ k, StakeOf (m.setData swig d) k a.key ↔ StakeOf m k a.key := fun k =>
      ⟨fun t => ⟨hs ▸ t.program, hs ▸ t.long, hs ▸ t.withdrawer⟩, fun t => ⟨hs.symm ▸ t.program, hs.symm ▸ t.long, hs.symm ▸ t.withdrawer⟩⟩
    have t3 : ∀ s, TargetOf (m.setData swig d) W a s ↔ TargetOf m W a s := by
      intro s
      unfold TargetOf Unscoped
      rw [hs]
    have w1 : Watched (m.setData swig d) swig wallet a ↔ Watched m swig wallet a := or_congr (t1 _) (t1 _)
    have w2 : StakeWatched (m.setData swig d) swig wallet a ↔ StakeWatched m swig wallet a := or_congr (t2 _) (t2 _)
    refine ⟨fun t => ?_, fun t => ?_, fun s t => ?_, fun k1 k2 k3 => ?_⟩
    · rw [hs]; exact h.token (w1.mp t)
    · rw [hs]; exact h.stake (w2.mp t)
    · rw [hs]; exact h.scope s ((t3 s).mp t)
    · exact h.other (fun t => k1 (w1.mpr t)) (fun t => k2 (w2.mpr t)) (fun s t => k3 s ((t3 s).mpr t))

/-- A request of a role with limits is accepted exactly if, as above, the parts of the request are there, it is not made by another program,
the second account belongs to the System program, the accounts pass the inspection, the credential accepts the instructions and they can be
decoded; and the limits allow them. -/
theorem C114_sign_limited (ho : Open m swig.key w) (hl : (swig :: rest).length ≤ 254) (hi : rd ix 0 2 = 11)
    (hf : ∀ r, w.role? (rd ix 4 4) = some r → ¬ r.holds P.all ∧ ¬ r.holds P.allButManageAuthority)
    (hk : ∀ a ∈ swig :: rest, a.key.length = 32) (hkeep : cpi.Keeps swig.key) :
    Accepted env cpi m (swig :: rest) ix ↔
      ∃ wallet x3 more r ixs, rest = wallet :: x3 :: more ∧ 8 + rd ix 2 2 ≤ ix.length ∧ env.stackHeight = 1 ∧
        (m wallet.key).owner = systemId ∧ Inspected m w swig.key wallet.key (x3 :: more) ∧
        Speaks env m (swig :: rest) w (rd ix 4 4) (ix.drop (8 + rd ix 2 2)) (innerBytes ix) r ∧
        decodeIxs (swig :: rest) wallet.key [] (innerBytes ix) = .ok ixs ∧
        ∃ m1, LimitsAllowAll env cpi (m.setData swig.key (w.used (rd ix 4 4)).encode) m1 w swig wallet (x3 :: more)
          (walletSeeds swig.key ++ [[w.walletBump]]) r.actions ixs := by
  have res : ∀ r, w.role? (rd ix 4 4) = some r → Restricted { r with auth := usedCred r.authType r.auth } := by
    intro r hr a ha
    exact ⟨fun e => (hf r hr).1 ⟨a, ha, e⟩, fun e => (hf r hr).2 ⟨a, ha, e⟩⟩
  have key : ∀ (wallet x3 : Meta) (more : List Meta) (r : Role) (ixs : List Inner), rest = wallet :: x3 :: more →
      decodeIxs (swig :: rest) wallet.key [] (innerBytes ix) = .ok ixs → w.role? (rd ix 4 4) = some r →
      ∀ (before after : List Role) (tl : List Class), All2 (FullClass m w swig.key wallet.key) (x3 :: more) tl →
      Placed ⟨swig.key, 48 + (rolesSize before + 16 + r.auth.length), (encActs 0 r.actions).length⟩ (w.used (rd ix 4 4)) (rd ix 4 4)
          { r with auth := usedCred r.authType r.auth } before after →
      ((∃ m', signWith env cpi (m.setData swig.key (w.used (rd ix 4 4)).encode) (swig :: rest)
          (.thisSwig (m swig.key).lamports :: .wallet :: tl) wallet.key (walletSeeds swig.key ++ [[w.walletBump]])
          ⟨swig.key, 48 + (rolesSize before + 16 + r.auth.length), (encActs 0 r.actions).length⟩ ixs = .ok m') ↔
        ∃ m1, LimitsAllowAll env cpi (m.setData swig.key (w.used (rd ix 4 4)).encode) m1 w swig wallet (x3 :: more)
          (walletSeeds swig.key ++ [[w.walletBump]]) r.actions ixs) := by
    intro wallet x3 more r ixs hr hdec hrole before after tl hpc hpl
    subst hr
    have hpc2 := All2.imp' (fun a c h => FullClass.setData (d := (w.used (rd ix 4 4)).encode) ho.owner h) hpc
    have hprog : ∀ i ∈ ixs, i.program.length = 32 := by
      obtain ⟨cs', y', _, _, _, h4⟩ := (decodeIxs_iff _).mp hdec
      intro i hi
      have : ∀ {cs : List CompactIx} {l : List Inner}, All2 (Denotes (swig :: wallet :: x3 :: more) wallet.key []) cs l → ∀ i ∈ l, i.program.length = 32 := by
        intro cs l h
        induction h with
        | nil => intro i hi; simp at hi
        | cons hd _ ih =>
          intro i hi
          rcases List.mem_cons.mp hi with rfl | hi
          · obtain ⟨o, ho, e⟩ := hd.program
            rw [e]
            exact hk o (List.mem_of_getElem? ho)
          · exact ih i hi
      exact this h4 i hi
    have hu : ∀ i ∈ ixs, (i.usesSigner = true ↔ ∃ a ∈ i.accounts, a.key = wallet.key) := by
      intro i hi
      obtain ⟨f1, f2⟩ := C35_no_forged_signature hdec i hi
      rw [f2]
      refine ⟨fun ⟨a, ha, e, _⟩ => ⟨a, ha, e⟩, fun ⟨a, ha, e⟩ => ⟨a, ha, e, ?_⟩⟩
      obtain ⟨o, _, _, _, f⟩ := f1 a ha
      exact f.mpr ⟨.inl e, by simp⟩
    rw [show walletSeeds swig.key = walletSeeds (ActLoc.swig ⟨swig.key, 48 + (rolesSize before + 16 + r.auth.length), (encActs 0 r.actions).length⟩) from rfl,
      signWith_limited hpl (Mem.setData_data ..) (res r hrole)]
    exact signLimited_full_iff (r0 := { r with auth := usedCred r.authType r.auth }) (r := { r with auth := usedCred r.authType r.auth }) hpl rfl rfl
      (Mem.setData_data ..) (by rw [Mem.setData_owner]; exact ho.owner) hkeep
      (fun a ha => hk a (by simp only [List.mem_cons] at ha ⊢; exact .inr (.inr ha))) (inner_keys hk hdec) hprog hu hpc2
  constructor
  · intro h
    obtain ⟨wallet, x3, more, r, ixs, h1, h2, h3, h4, hin, h5, h6⟩ := sign_needs_full ho hl hi h
    obtain ⟨before, after, tl, k1, k2, k3⟩ := sign_reached_full (cpi := cpi) ho hl hi h1 h2 h3 h4 h5 h6 hin
    exact ⟨wallet, x3, more, r, ixs, h1, h2, h3, h4, hin, h5, h6, (key wallet x3 more r ixs h1 h6 h5.1 before after tl k1 k2).mp (k3.mp h)⟩
  · rintro ⟨wallet, x3, more, r, ixs, h1, h2, h3, h4, hin, h5, h6, h⟩
    obtain ⟨before, after, tl, k1, k2, k3⟩ := sign_reached_full (cpi := cpi) ho hl hi h1 h2 h3 h4 h5 h6 hin
    exact k3.mpr ((key wallet x3 more r ixs h1 h6 h5.1 before after tl k1 k2).mpr h)


theorem tokensSettled_charged {mint : Key} {ts : List (Key × Nat)} {acts acts' : List Act} {n slot : Nat} (hw : ∀ a ∈ acts, a.WF)
    (h : TokensSettled mint ts acts acts' n slot) : All2 Act.Charged acts acts' := by
  have h1 : tokenDestHeld mint acts = true ↔ ¬ NoTokenDest mint acts := by rw [← tokenDestHeld_iff]; simp
  unfold TokensSettled at h
  rw [← h1, ← tokenDestHeld_iff] at h
  have := (settled_iff (g1 := P.tokenLimit) (g2 := P.tokenRecurringLimit) (d1 := P.tokenRecurringDestinationLimit)
    (d2 := P.tokenDestinationLimit) (key := mint) (kf := fun d => mint ++ d) (held := tokenDestHeld mint acts) (ts := ts) hw
    (by decide) (by decide) (by decide) (by decide) (fun h => by cases h) (fun h => by cases h) rfl rfl).mpr h
  exact this.2.charged hw

theorem solSettled_charged {ts : List (Key × Nat)} {acts acts' : List Act} {n slot : Nat} (hw : ∀ a ∈ acts, a.WF)
    (h : SolSettled ts acts acts' n slot) : All2 Act.Charged acts acts' := by
  have h1 : solDestHeld acts = true ↔ ¬ NoSolDest acts := by rw [← solDestHeld_iff]; simp
  unfold SolSettled at h
  rw [← h1, ← solDestHeld_iff] at h
  have := (settled_iff (g1 := P.solLimit) (g2 := P.solRecurringLimit) (d1 := P.solRecurringDestinationLimit)
    (d2 := P.solDestinationLimit) (key := []) (kf := fun d => d) (held := solDestHeld acts) (ts := ts) hw
    (by decide) (by decide) (by decide) (by decide) (fun _ => rfl) (fun _ => rfl) rfl rfl).mpr h
  exact this.2.charged hw

theorem settlesAll_scope {env : Env} {m m1 : Mem} {W : Wallet} {sk wk : Key} {mv : Moved} {paid : Meta → List (Key × Nat)} {acts acts' : List Act}
    {l : List Meta} (h : SettlesAll env m m1 W sk wk mv paid acts l acts') : (∀ a ∈ acts, a.WF) → ∀ a ∈ l, ∀ s0, TargetOf m W a s0 →
    (payload? acts P.programScope a.key).isSome = true := by
  have unc : ∀ {a : Meta} {s0 : Bytes}, TargetOf m W a s0 → Watched m sk wk a → False := fun t h => t.1 (.inr (.inr (watched_owner h)))
  have uns : ∀ {a : Meta} {s0 : Bytes}, TargetOf m W a s0 → StakeWatched m sk wk a → False := fun t h => t.1 (.inr (.inl (stakeWatched_owner h)))
  have pl : ∀ {t1 t2 : Nat} {key : Bytes} {as as' : List Act} {n : Nat}, (∀ a ∈ as, a.WF) → TakesOf t1 t2 key as as' n env.slot →
      t1 ∈ limitTypes → t2 ∈ limitTypes → (repeatable t1 = false → key = []) → (repeatable t2 = false → key = []) → All2 Act.Charged as as' :=
    fun hw h h1 h2 h3 h4 => ((takesOf_iff hw h1 h2 h3 h4).mp h).2.charged hw
  induction h with
  | nil => intro _ a ha; simp at ha
  | skip _ _ h3 _ ih =>
    intro hw a ha s0 ht
    rcases List.mem_cons.mp ha with rfl | ha
    · exact absurd ht (h3 s0)
    · exact ih hw a ha s0 ht
  | closed h1 _ _ _ _ ih =>
    intro hw a ha s0 ht
    rcases List.mem_cons.mp ha with rfl | ha
    · exact (unc ht h1).elim
    · exact ih hw a ha s0 ht
  | @kept acts mid acts' b l h1 _ _ _ _ _ hsp _ ih =>
    intro hw a ha s0 ht
    rcases List.mem_cons.mp ha with rfl | ha
    · exact (unc ht h1).elim
    · have hc : All2 Act.Charged acts mid := by
        rcases hsp with ⟨_, rfl⟩ | ⟨_, hsp⟩
        · exact All2.refl' Act.Charged.refl _
        · exact tokensSettled_charged hw hsp
      rw [← payload?_charged hc]
      exact ih (All2.wf hc hw) a ha s0 ht
  | @stake acts mid acts' b l h1 _ hsp _ ih =>
    intro hw a ha s0 ht
    rcases List.mem_cons.mp ha with rfl | ha
    · exact (uns ht h1).elim
    · have hc : All2 Act.Charged acts mid := by
        rcases hsp with ⟨_, rfl⟩ | ⟨_, ⟨_, rfl⟩ | ⟨_, hsp⟩⟩
        · exact All2.refl' Act.Charged.refl _
        · exact All2.refl' Act.Charged.refl _
        · exact pl hw hsp (by decide) (by decide) (fun _ => rfl) (fun _ => rfl)
      rw [← payload?_charged hc]
      exact ih (All2.wf hc hw) a ha s0 ht
  | @scope acts mid acts' b l _ _ _ _ h1 h2 _ _ _ _ _ hsp _ ih =>
    intro hw a ha s0 ht
    rcases List.mem_cons.mp ha with rfl | ha
    · rw [h2]; rfl
    · have hc : All2 Act.Charged acts mid := by
        rcases hsp with ⟨_, rfl⟩ | ⟨_, hsp⟩
        · exact All2.refl' Act.Charged.refl _
        · exact ((scopeTakes_iff hw h2).mpr hsp).charged hw
      rw [← payload?_charged hc]
      exact ih (All2.wf hc hw) a ha s0 ht


/-- A scope that one role has for an account closes the account to the others: a role with limits and without a scope of its own for the
account cannot have anything executed in a request that passes the account, whatever its permissions and whatever the request does. -/
theorem C115_closed_to_others (ho : Open m swig.key w) (hl : (swig :: rest).length ≤ 254) (hi : rd ix 0 2 = 11)
    (hf : ∀ r, w.role? (rd ix 4 4) = some r → ¬ r.holds P.all ∧ ¬ r.holds P.allButManageAuthority)
    (hk : ∀ a ∈ swig :: rest, a.key.length = 32) (hkeep : cpi.Keeps swig.key) {a : Meta} (ha : a ∈ rest.drop 1) (hu : ¬ Unscoped m a.key)
    (hany : w.scopeOn a.key ≠ none) (hno : ∀ r, w.role? (rd ix 4 4) = some r → payload? r.actions P.programScope a.key = none) :
    ¬ Accepted env cpi m (swig :: rest) ix := by
  intro h
  obtain ⟨wallet, x3, more, r, ixs, rfl, h2, h3, h4, hin, h5, h6, m1, h7⟩ := (C114_sign_limited ho hl hi hf hk hkeep).mp h
  obtain ⟨s, hs⟩ := Option.ne_none_iff_exists'.mp hany
  obtain ⟨mid, acts', k1, k2⟩ := h7.settled
  have hw : ∀ a ∈ r.actions, a.WF := (ho.wf.roles r (role?_mem h5.1).1).acts
  have hc : All2 Act.Charged r.actions mid := by
    rcases k1 with ⟨_, rfl⟩ | ⟨_, k1⟩
    · exact All2.refl' Act.Charged.refl _
    · exact solSettled_charged hw k1
  have hne : a.key ≠ swig.key := by
    intro e
    apply hu
    rw [e]
    exact .inl ho.owner
  have ht : TargetOf (m.setData swig.key (w.used (rd ix 4 4)).encode) w a s := by
    unfold TargetOf Unscoped
    rw [Mem.setData_other _ _ hne]
    exact ⟨hu, hs⟩
  have := settlesAll_scope k2 (All2.wf hc hw) a (by simpa using ha) s ht
  rw [payload?_charged hc, hno r h5.1] at this
  cases this

theorem settlesAll_congr {env : Env} {m m1 : Mem} {w w' : Wallet} {sk wk : Key} {mv : Moved} {paid : Meta → List (Key × Nat)}
    {acts acts' : List Act} {l : List Meta} (h : SettlesAll env m m1 w sk wk mv paid acts l acts') :
    (∀ a ∈ l, w'.scopeOn a.key = w.scopeOn a.key) → SettlesAll env m m1 w' sk wk mv paid acts l acts' := by
  have tg : ∀ {a : Meta} {s : Bytes}, w'.scopeOn a.key = w.scopeOn a.key → (TargetOf m w' a s ↔ TargetOf m w a s) := by
    intro a s e
    unfold TargetOf
    rw [e]
  induction h with
  | nil => intro _; exact .nil
  | skip h1 h2 h3 _ ih =>
    intro he
    exact .skip h1 h2 (fun s t => h3 s ((tg (he _ (by simp))).mp t)) (ih fun a ha => he a (by simp [ha]))
  | closed h1 h2 h3 h4 _ ih => intro he; exact .closed h1 h2 h3 h4 (ih fun a ha => he a (by simp [ha]))
  | kept h1 h2 h3 h4 h5 h6 h7 _ ih => intro he; exact .kept h1 h2 h3 h4 h5 h6 h7 (ih fun a ha => he a (by simp [ha]))
  | stake h1 h2 h3 _ ih => intro he; exact .stake h1 h2 h3 (ih fun a ha => he a (by simp [ha]))
  | scope h1 h2 h3 h4 h5 h6 h7 h8 _ ih =>
    intro he
    exact .scope ((tg (he _ (by simp))).mpr h1) h2 h3 h4 h5 h6 h7 h8 (ih fun a ha => he a (by simp [ha]))

theorem limitsAllowAll_congr {m m1 : Mem} {w w' : Wallet} {swig wallet : Meta} {rest : List Meta} {seeds : List Bytes} {acts : List Act}
    {ixs : List Inner} (he : ∀ a ∈ rest, w'.scopeOn a.key = w.scopeOn a.key)
    (h : LimitsAllowAll env cpi m m1 w swig wallet rest seeds acts ixs) : LimitsAllowAll env cpi m m1 w' swig wallet rest seeds acts ixs where
  calls := h.calls
  runs := h.runs
  rent := h.rent
  first := by
    intro i a hi hw hwat
    refine h.first i a hi hw ?_
    rcases hwat with e | e | ⟨s, e⟩
    · exact .inl e
    · exact .inr (.inl e)
    · exact .inr (.inr ⟨s, e.1, by rw [← he a (List.mem_of_getElem? hi)]; exact e.2⟩)
  settled := by
    obtain ⟨mid, acts', k1, k2⟩ := h.settled
    exact ⟨mid, acts', k1, settlesAll_congr k2 he⟩

theorem scopeOn_alone {w : Wallet} {id : Nat} {k : Key} (h : ∀ r ∈ w.roles, r.id ≠ id → payload? r.actions P.programScope k = none) :
    (w.alone id).scopeOn k = w.scopeOn k := by
  unfold Wallet.scopeOn Wallet.alone
  dsimp only
  congr 1
  funext i
  unfold Wallet.role?
  dsimp only
  by_cases e : i = id
  · subst e
    rw [List.find?_filter]
    congr 2
    funext r
    simp
  · have h1 : (w.roles.filter fun r => decide (r.id = id)).find? (fun r => decide (r.id = i)) = none := by
      rw [List.find?_eq_none]
      intro r hr
      have := (List.mem_filter.mp hr).2
      simp only [decide_eq_true_eq] at this ⊢
      rw [this]
      exact fun h => e h.symm
    rw [h1]
    cases h2 : w.roles.find? (fun r => decide (r.id = i)) with
    | none => rfl
    | some r =>
      have h3 := List.find?_some h2
      simp only [decide_eq_true_eq] at h3
      exact (h r (List.mem_of_find?_eq_some h2) (by rw [h3]; exact e)).symm

/-- What holds of C115: if no other role has a scope for an account that is passed, whether the request is accepted does not depend on the
permissions of the other roles: the conditions are those of the wallet without them. -/
theorem C115_alone_partial (ho : Open m swig.key w) (hl : (swig :: rest).length ≤ 254) (hi : rd ix 0 2 = 11)
    (hf : ∀ r, w.role? (rd ix 4 4) = some r → ¬ r.holds P.all ∧ ¬ r.holds P.allButManageAuthority)
    (hk : ∀ a ∈ swig :: rest, a.key.length = 32) (hkeep : cpi.Keeps swig.key)
    (hs : ∀ a ∈ rest, ∀ r ∈ w.roles, r.id ≠ rd ix 4 4 → payload? r.actions P.programScope a.key = none) :
    Accepted env cpi m (swig :: rest) ix ↔
      ∃ wallet x3 more r ixs, rest = wallet :: x3 :: more ∧ 8 + rd ix 2 2 ≤ ix.length ∧ env.stackHeight = 1 ∧
        (m wallet.key).owner = systemId ∧ Inspected m (w.alone (rd ix 4 4)) swig.key wallet.key (x3 :: more) ∧
        Speaks env m (swig :: rest) w (rd ix 4 4) (ix.drop (8 + rd ix 2 2)) (innerBytes ix) r ∧
        decodeIxs (swig :: rest) wallet.key [] (innerBytes ix) = .ok ixs ∧
        ∃ m1, LimitsAllowAll env cpi (m.setData swig.key (w.used (rd ix 4 4)).encode) m1 (w.alone (rd ix 4 4)) swig wallet (x3 :: more)
          (walletSeeds swig.key ++ [[w.walletBump]]) r.actions ixs := by
  rw [C114_sign_limited ho hl hi hf hk hkeep]
  have same : ∀ {wallet x3 : Meta} {more : List Meta}, rest = wallet :: x3 :: more → ∀ a ∈ x3 :: more,
      (w.alone (rd ix 4 4)).scopeOn a.key = w.scopeOn a.key := by
    rintro wallet x3 more rfl a ha
    exact scopeOn_alone (hs a (by simp only [List.mem_cons] at ha ⊢; exact .inr ha))
  have insp : ∀ {w1 w2 : Wallet} {sk wk : Key} {l : List Meta}, (∀ a ∈ l, w2.scopeOn a.key = w1.scopeOn a.key) →
      Inspected m w1 sk wk l → Inspected m w2 sk wk l := by
    intro w1 w2 sk wk l he h a ha
    refine ⟨(h a ha).1, fun s t => (h a ha).2 s ⟨t.1, by rw [← he a ha]; exact t.2⟩⟩
  constructor
  · rintro ⟨wallet, x3, more, r, ixs, h1, h2, h3, h4, hin, h5, h6, m1, h7⟩
    exact ⟨wallet, x3, more, r, ixs, h1, h2, h3, h4, insp (same h1) hin, h5, h6, m1, limitsAllowAll_congr (same h1) h7⟩
  · rintro ⟨wallet, x3, more, r, ixs, h1, h2, h3, h4, hin, h5, h6, m1, h7⟩
    exact ⟨wallet, x3, more, r, ixs, h1, h2, h3, h4, insp (fun a ha => (same h1 a ha).symm) hin, h5, h6, m1,
      limitsAllowAll_congr (fun a ha => (same h1 a ha).symm) h7⟩

end

/-! ## The hypotheses are met, and both sides occur -/

section
open Sample

/-- The programs of Verif/Spec/SampleStake.lean, in a runtime that lets nobody but its owner write the configuration account. -/
def guardedMore : Cpi := fun m ix =>
  match moreCpi m ix with
  | .ok m' => if (m' (K 1)).data = (m (K 1)).data ∧ (m' (K 1)).owner = (m (K 1)).owner then .ok m' else .error .runtime
  | .error e => .error e

theorem guardedMore_keeps : guardedMore.Keeps (K 1) := by
  intro m ix m' h
  unfold guardedMore at h
  split at h
  · split at h
    · rename_i h1; cases h; exact h1
    · cases h
  · cases h

/-- The account `K 80` is a watched stake account in a known state. -/
theorem stake_met : Open (moreMem (signWallet stakeActs) stakeAcct) (K 1) (signWallet stakeActs) ∧
    StakeWatched (moreMem (signWallet stakeActs) stakeAcct) (K 1) (K 2) ⟨K 80, false, true⟩ ∧
    rd (moreMem (signWallet stakeActs) stakeAcct (K 80)).data 0 4 = 2 ∧ (⟨K 80, false, true⟩ : Meta) ∈ moreRest ∧
    (signSwig :: signAddr :: moreRest).length ≤ 254 ∧ (∀ a ∈ signSwig :: signAddr :: moreRest, a.key.length = 32) :=
  ⟨⟨by decide +kernel, by decide +kernel, by decide +kernel⟩, .inr ⟨by decide +kernel, by decide +kernel, by decide +kernel⟩,
    by decide +kernel, by decide +kernel, by decide +kernel, by decide +kernel⟩

/-- The account `K 80` is the target of a scope, and its balance is noted. -/
theorem scope_met : Open (moreMem (signWallet scopeActs) vault) (K 1) (signWallet scopeActs) ∧
    TargetOf (moreMem (signWallet scopeActs) vault) (signWallet scopeActs) ⟨K 80, false, true⟩ (scope 30 100 1 0 8) ∧
    (ProgramScope.decode (scope 30 100 1 0 8)).noted vault.data = some 1000 := by
  have h1 : ¬ Unscoped (moreMem (signWallet scopeActs) vault) (K 80) := by unfold Unscoped; decide +kernel
  exact ⟨⟨by decide +kernel, by decide +kernel, by decide +kernel⟩, ⟨h1, by decide +kernel⟩, by decide +kernel⟩

/-- With a stake limit of 600: withdrawals of 600, and of 601; with a scope of which 70 are left: 70 paid out, and 71. -/
example : (∀ e ∈ [(stakeActs, stakeAcct, [withdrawStake 600]), (scopeActs, vault, [payOut 30, payOut 40])],
      Accepted signEnv guardedMore (moreMem (signWallet e.1) e.2.1) (signSwig :: signAddr :: moreRest) (signIx e.2.2)) ∧
    (∀ e ∈ [(stakeActs, stakeAcct, [withdrawStake 601]), (scopeActs, vault, [payOut 30, payOut 41])],
      ¬ Accepted signEnv guardedMore (moreMem (signWallet e.1) e.2.1) (signSwig :: signAddr :: moreRest) (signIx e.2.2)) := by
  have acc : ∀ {env cpi m metas ix}, ok (process env cpi m metas ix) = true → Accepted env cpi m metas ix := exists_of_ok
  have rej : ∀ {env cpi m metas ix}, ok (process env cpi m metas ix) = false → ¬ Accepted env cpi m metas ix := by
    rintro env cpi m metas ix h ⟨m', e⟩
    rw [e] at h
    cases h
  refine ⟨fun e he => acc ?_, fun e he => rej ?_⟩
  · revert e; decide +kernel
  · revert e; decide +kernel

/-- Role 1 may call every program; the owner has a basic scope for `K 80`. -/
def othersScope : Wallet :=
  { wallet with roles := [{ root with actions := root.actions ++ [⟨P.programScope, scope 0 0 0 0 8⟩] }, ⟨1, 1, K 11, acts4⟩] }

/-- Full claim of C115: a permission given to one role takes nothing away from another.  It is false of the code: role 1, which may call
every program, has 60 paid out of the account `K 80`; once the owner, who may do everything anyway, also has a scope for that account, the
same request of role 1 is refused. -/
theorem C115_refuted : Open (moreMem (signWallet acts4) vault) (K 1) (signWallet acts4) ∧ Open (moreMem othersScope vault) (K 1) othersScope ∧
    othersScope.role? 1 = (signWallet acts4).role? 1 ∧
    Accepted signEnv guardedMore (moreMem (signWallet acts4) vault) (signSwig :: signAddr :: moreRest) (signIx [payOut 60]) ∧
    ¬ Accepted signEnv guardedMore (moreMem othersScope vault) (signSwig :: signAddr :: moreRest) (signIx [payOut 60]) := by
  refine ⟨⟨by decide +kernel, by decide +kernel, by decide +kernel⟩, ⟨by decide +kernel, by decide +kernel, by decide +kernel⟩, by decide +kernel,
    exists_of_ok (by decide +kernel), ?_⟩
  refine C115_closed_to_others (w := othersScope) (a := ⟨K 80, false, true⟩) ⟨by decide +kernel, by decide +kernel, by decide +kernel⟩ (by decide +kernel)
    (by decide +kernel) ?_ (by decide +kernel) guardedMore_keeps (by decide +kernel) (by unfold Unscoped; decide +kernel) (by decide +kernel) ?_
  · intro r hr
    have : r = ⟨1, 1, K 11, acts4⟩ := by
      have : othersScope.role? (rd (signIx [payOut 60]) 4 4) = some ⟨1, 1, K 11, acts4⟩ := by decide +kernel
      exact Option.some.inj (hr.symm.trans this)
    subst this
    unfold Role.holds
    decide +kernel
  · intro r hr
    have : r = ⟨1, 1, K 11, acts4⟩ := by
      have : othersScope.role? (rd (signIx [payOut 60]) 4 4) = some ⟨1, 1, K 11, acts4⟩ := by decide +kernel
      exact Option.some.inj (hr.symm.trans this)
    subst this
    decide +kernel

/-- The hypotheses of `C115_alone_partial`: the other role has no scope for the accounts of the request. -/
example : Open (moreMem (signWallet scopeActs) vault) (K 1) (signWallet scopeActs) ∧
    (∀ a ∈ signAddr :: moreRest, ∀ r ∈ (signWallet scopeActs).roles, r.id ≠ rd (signIx [payOut 60]) 4 4 →
      payload? r.actions P.programScope a.key = none) ∧ rd (signIx [payOut 60]) 0 2 = 11 :=
  ⟨scope_met.1, by decide +kernel, by decide +kernel⟩

end

end Verif
