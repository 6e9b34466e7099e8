import Verif.Proofs.LiveClose
import Verif.Proofs.Sub

/-! When the handlers of V2 sub-accounts succeed. -/

namespace Verif

theorem checkSelfPda_of {env : Env} {seeds : List Bytes} {bump : UInt8} {target : Key} {e : Err}
    (h : env.pda (seeds ++ [[bump]]) = some target) : checkSelfPda env seeds bump target e = .ok bump := by
  unfold checkSelfPda
  rw [h]
  simp

theorem openSwigV2_of {w : Wallet} (hw : w.WF) (h : isV2 w.header = true) : openSwigV2 w.encode = .ok w.parts := by
  have hl := Wallet.encode_length hw
  have e : Header.decode w.encode = w.header := Header.decode_encode hw.header _
  unfold openSwigV2
  rw [require_of (show w.encode ≠ [] by intro h0; rw [h0] at hl; simp at hl; omega), ok_bind, require_of (Wallet.encode_disc w), ok_bind,
    require_of (by omega), ok_bind, e, require_of h, ok_bind, openSwig_enc hw]

theorem actScoped_of {env : Env} {m : Mem} {metas : List Meta} {swig : Key} {role ty id : Nat} {payload data : Bytes}
    {w : Wallet} {r : Role} (hw : w.WF) (hd : (m swig).data = w.encode) (hty : 23 ≤ ty ∧ ty ≤ 26) (hid : id < 2 ^ 32)
    (hv : isV2 w.header = true) (hact : ActsAs env m metas w role payload data r) (hs : r.Scoped ty true id) :
    ∃ v, actScoped env m metas swig role ty id payload data = .ok ((w.used role).parts, v) := by
  obtain ⟨v, e1, e2, _⟩ := actAs_of hw hact
  unfold actScoped
  rw [hd, openSwigV2_of hw hv, ok_bind, e1, ok_bind]
  dsimp only
  unfold authorizeScoped
  rw [e2, hasScoped_enc (hw.roles r (role?_mem hact.1).1) hty hid, ok_bind, require_of (decide_eq_true hs), ok_bind]
  exact ⟨v, rfl⟩

theorem loadSubState_of {b : Bytes} (h1 : b.length = 72) (h2 : b.getD 0 0 = 2) : loadSubState b = .ok (SubState.decode b) := by
  unfold loadSubState
  rw [if_neg (by simp [h1]), if_neg (by rw [h2]; simp)]

theorem validateState_of {env : Env} {m : Mem} {state asset swigKey : Key} {id : Nat} (ho : (m state).owner = swigId)
    (h : StateOk env (m state).data state asset swigKey id) :
    validateState env m state asset swigKey id = .ok ((m state).data.getD 2 0) := by
  have e : (SubState.decode (m state).data).isEnabled = .ok true := by
    unfold SubState.isEnabled
    rw [show (SubState.decode (m state).data).enabled = (m state).data.getD 3 0 from rfl, h.enabled]
    rfl
  unfold validateState
  have e1 : (SubState.decode (m state).data).swigId = swigKey := h.swig
  have e2 : (SubState.decode (m state).data).subId = id := h.subId
  have e3 : (SubState.decode (m state).data).sub = asset := h.sub
  rw [require_of ho, ok_bind, loadSubState_of h.len h.disc, ok_bind, require_of e1, ok_bind, require_of e2, ok_bind, e, ok_bind,
    require_of rfl, ok_bind, show (SubState.decode (m state).data).bump = (m state).data.getD 1 0 from rfl, checkSelfPda_of h.pda, ok_bind,
    require_of e3, ok_bind]
  rfl

theorem toggleSubV2_of {env : Env} {m : Mem} {swig auth state : Meta} {rest : List Meta} {ix : Bytes} {w : Wallet} {r : Role}
    (hw : w.WF) (hd : (m swig.key).data = w.encode) (ho : (m swig.key).owner = swigId) (hv : isV2 w.header = true)
    (h16 : 16 ≤ ix.length) (h01 : ix.getD 2 0 = 0 ∨ ix.getD 2 0 = 1)
    (hact : ActsAs env m (swig :: auth :: state :: rest) w (rd ix 4 4) (ix.drop 16) (ix.take 16) r)
    (hs : r.Scoped P.subAccountV2Toggle true (rd ix 8 4)) (hne : state.key ≠ swig.key) (hso : (m state.key).owner = swigId)
    (hl : (m state.key).data.length = 72) (hdisc : (m state.key).data.getD 0 0 = 2)
    (hen : (m state.key).data.getD 3 0 = 0 ∨ (m state.key).data.getD 3 0 = 1) (hid : rd (m state.key).data 4 4 = rd ix 8 4)
    (hsw : sl (m state.key).data 8 40 = w.id)
    (hpda : env.pda (subV2StateSeeds w.id (natLE 4 (rd ix 8 4)) ++ [[(m state.key).data.getD 1 0]]) = some state.key) :
    ∃ m', toggleSubV2 env m (swig :: auth :: state :: rest) ix = .ok m' := by
  obtain ⟨v, e1⟩ := actScoped_of hw hd (show 23 ≤ P.subAccountV2Toggle ∧ P.subAccountV2Toggle ≤ 26 by decide) (rd_lt32 _ _) hv hact hs
  simp only [toggleSubV2]
  rw [require_of ho, ok_bind, require_of hso, ok_bind, require_of h16, ok_bind, require_of h01, ok_bind, e1, ok_bind]
  dsimp only
  have e2 : ∃ b, (SubState.decode (m state.key).data).isEnabled = .ok b := by
    unfold SubState.isEnabled
    rw [show (SubState.decode (m state.key).data).enabled = (m state.key).data.getD 3 0 from rfl]
    rcases hen with h | h <;> rw [h] <;> exact ⟨_, rfl⟩
  obtain ⟨b, e2⟩ := e2
  unfold toggleState
  have e3 : (SubState.decode (m state.key).data).swigId = w.id := hsw
  have e4 : (SubState.decode (m state.key).data).subId = rd ix 8 4 := hid
  rw [Mem.setData_other _ _ hne, loadSubState_of hl hdisc, ok_bind, e2, ok_bind,
    show (w.used (rd ix 4 4)).parts.header.id = w.id from rfl, require_of e3, ok_bind, require_of e4, ok_bind,
    show (SubState.decode (m state.key).data).bump = (m state.key).data.getD 1 0 from rfl, checkSelfPda_of hpda, ok_bind, ok_bind]
  exact ⟨_, rfl⟩

theorem withdrawSubV2_of {env : Env} {cpi : Cpi} {m : Mem} {swig auth state sub wallet x6 x7 : Meta} {rest : List Meta}
    {ix : Bytes} {w : Wallet} {r : Role} (hw : w.WF) (hd : (m swig.key).data = w.encode) (ho : (m swig.key).owner = swigId)
    (hv : isV2 w.header = true) (h24 : 24 ≤ ix.length)
    (hact : ActsAs env m (swig :: auth :: state :: sub :: wallet :: x6 :: x7 :: rest) w (rd ix 4 4) (ix.drop 24) (ix.take 24) r)
    (hs : r.Scoped P.subAccountV2Withdraw true (rd ix 8 4)) (hne : state.key ≠ swig.key) (hso : (m state.key).owner = swigId)
    (hsub : (m sub.key).owner = systemId) (hwal : (m wallet.key).owner = systemId)
    (hst : StateOk env (m state.key).data state.key sub.key w.id (rd ix 8 4))
    (hpda : env.pda (walletSeeds swig.key ++ [[w.walletBump]]) = some wallet.key)
    (hmove : ∃ m', withdrawV2 env cpi (m.setData swig.key (w.used (rd ix 4 4)).encode)
      (swig :: auth :: state :: sub :: wallet :: x6 :: x7 :: rest) sub wallet (rd ix 16 8)
      (subV2Seeds w.id (natLE 4 (rd ix 8 4)) ++ [[(m state.key).data.getD 2 0]]) = .ok m') :
    ∃ m', withdrawSubV2 env cpi m (swig :: auth :: state :: sub :: wallet :: x6 :: x7 :: rest) ix = .ok m' := by
  obtain ⟨v, e1⟩ := actScoped_of hw hd (show 23 ≤ P.subAccountV2Withdraw ∧ P.subAccountV2Withdraw ≤ 26 by decide) (rd_lt32 _ _) hv hact hs
  obtain ⟨m', hm⟩ := hmove
  have e2 := validateState_of (env := env) (m := m.setData swig.key (w.used (rd ix 4 4)).encode) (state := state.key) (asset := sub.key)
    (swigKey := w.id) (id := rd ix 8 4) (by simpa using hso) (by rw [Mem.setData_other _ _ hne]; exact hst)
  rw [Mem.setData_other _ _ hne] at e2
  simp only [withdrawSubV2]
  rw [require_of ho, ok_bind, require_of hsub, ok_bind, require_of hwal, ok_bind, require_of h24, ok_bind, e1, ok_bind]
  dsimp only
  rw [show (w.used (rd ix 4 4)).parts.header.walletBump = w.walletBump from rfl, checkSelfPda_of hpda, ok_bind, Wallet.parts_bytes,
    show (w.used (rd ix 4 4)).parts.header.id = w.id from rfl, e2, ok_bind]
  exact ⟨m', hm⟩

theorem subSignV2_of {env : Env} {cpi : Cpi} {m m1 : Mem} {swig state sub sys : Meta} {rest : List Meta} {ix : Bytes} {w : Wallet}
    {a : SubSignV2Ix} {r : Role} {ixs : List Inner}
    (hw : w.WF) (hd : (m swig.key).data = w.encode) (ho : (m swig.key).owner = swigId) (hv : isV2 w.header = true)
    (hp : parseSubSignV2 ix = .ok a) (hsub : (m sub.key).owner = systemId) (hst1 : env.stackHeight = 1) (hid : a.subId < 2 ^ 32)
    (hact : ActsAs env m (swig :: state :: sub :: sys :: rest) w a.role a.authPayload a.dataPayload r)
    (hs : r.Scoped P.subAccountV2Sign true a.subId) (hne : state.key ≠ swig.key) (hso : (m state.key).owner = swigId)
    (hst : StateOk env (m state.key).data state.key sub.key w.id a.subId)
    (hdec : decodeIxs (swig :: state :: sub :: sys :: rest) sub.key [] a.payload = .ok ixs)
    (hexec : execAll env cpi (swig :: state :: sub :: sys :: rest) sub.key
        (subV2Seeds w.id (natLE 4 a.subId) ++ [[(m state.key).data.getD 2 0]])
        (m.setData swig.key (w.used a.role).encode) ixs = .ok m1)
    (hrent : env.rent (m1 sub.key).data.length ≤ (m1 sub.key).lamports) :
    subSignV2 env cpi m (swig :: state :: sub :: sys :: rest) ix = .ok m1 := by
  obtain ⟨v, e1⟩ := actScoped_of hw hd (show 23 ≤ P.subAccountV2Sign ∧ P.subAccountV2Sign ≤ 26 by decide) hid hv hact hs
  have e2 := validateState_of (env := env) (m := m.setData swig.key (w.used a.role).encode) (state := state.key) (asset := sub.key)
    (swigKey := w.id) (id := a.subId) (by simpa using hso) (by rw [Mem.setData_other _ _ hne]; exact hst)
  rw [Mem.setData_other _ _ hne] at e2
  simp only [subSignV2]
  rw [require_of hst1, ok_bind, require_of ho, ok_bind, require_of hsub, ok_bind, hp, ok_bind, e1, ok_bind]
  dsimp only
  rw [Wallet.parts_bytes, show (w.used a.role).parts.header.id = w.id from rfl, e2, ok_bind, hdec, ok_bind, hexec, ok_bind]
  unfold checkRent
  rw [if_neg (by omega)]

theorem appendActions_of {env : Env} {m : Mem} {swig payer : Meta} {id : Nat} {acts : Bytes} {w : Wallet} {t : Role} {extra : List Act}
    (hw : w.WF) (hd : (m swig.key).data = w.encode) (ht : w.role? id = some t) (hs : Submits acts extra)
    (hfr : ∀ x ∈ t.actions ++ extra, x.Fresh) (h1 : 1 ≤ (t.actions ++ extra).length) (h255 : (t.actions ++ extra).length ≤ 255)
    (hdup : NoV2Dup (t.actions ++ extra)) (hsize : MayGrow w.encode.length acts.length)
    (hpay : ∀ d, Topped env (m.setData swig.key d) payer swig (w.encode.length + acts.length)) : ∃ m', appendActions env m swig payer id acts = .ok m' := by
  have htail := savedTailTake_enc hw
  unfold appendActions
  rw [hd, openSwig_enc hw, ok_bind, show w.parts.tail = encTail w.claimer from rfl, htail, ok_bind,
    show w.parts.header.roles = w.roles.length from rfl, show w.parts.roles = encRoles 0 w.roles from rfl]
  rcases getMutRole_enc id w.roles hw.rolesOk with ⟨t2, before, after, g1, g2, g3, _⟩ | ⟨g1, _⟩
  · have ht2 : w.role? id = some t2 := role?_split g1 g2 g3
    rw [ht] at ht2
    cases ht2
    have hfo := findOffsetsGo_enc id t after g2 before [] (by rw [← g1]; exact hw.rolesOk) g3
    simp only [List.nil_append, List.length_nil, Nat.zero_add, ← g1] at hfo
    rw [hfo, ok_bind]
    dsimp only
    have hmod := Wallet.encode_mod hw
    have hlen := Wallet.encode_length hw
    have hxl := hs.length
    have hxm := actsSize_mod (fun x hx => (hfr x (by simp [hx])).1 : ∀ x ∈ extra, x.WF)
    obtain ⟨m1, e4⟩ := growFor_of (env := env) (m := m) (payer := payer) (swig := swig) (n := acts.length)
      (by rw [hd]; exact hmod) (by omega) (fun _ => by rw [hd]; exact ⟨hsize, hpay⟩)
    rw [e4, ok_bind]
    obtain ⟨hod1, hgr⟩ := growFor_ok e4
    have hdat : (m1 swig.key).data = w.encode ++ zeros acts.length := by
      rcases hgr with ⟨h0, rfl⟩ | ⟨hpos, hmx, hdat⟩
      · rw [h0, hd]; simp [zeros]
      · rw [hd, align8_of_mod (by omega), Nat.add_sub_cancel_left] at hdat
        exact hdat
    obtain ⟨d, e5⟩ := updateData_of (op := .add acts) (g := acts.length) hw g1 g2 (Nat.le_refl _)
      (by unfold MayGrow at hsize; omega) ⟨extra, hs, rfl⟩ hfr h1 h255 hdup
    rw [hdat, show (encRoles 0 w.roles).length = rolesSize w.roles by simp, e5, ok_bind]
    exact ⟨_, rfl⟩
  · exact absurd (role?_mem ht).2 (g1 t (role?_mem ht).1)

theorem drawSubId_of {env : Env} {m : Mem} {metas : List Meta} {swig : Key} {role : Nat} {payload data : Bytes} {w : Wallet} {r : Role}
    (hw : w.WF) (hd : (m swig).data = w.encode) (hv : isV2 w.header = true) (hact : ActsAs env m metas w role payload data r)
    (hperm : r.holds P.subAccountV2Create) (hc : w.subCounter + 1 < 2 ^ 32) :
    drawSubId env m metas swig role payload data =
      .ok ((w.used role).drawn.parts, w.subCounter, decide (r.Scoped P.subAccountV2All false w.subCounter)) := by
  obtain ⟨v, e1, e2, _⟩ := actAs_of hw hact
  have hrm := (role?_mem hact.1).1
  unfold drawSubId
  rw [hd, openSwigV2_of hw hv, ok_bind, e1, ok_bind]
  dsimp only
  rw [e2, hasMarker_enc hw hrm (by decide), ok_bind, require_of (by simpa using hperm), ok_bind,
    show (w.used role).parts.header.subCounter = w.subCounter from rfl, require_of hc, ok_bind,
    hasScoped_enc (hw.roles r hrm) (by decide) (by omega), ok_bind]
  rfl

/-- The state account, the sub-account and the grown wallet account can be paid for. -/
structure CanPaySub (env : Env) (m : Mem) (payer swig state sub : Meta) (n : Nat) : Prop where
  other : payer.key ≠ swig.key ∧ payer.key ≠ state.key ∧ payer.key ≠ sub.key
  apart : state.key ≠ sub.key ∧ sub.key ≠ swig.key
  signer : payer.signer = true
  writable : payer.writable = true ∧ swig.writable = true ∧ state.writable = true ∧ sub.writable = true
  owner : (m payer.key).owner = systemId
  empty : (m payer.key).data = []
  funds : (env.rent 72 - (m state.key).lamports) + (env.rent 0 - (m sub.key).lamports) + (env.rent n - (m swig.key).lamports) ≤
    (m payer.key).lamports

theorem sysTransfer_lam {m m' : Mem} {src dst : Meta} {n : Nat} (h : sysTransfer m src dst n = .ok m') (hne : src.key ≠ dst.key) :
    (m' src.key).lamports = (m src.key).lamports - n ∧ (m' dst.key).lamports = (m dst.key).lamports + n ∧
      ∀ k, k ≠ src.key → k ≠ dst.key → m' k = m k := by
  obtain ⟨_, _, _, _, rfl⟩ := sysTransfer_ok h
  refine ⟨by simp [Mem.setLamports, Mem.set, hne], by simp [Mem.setLamports, Mem.set, hne.symm], ?_⟩
  intro k h1 h2
  simp [Mem.setLamports, Mem.set, h1, h2]

theorem shortfall_of {m : Mem} {payer x : Meta} {c : Nat} (h1 : payer.signer = true) (h2 : payer.writable = true) (h3 : x.writable = true)
    (h4 : (m payer.key).owner = systemId) (h5 : (m payer.key).data = []) (h6 : c ≤ (m payer.key).lamports) (hne : payer.key ≠ x.key) :
    ∃ m', (if c > 0 then sysTransfer m payer x c else .ok m) = .ok m' ∧ (m' payer.key).lamports = (m payer.key).lamports - c ∧
      (∀ k, (m' k).data = (m k).data ∧ (m' k).owner = (m k).owner) ∧ ∀ k, k ≠ payer.key → k ≠ x.key → m' k = m k := by
  split
  · obtain ⟨m', hm⟩ := sysTransfer_of h1 h2 h3 h4 h5 h6
    obtain ⟨g1, _, g3⟩ := sysTransfer_lam hm hne
    exact ⟨m', hm, g1, sysTransfer_data hm, g3⟩
  · exact ⟨m, rfl, by omega, fun _ => ⟨rfl, rfl⟩, fun _ _ _ => rfl⟩

theorem allGrant_dup {r : Role} {id : Nat} (hrw : r.WF) (hid : id < 2 ^ 32) (hng : ¬ r.Scoped P.subAccountV2All false id) :
    NoV2Dup (r.actions ++ [allGrant id]) := by
  unfold NoV2Dup
  rw [List.filterMap_append, List.nodup_append]
  have e : [allGrant id].filterMap Act.v2Key = [(23, id)] := by
    have : leNat ((natLE 4 id ++ zeros 4).take 4) = id := by
      rw [List.take_left' (by simp)]
      exact leNat_natLE_of_lt (by omega)
    simp only [List.filterMap_cons, List.filterMap_nil, Act.v2Key, allGrant, P.subAccountV2All, this]
    rfl
  rw [e]
  refine ⟨hrw.v2, by simp, ?_⟩
  intro a ha b hb hab
  rw [List.mem_singleton.mp hb] at hab
  subst hab
  obtain ⟨x, hx, hk⟩ := List.mem_filterMap.mp ha
  unfold Act.v2Key at hk
  refine hng ⟨x, hx, Or.inl ?_, ?_⟩
  all_goals
    split at hk
    · exact absurd (congrArg Prod.fst (Option.some.inj hk)) (show ¬ (22 : Nat) = 23 by decide)
    · split at hk
      · have := Option.some.inj hk
        first | exact congrArg Prod.fst this | exact congrArg Prod.snd this
      · cases hk

theorem allGrant_fresh (id : Nat) : (allGrant id).Fresh := by
  refine ⟨?_, fun h => ?_, fun h => ?_, fun h => ?_, fun h => ?_, fun h => ?_⟩
  · show actionLen 23 = some (natLE 4 id ++ zeros 4).length
    simp [actionLen]
  all_goals simp [allGrant, P.subAccountV2All, P.solRecurringLimit, P.stakeRecurringLimit, P.tokenRecurringLimit,
    P.solRecurringDestinationLimit, P.tokenRecurringDestinationLimit, P.subAccount] at h

theorem createSubV2_of {env : Env} {m : Mem} {swig payer state sub sys : Meta} {rest : List Meta} {ix : Bytes} {w : Wallet} {r : Role}
    (hw : w.WF) (hd : (m swig.key).data = w.encode) (ho : (m swig.key).owner = swigId) (hv : isV2 w.header = true)
    (hsys : sys.key = systemId) (h16 : 16 ≤ ix.length)
    (hact : ActsAs env m (swig :: payer :: state :: sub :: sys :: rest) w (rd ix 4 4) (ix.drop 16) (ix.take 16) r)
    (hperm : r.holds P.subAccountV2Create) (hc : w.subCounter + 1 < 2 ^ 32)
    (hso : (m state.key).owner = systemId) (hse : (m state.key).data = []) (hsub : (m sub.key).owner = systemId)
    (hp1 : env.pda (subV2StateSeeds w.id (natLE 4 w.subCounter) ++ [[ix.getD 8 0]]) = some state.key)
    (hp2 : env.pda (subV2Seeds w.id (natLE 4 w.subCounter) ++ [[ix.getD 9 0]]) = some sub.key)
    (hfr : ∀ x ∈ r.actions, x.Fresh) (h255 : r.actions.length < 255)
    (hsize : MayGrow w.encode.length 16) (hpay : CanPaySub env m payer swig state sub (w.encode.length + 16)) :
    ∃ m', createSubV2 env m (swig :: payer :: state :: sub :: sys :: rest) ix = .ok m' := by
  have hne : state.key ≠ swig.key := by
    intro e
    rw [e, ho] at hso
    exact absurd hso (by decide)
  obtain ⟨p1, p2, p3⟩ := hpay.other
  obtain ⟨a1, a2⟩ := hpay.apart
  obtain ⟨w1, w2, w3, w4⟩ := hpay.writable
  have hfunds := hpay.funds
  simp only [createSubV2]
  rw [require_of ho, ok_bind, require_of hso, ok_bind, require_of hsub, ok_bind, require_of hsys, ok_bind, require_of (by simp [hse]),
    ok_bind, require_of h16, ok_bind, drawSubId_of hw hd hv hact hperm hc, ok_bind]
  dsimp only
  rw [show (w.used (rd ix 4 4)).drawn.parts.header.id = w.id from rfl, checkSelfPda_of hp1, ok_bind, checkSelfPda_of hp2, ok_bind,
    Wallet.parts_bytes]
  have hw1 : (w.used (rd ix 4 4)).drawn.WF := Wallet.drawn_wf (Wallet.used_wf hw _) hc
  have hul : (w.used (rd ix 4 4)).drawn.encode.length = w.encode.length := by
    rw [Wallet.encode_length hw1, ← Wallet.used_encode_length hw (rd ix 4 4), Wallet.encode_length (Wallet.used_wf hw _)]
    rfl
  generalize hm0 : m.setData swig.key (w.used (rd ix 4 4)).drawn.encode = m0
  have l0 : ∀ k, (m0 k).lamports = (m k).lamports ∧ (m0 k).owner = (m k).owner := by intro k; rw [← hm0]; simp
  have d0 : ∀ k, k ≠ swig.key → (m0 k).data = (m k).data := by intro k hk; rw [← hm0, Mem.setData_other _ _ hk]
  have d0s : (m0 swig.key).data = (w.used (rd ix 4 4)).drawn.encode := by rw [← hm0]; simp
  obtain ⟨m1, e1, f1, g1, k1⟩ := shortfall_of (m := m0) (payer := payer) (x := state) (c := env.rent 72 - (m0 state.key).lamports)
    hpay.signer w1 w3 (by rw [(l0 _).2]; exact hpay.owner) (by rw [d0 _ p1]; exact hpay.empty) (by rw [(l0 _).1, (l0 _).1]; omega) p2
  rw [show fundState env m0 payer state = _ from e1, ok_bind]
  have e2 : sysAllocAssign env m1 (subV2StateSeeds w.id (natLE 4 w.subCounter) ++ [[ix.getD 8 0]]) state 72 swigId =
      .ok (m1.set state.key { owner := swigId, lamports := (m1 state.key).lamports, data := zeros 72 }) := by
    unfold sysAllocAssign
    rw [hp1]
    dsimp only
    rw [if_neg (by simp [w3]), if_neg (by rw [(g1 _).1, (g1 _).2, (l0 _).2, d0 _ hne]; simp [hso, hse]), if_neg (by decide)]
  rw [e2, ok_bind]
  generalize hm2 : (m1.set state.key { owner := swigId, lamports := (m1 state.key).lamports, data := zeros 72 }).setData state.key
    (SubState.encode ⟨2, ix.getD 8 0, ix.getD 9 0, 1, w.subCounter, w.id, sub.key⟩) = m2
  have k2 : ∀ k, k ≠ state.key → m2 k = m1 k := by
    intro k hk
    rw [← hm2, Mem.setData_other _ _ hk, Mem.set_other _ _ hk]
  have s1 : m1 sub.key = m0 sub.key := k1 _ p3.symm a1.symm
  have s2 : m1 swig.key = m0 swig.key := k1 _ p1.symm hne.symm
  obtain ⟨m3, e3, f3, g3, k3⟩ := shortfall_of (m := m2) (payer := payer) (x := sub) (c := env.rent 0 - (m2 sub.key).lamports)
    hpay.signer w1 w4 (by rw [k2 _ p2, (g1 _).2, (l0 _).2]; exact hpay.owner)
    (by rw [k2 _ p2, (g1 _).1, d0 _ p1]; exact hpay.empty)
    (by rw [k2 _ a1.symm, k2 _ p2, s1, f1, (l0 _).1, (l0 _).1, (l0 _).1]; omega) p3
  rw [show fundEmpty env m2 payer sub = _ from e3, ok_bind]
  unfold grantAll
  split
  · exact ⟨_, rfl⟩
  rename_i hng
  have hdup : NoV2Dup (r.actions ++ [allGrant w.subCounter]) :=
    allGrant_dup (hw.roles r (role?_mem hact.1).1) (by omega) (fun h => hng (decide_eq_true h))
  have hrole : (w.used (rd ix 4 4)).drawn.role? (rd ix 4 4) = some { r with auth := usedCred r.authType r.auth } := by
    have : (w.used (rd ix 4 4)).role? (rd ix 4 4) = _ := Wallet.used_find w _ _
    show (w.used (rd ix 4 4)).role? (rd ix 4 4) = _
    rw [this, hact.1]
    simp [(role?_mem hact.1).2]
  have s3 : m3 swig.key = m0 swig.key := by rw [k3 _ p1.symm a2.symm, k2 _ hne.symm, s2]
  have hgw := allGrant_fresh w.subCounter
  have hlen : (allActionBytes w.subCounter).length = 16 := by simp [allActionBytes]
  refine appendActions_of (t := { r with auth := usedCred r.authType r.auth }) hw1 (by rw [s3, d0s]) hrole
    (allActionBytes_submits w.subCounter) ?_ (by simp) (by simp; omega) hdup (by rw [hul, hlen]; exact hsize) ?_
  · intro x hx
    rcases List.mem_append.mp hx with hx | hx
    · exact hfr x hx
    · rw [List.mem_singleton.mp hx]; exact hgw
  · intro d
    rw [hul, hlen]
    refine (CanPay.setData ?_ d).topped
    refine ⟨p1, hpay.signer, w1, w2, ?_, ?_, ?_⟩
    · rw [(g3 _).2, k2 _ p2, (g1 _).2, (l0 _).2]; exact hpay.owner
    · rw [(g3 _).1, k2 _ p2, (g1 _).1, d0 _ p1]; exact hpay.empty
    · rw [s3, (l0 _).1, f3, k2 _ p2, f1, k2 _ a1.symm, s1, (l0 _).1, (l0 _).1, (l0 _).1]; omega

end Verif
