import Verif.Proofs.PutAct
import Verif.Proofs.ReplaceHandler

/-! Refinement of the sub-account handlers. -/

namespace Verif

/-! ## Scoped grants -/

/-- The role holds a grant of type `ty` (or the all-operations grant, if accepted) for the V2 sub-account `id`. -/
def Role.Scoped (r : Role) (ty : Nat) (acceptAll : Bool) (id : Nat) : Prop :=
  ∃ a ∈ r.actions, (a.ty = ty ∨ (acceptAll = true ∧ a.ty = P.subAccountV2All)) ∧ leNat (a.data.take 4) = id

instance (r : Role) (ty : Nat) (all : Bool) (id : Nat) : Decidable (r.Scoped ty all id) :=
  inferInstanceAs (Decidable (∃ _ ∈ _, _))

/-- Scoped grants have 8-byte payloads. -/
theorem scoped_len {a : Act} (ha : a.WF) (h : 23 ≤ a.ty ∧ a.ty ≤ 26) : a.data.length = 8 := by
  have : a.ty = 23 ∨ a.ty = 24 ∨ a.ty = 25 ∨ a.ty = 26 := by omega
  unfold Act.WF at ha
  rcases this with e | e | e | e <;> rw [e] at ha <;> exact (Option.some.inj ha).symm

theorem leNat_eq_iff {b : Bytes} {n : Nat} (hb : b.length = 4) (hn : n < 2 ^ 32) : b = natLE 4 n ↔ leNat b = n := by
  constructor
  · rintro rfl
    exact leNat_natLE_of_lt (by simpa using hn)
  · rintro rfl
    have := natLE_leNat b
    rw [hb] at this
    exact this.symm

theorem hasScopedGo_enc {ty id : Nat} {all : Bool} (hty : 23 ≤ ty ∧ ty ≤ 26) (hid : id < 2 ^ 32) :
    ∀ (as : List Act) (off fuel : Nat), (∀ a ∈ as, a.WF) → as.length ≤ fuel →
      hasScopedGo ty id all fuel (encActs off as) = .ok (decide
        (∃ a ∈ as, (a.ty = ty ∨ (all = true ∧ a.ty = P.subAccountV2All)) ∧ leNat (a.data.take 4) = id)) := by
  intro as
  induction as with
  | nil =>
    intro off fuel _ _
    cases fuel <;> simp [hasScopedGo, encActs]
  | cons a as ih =>
    intro off fuel hwf hf
    obtain ⟨fuel, rfl⟩ : ∃ k, fuel = k + 1 := ⟨fuel - 1, by simp at hf; omega⟩
    have ha := hwf a (by simp)
    have hb := ha.bounds
    have e : encActs off (a :: as) = rawAct (natLE 4 (off + a.size)) a ++ encActs (off + a.size) as := by
      simp [encActs, encAct_eq_rawAct]
    obtain ⟨f1, f2, f3, f4, f5⟩ := raw_head (natLE 4 (off + a.size)) (encActs (off + a.size) as) a (by simp) (by omega) (by omega)
    rw [← e] at f1 f2 f3 f4 f5
    have hd : sl (encActs off (a :: as)) 8 (8 + a.data.length) = a.data := by
      have := congrArg Act.data f3
      simp only [headAct, f2] at this
      exact this
    simp only [hasScopedGo, f1, f2]
    rw [if_pos (by omega), if_neg (by omega), permission_ok (by omega)]
    simp only [ok_bind, f4]
    rw [ih _ _ (fun x hx => hwf x (by simp [hx])) (by simp at hf; omega)]
    have key : ((a.ty = ty ∨ (all = true ∧ a.ty = P.subAccountV2All)) ∧ 4 ≤ a.data.length ∧
        sl (encActs off (a :: as)) 8 12 = natLE 4 id) ↔
        ((a.ty = ty ∨ (all = true ∧ a.ty = P.subAccountV2All)) ∧ leNat (a.data.take 4) = id) := by
      refine and_congr_right fun h => ?_
      have hr : 23 ≤ a.ty ∧ a.ty ≤ 26 := by
        rcases h with h | ⟨_, h⟩
        · omega
        · have : a.ty = 23 := h
          omega
      have h8 := scoped_len ha hr
      have hs : sl (encActs off (a :: as)) 8 12 = a.data.take 4 := by
        have : sl (sl (encActs off (a :: as)) 8 (8 + a.data.length)) 0 4 = sl a.data 0 4 := by rw [hd]
        rw [sl_sl _ _ _ _ _ (by omega), sl_zero] at this
        exact this
      rw [hs, leNat_eq_iff (by simp [h8]) hid]
      constructor
      · exact fun x => x.2
      · exact fun x => ⟨by omega, x⟩
    by_cases hc : (a.ty = ty ∨ (all = true ∧ a.ty = P.subAccountV2All)) ∧ leNat (a.data.take 4) = id
    · rw [if_pos (key.mpr hc)]
      congr 1
      symm
      rw [decide_eq_true_iff]
      exact ⟨a, by simp, hc⟩
    · rw [if_neg (fun x => hc (key.mp x))]
      congr 1
      rw [decide_eq_decide]
      constructor
      · rintro ⟨x, hx, h⟩; exact ⟨x, by simp [hx], h⟩
      · rintro ⟨x, hx, h⟩
        simp only [List.mem_cons] at hx
        rcases hx with rfl | hx
        · exact absurd h hc
        · exact ⟨x, hx, h⟩

theorem hasScoped_enc {ty id : Nat} {all : Bool} {r : Role} (hr : r.WF) (hty : 23 ≤ ty ∧ ty ≤ 26) (hid : id < 2 ^ 32) :
    hasScoped ty id all (encActs 0 r.actions) = .ok (decide (r.Scoped ty all id)) := by
  unfold hasScoped
  have := length_le_actsSize r.actions
  exact hasScopedGo_enc hty hid r.actions 0 _ hr.acts (by simp; omega)

theorem authorizeScoped_enc {ty id : Nat} {r : Role} (hr : r.WF) (hty : 23 ≤ ty ∧ ty ≤ 26) (hid : id < 2 ^ 32) {u : Unit}
    (h : authorizeScoped ty id (encActs 0 r.actions) = .ok u) : r.Scoped ty true id := by
  unfold authorizeScoped at h
  rw [hasScoped_enc hr hty hid] at h
  simp only [ok_bind] at h
  exact decide_eq_true_iff.mp (require_ok_iff.mp h)

theorem openSwigV2_ok {w : Wallet} (hw : w.WF) {p : Parts} (h : openSwigV2 w.encode = .ok p) :
    p = w.parts ∧ isV2 w.header = true := by
  unfold openSwigV2 at h
  obtain ⟨_, _, h⟩ := bind_ok_iff.mp h
  obtain ⟨_, _, h⟩ := bind_ok_iff.mp h
  obtain ⟨_, _, h⟩ := bind_ok_iff.mp h
  obtain ⟨_, h4, h⟩ := bind_ok_iff.mp h
  rw [openSwig_enc hw] at h
  cases h
  refine ⟨rfl, ?_⟩
  have := require_ok_iff.mp h4
  have e : Header.decode w.encode = w.header := Header.decode_encode hw.header _
  rwa [e] at this

/-- Every V2 operation: the acting role exists, authenticates and holds a grant for exactly this sub-account. -/
theorem actScoped_enc {env : Env} {m : Mem} {metas : List Meta} {swig : Key} {role ty id : Nat} {payload data : Bytes} {p : Parts}
    {v : RoleView} {w : Wallet} (hw : w.WF) (hd : (m swig).data = w.encode) (hty : 23 ≤ ty ∧ ty ≤ 26) (hid : id < 2 ^ 32)
    (h : actScoped env m metas swig role ty id payload data = .ok (p, v)) :
    ∃ r, ActsAs env m metas w role payload data r ∧ r.Scoped ty true id ∧ p = (w.used role).parts ∧ isV2 w.header = true := by
  unfold actScoped at h
  rw [hd] at h
  obtain ⟨p0, h0, h⟩ := bind_ok_iff.mp h
  obtain ⟨rfl, h2⟩ := openSwigV2_ok hw h0
  obtain ⟨⟨p1, v1⟩, hact, h⟩ := bind_ok_iff.mp h
  obtain ⟨r, hr1, hr2, rfl, hr4, hr5⟩ := actAs_enc hw hact
  simp only at h
  rw [hr4] at h
  obtain ⟨u, hau, h⟩ := bind_ok_iff.mp h
  have hs := authorizeScoped_enc (hw.roles r (role?_mem hr1).1) hty hid hau
  have e := congrArg Prod.fst (Except.ok.inj h)
  exact ⟨r, ⟨hr1, hr2⟩, hs, e.symm, h2⟩

theorem rd_lt32 (b : Bytes) (i : Nat) : rd b i 4 < 2 ^ 32 := by
  have := rd_lt b i 4; simpa using this

/-! ## State accounts -/

theorem readU8_01 {s : SubState} {b : Bool} (h : s.isEnabled = .ok b) : (b = true ↔ s.enabled = 1) := by
  unfold SubState.isEnabled at h
  split at h
  · rename_i h0
    cases h
    simp [h0]
  · split at h
    · rename_i h1
      cases h
      simp [h1]
    · cases h

theorem loadSubState_ok {b : Bytes} {s : SubState} (h : loadSubState b = .ok s) :
    b.length = 72 ∧ b.getD 0 0 = 2 ∧ s = SubState.decode b := by
  unfold loadSubState at h
  split at h
  · cases h
  · rename_i h1
    split at h
    · cases h
    · rename_i h2
      cases h
      exact ⟨Decidable.of_not_not h1, Decidable.of_not_not h2, rfl⟩

/-- What the checks on the state account establish. -/
structure StateOk (env : Env) (b : Bytes) (state asset swigKey : Key) (id : Nat) : Prop where
  len : b.length = 72
  disc : b.getD 0 0 = 2
  enabled : b.getD 3 0 = 1
  subId : rd b 4 4 = id
  swig : sl b 8 40 = swigKey
  sub : sl b 40 72 = asset
  pda : env.pda (subV2StateSeeds swigKey (natLE 4 id) ++ [[b.getD 1 0]]) = some state

theorem validateState_ok {env : Env} {m : Mem} {state asset swigKey : Key} {id : Nat} {bump : UInt8}
    (h : validateState env m state asset swigKey id = .ok bump) :
    (m state).owner = swigId ∧ StateOk env (m state).data state asset swigKey id ∧ bump = (m state).data.getD 2 0 := by
  unfold validateState at h
  obtain ⟨_, ho, h⟩ := bind_ok_iff.mp h
  obtain ⟨s, hs, h⟩ := bind_ok_iff.mp h
  obtain ⟨_, h1, h⟩ := bind_ok_iff.mp h
  obtain ⟨_, h2, h⟩ := bind_ok_iff.mp h
  obtain ⟨en, h3, h⟩ := bind_ok_iff.mp h
  obtain ⟨_, h4, h⟩ := bind_ok_iff.mp h
  obtain ⟨_, h5, h⟩ := bind_ok_iff.mp h
  obtain ⟨_, h6, h⟩ := bind_ok_iff.mp h
  obtain ⟨hl, hdisc, rfl⟩ := loadSubState_ok hs
  cases h
  refine ⟨require_ok_iff.mp ho, ⟨hl, hdisc, (readU8_01 h3).mp (require_ok_iff.mp h4), require_ok_iff.mp h2, require_ok_iff.mp h1,
    require_ok_iff.mp h6, (checkSelfPda_ok h5).2⟩, rfl⟩

/-- The state account is not the configuration account: their first bytes differ. -/
theorem StateOk.ne {env : Env} {m : Mem} {state asset swigKey swig : Key} {id : Nat} {w : Wallet}
    (h : StateOk env ((m.setData swig w.encode) state).data state asset swigKey id) : state ≠ swig := by
  rintro rfl
  have := h.disc
  rw [Mem.setData_data, Wallet.encode_disc] at this
  exact absurd this (by decide)

/-! ## Handlers -/

theorem subSignV2_enc {env : Env} {cpi : Cpi} {m m' : Mem} {swig state sub sys : Meta} {rest : List Meta} {ix : Bytes} {w : Wallet}
    (hw : w.WF) (hd : (m swig.key).data = w.encode)
    (h : subSignV2 env cpi m (swig :: state :: sub :: sys :: rest) ix = .ok m') :
    ∃ (a : SubSignV2Ix) (r : Role) (ixs : List Inner) (m1 : Mem), parseSubSignV2 ix = .ok a ∧ (m swig.key).owner = swigId ∧
      (m sub.key).owner = systemId ∧ env.stackHeight = 1 ∧
      ActsAs env m (swig :: state :: sub :: sys :: rest) w a.role a.authPayload a.dataPayload r ∧
      r.Scoped P.subAccountV2Sign true a.subId ∧ state.key ≠ swig.key ∧ (m state.key).owner = swigId ∧
      StateOk env (m state.key).data state.key sub.key w.id a.subId ∧
      decodeIxs (swig :: state :: sub :: sys :: rest) sub.key [] a.payload = .ok ixs ∧
      execAll env cpi (swig :: state :: sub :: sys :: rest) sub.key
        (subV2Seeds w.id (natLE 4 a.subId) ++ [[(m state.key).data.getD 2 0]])
        (m.setData swig.key (w.used a.role).encode) ixs = .ok m1 ∧ checkRent env m1 sub.key = .ok m' := by
  simp only [subSignV2] at h
  obtain ⟨_, hst, h⟩ := bind_ok_iff.mp h
  obtain ⟨_, ho, h⟩ := bind_ok_iff.mp h
  obtain ⟨_, hso, h⟩ := bind_ok_iff.mp h
  obtain ⟨a, ha, h⟩ := bind_ok_iff.mp h
  have hid : a.subId < 2 ^ 32 := by
    unfold parseSubSignV2 at ha
    split at ha
    · cases ha
    · dsimp only at ha
      split at ha
      · cases ha
      · cases ha; exact rd_lt32 _ _
  obtain ⟨⟨p, v⟩, hact, h⟩ := bind_ok_iff.mp h
  obtain ⟨r, hr1, hr2, rfl, hr4⟩ := actScoped_enc hw hd (by decide) hid hact
  simp only [Wallet.parts_bytes] at h
  obtain ⟨bump, hv, h⟩ := bind_ok_iff.mp h
  obtain ⟨hv1, hv2, rfl⟩ := validateState_ok hv
  have hne := hv2.ne
  rw [Mem.setData_other _ _ hne] at hv2 h
  rw [Mem.setData_owner] at hv1
  obtain ⟨ixs, hix, h⟩ := bind_ok_iff.mp h
  obtain ⟨m1, hm1, h⟩ := bind_ok_iff.mp h
  exact ⟨a, r, ixs, m1, ha, require_ok_iff.mp ho, require_ok_iff.mp hso, require_ok_iff.mp hst, hr1, hr2, hne, hv1, hv2, hix, hm1, h⟩

theorem withdrawSubV2_enc {env : Env} {cpi : Cpi} {m m' : Mem} {swig auth state sub wallet x7 x6 : Meta} {rest : List Meta}
    {ix : Bytes} {w : Wallet} (hw : w.WF) (hd : (m swig.key).data = w.encode)
    (h : withdrawSubV2 env cpi m (swig :: auth :: state :: sub :: wallet :: x6 :: x7 :: rest) ix = .ok m') :
    ∃ (r : Role), ActsAs env m (swig :: auth :: state :: sub :: wallet :: x6 :: x7 :: rest) w (rd ix 4 4) (ix.drop 24) (ix.take 24) r ∧
      r.Scoped P.subAccountV2Withdraw true (rd ix 8 4) ∧ state.key ≠ swig.key ∧ (m state.key).owner = swigId ∧
      (m swig.key).owner = swigId ∧ (m sub.key).owner = systemId ∧ (m wallet.key).owner = systemId ∧
      StateOk env (m state.key).data state.key sub.key w.id (rd ix 8 4) ∧
      env.pda (walletSeeds swig.key ++ [[w.walletBump]]) = some wallet.key ∧
      withdrawV2 env cpi (m.setData swig.key (w.used (rd ix 4 4)).encode)
        (swig :: auth :: state :: sub :: wallet :: x6 :: x7 :: rest) sub wallet (rd ix 16 8)
        (subV2Seeds w.id (natLE 4 (rd ix 8 4)) ++ [[(m state.key).data.getD 2 0]]) = .ok m' := by
  simp only [withdrawSubV2] at h
  obtain ⟨_, ho, h⟩ := bind_ok_iff.mp h
  obtain ⟨_, hso, h⟩ := bind_ok_iff.mp h
  obtain ⟨_, hwo, h⟩ := bind_ok_iff.mp h
  obtain ⟨_, _, h⟩ := bind_ok_iff.mp h
  obtain ⟨⟨p, v⟩, hact, h⟩ := bind_ok_iff.mp h
  obtain ⟨r, hr1, hr2, rfl, hr4⟩ := actScoped_enc hw hd (by decide) (rd_lt32 _ _) hact
  simp only [Wallet.parts_bytes] at h
  obtain ⟨_, hp, h⟩ := bind_ok_iff.mp h
  obtain ⟨bump, hv, h⟩ := bind_ok_iff.mp h
  obtain ⟨hv1, hv2, rfl⟩ := validateState_ok hv
  have hne := hv2.ne
  rw [Mem.setData_other _ _ hne] at hv2 h
  rw [Mem.setData_owner] at hv1
  exact ⟨r, hr1, hr2, hne, hv1, require_ok_iff.mp ho, require_ok_iff.mp hso, require_ok_iff.mp hwo, hv2, (checkSelfPda_ok hp).2, h⟩

theorem toggleSubV2_enc {env : Env} {m m' : Mem} {swig auth state : Meta} {rest : List Meta}
    {ix : Bytes} {w : Wallet} (hw : w.WF) (hd : (m swig.key).data = w.encode)
    (h : toggleSubV2 env m (swig :: auth :: state :: rest) ix = .ok m') :
    ∃ (r : Role), ActsAs env m (swig :: auth :: state :: rest) w (rd ix 4 4) (ix.drop 16) (ix.take 16) r ∧
      r.Scoped P.subAccountV2Toggle true (rd ix 8 4) ∧ state.key ≠ swig.key ∧ (m swig.key).owner = swigId ∧
      (m state.key).owner = swigId ∧ (ix.getD 2 0 = 0 ∨ ix.getD 2 0 = 1) ∧
      (m state.key).data.length = 72 ∧ (m state.key).data.getD 0 0 = 2 ∧ rd (m state.key).data 4 4 = rd ix 8 4 ∧
      sl (m state.key).data 8 40 = w.id ∧
      env.pda (subV2StateSeeds w.id (natLE 4 (rd ix 8 4)) ++ [[(m state.key).data.getD 1 0]]) = some state.key ∧
      m' = (m.setData swig.key (w.used (rd ix 4 4)).encode).setData state.key (put (m state.key).data 3 [ix.getD 2 0]) := by
  simp only [toggleSubV2] at h
  obtain ⟨_, ho, h⟩ := bind_ok_iff.mp h
  obtain ⟨_, hso, h⟩ := bind_ok_iff.mp h
  obtain ⟨_, _, h⟩ := bind_ok_iff.mp h
  obtain ⟨_, h01, h⟩ := bind_ok_iff.mp h
  obtain ⟨⟨p, v⟩, hact, h⟩ := bind_ok_iff.mp h
  obtain ⟨r, hr1, hr2, rfl, hr4⟩ := actScoped_enc hw hd (by decide) (rd_lt32 _ _) hact
  simp only [Wallet.parts_bytes] at h
  obtain ⟨u, ht, h⟩ := bind_ok_iff.mp h
  unfold toggleState at ht
  obtain ⟨s, hs, ht⟩ := bind_ok_iff.mp ht
  obtain ⟨_, _, ht⟩ := bind_ok_iff.mp ht
  obtain ⟨_, h1, ht⟩ := bind_ok_iff.mp ht
  obtain ⟨_, h2, ht⟩ := bind_ok_iff.mp ht
  obtain ⟨_, h3, ht⟩ := bind_ok_iff.mp ht
  obtain ⟨hl, hdisc, rfl⟩ := loadSubState_ok hs
  have hne : state.key ≠ swig.key := by
    intro e
    rw [e, Mem.setData_data, Wallet.encode_disc] at hdisc
    exact absurd hdisc (by decide)
  have h1 := require_ok_iff.mp h1
  have h2 := require_ok_iff.mp h2
  have h3 := (checkSelfPda_ok h3).2
  rw [Mem.setData_other _ _ hne] at hl hdisc h h1 h2 h3
  cases h
  exact ⟨r, hr1, hr2, hne, require_ok_iff.mp ho, require_ok_iff.mp hso, require_ok_iff.mp h01, hl, hdisc, h2, h1, h3, rfl⟩

/-! ## Creation, version 2 -/

/-- The wallet after a V2 sub-account id was drawn. -/
def Wallet.drawn (w : Wallet) : Wallet := { w with subCounter := w.subCounter + 1 }

theorem Wallet.drawn_wf {w : Wallet} (hw : w.WF) (h : w.subCounter + 1 < 2 ^ 32) : w.drawn.WF :=
  ⟨hw.idLen, hw.padLen, hw.counter, h, hw.count, hw.roles, hw.idsNodup, hw.idsLt, hw.claimer, hw.size⟩

theorem drawn_bytes (w : Wallet) :
    ({ w.parts with header := { w.parts.header with subCounter := w.parts.header.subCounter + 1 } } : Parts) =
      w.drawn.parts := rfl

/-- The grant given to the creator of a V2 sub-account. -/
def allGrant (id : Nat) : Act := ⟨P.subAccountV2All, natLE 4 id ++ zeros 4⟩

theorem allActionBytes_submits (id : Nat) : Submits (allActionBytes id) [allGrant id] := by
  have h := Submits.cons (allGrant id) (zeros 4) [] [] (by simp) (by show 23 < 2 ^ 16; decide) (by simp [allGrant]) .nil
  have e : rawAct (zeros 4) (allGrant id) ++ [] = allActionBytes id := by
    have h1 : (allGrant id).data.length = 8 := by simp [allGrant]
    unfold rawAct allActionBytes
    rw [h1]
    simp [allGrant]
  rwa [e] at h

theorem drawSubId_enc {env : Env} {m : Mem} {metas : List Meta} {swig : Key} {role : Nat} {payload data : Bytes} {p : Parts}
    {id : Nat} {granted : Bool} {w : Wallet} (hw : w.WF) (hd : (m swig).data = w.encode)
    (h : drawSubId env m metas swig role payload data = .ok (p, id, granted)) :
    ∃ r, ActsAs env m metas w role payload data r ∧ r.holds P.subAccountV2Create ∧ isV2 w.header = true ∧
      w.subCounter + 1 < 2 ^ 32 ∧ id = w.subCounter ∧ granted = decide (r.Scoped P.subAccountV2All false id) ∧
      p = (w.used role).drawn.parts := by
  unfold drawSubId at h
  rw [hd] at h
  obtain ⟨p0, h0, h⟩ := bind_ok_iff.mp h
  obtain ⟨rfl, h2⟩ := openSwigV2_ok hw h0
  obtain ⟨⟨p1, v1⟩, hact, h⟩ := bind_ok_iff.mp h
  obtain ⟨r, hr1, hr2, rfl, hr4, hr5⟩ := actAs_enc hw hact
  simp only at h
  have hrm := (role?_mem hr1).1
  rw [hr4, hasMarker_enc hw hrm (by decide)] at h
  simp only [ok_bind] at h
  obtain ⟨_, hperm, h⟩ := bind_ok_iff.mp h
  have hperm := decide_eq_true_iff.mp (require_ok_iff.mp hperm)
  obtain ⟨_, hc, h⟩ := bind_ok_iff.mp h
  have hc : w.subCounter + 1 < 2 ^ 32 := require_ok_iff.mp hc
  have e : (w.used role).parts.header.subCounter = w.subCounter := rfl
  rw [e, hasScoped_enc (hw.roles r hrm) (by decide) hw.subCounter] at h
  simp only [ok_bind] at h
  have h := Except.ok.inj h
  refine ⟨r, ⟨hr1, hr2⟩, hperm, h2, hc, ?_, ?_, ?_⟩
  · exact (congrArg (fun x => x.2.1) h).symm
  · have e1 := (congrArg (fun x => x.2.1) h).symm
    have e2 := (congrArg (fun x => x.2.2) h).symm
    simp only at e1 e2
    rw [e2, e1]
  · exact (congrArg (fun x => x.1) h).symm

theorem fundState_data {env : Env} {m m' : Mem} {payer state : Meta} (h : fundState env m payer state = .ok m') (k : Key) :
    (m' k).data = (m k).data ∧ (m' k).owner = (m k).owner := by
  unfold fundState at h
  split at h
  · exact sysTransfer_data h k
  · cases h; simp

theorem sysAllocAssign_ok {env : Env} {m m' : Mem} {seeds : List Bytes} {acct : Meta} {space : Nat} {owner : Key}
    (h : sysAllocAssign env m seeds acct space owner = .ok m') :
    m' = m.set acct.key { owner := owner, lamports := (m acct.key).lamports, data := zeros space } := by
  unfold sysAllocAssign at h
  split at h
  · cases h
  · split at h
    · cases h
    · split at h
      · cases h
      · split at h
        · cases h
        · cases h; rfl

/-- The actions of the creating role after the creation. -/
def Role.withAll (r : Role) (id : Nat) : List Act :=
  if r.Scoped P.subAccountV2All false id then r.actions else r.actions ++ [allGrant id]

theorem setActions_self {w : Wallet} {id : Nat} {r : Role} (hw : w.WF) (h : w.role? id = some r) : w.setActions id r.actions = w := by
  obtain ⟨before, after, g1, g2, g3, g4⟩ := hw.split h
  have e : (w.setActions id r.actions).roles = w.roles := by
    have : (w.setActions id r.actions).roles = _ := mapRole_split id _ g1 g2 g3 g4
    rw [this, g1]
  unfold Wallet.setActions Wallet.mapRole at e ⊢
  simp only at e
  rw [e]

theorem createSubV2_enc {env : Env} {m m' : Mem} {swig payer state sub sys : Meta} {rest : List Meta} {ix : Bytes} {w : Wallet}
    (hw : w.WF) (hd : (m swig.key).data = w.encode)
    (h : createSubV2 env m (swig :: payer :: state :: sub :: sys :: rest) ix = .ok m') :
    ∃ (r : Role), ActsAs env m (swig :: payer :: state :: sub :: sys :: rest) w (rd ix 4 4) (ix.drop 16) (ix.take 16) r ∧
      r.holds P.subAccountV2Create ∧ isV2 w.header = true ∧ w.subCounter + 1 < 2 ^ 32 ∧ state.key ≠ swig.key ∧
      (m state.key).owner = systemId ∧ (m sub.key).owner = systemId ∧
      env.pda (subV2StateSeeds w.id (natLE 4 w.subCounter) ++ [[ix.getD 8 0]]) = some state.key ∧
      env.pda (subV2Seeds w.id (natLE 4 w.subCounter) ++ [[ix.getD 9 0]]) = some sub.key ∧
      (m' swig.key).data = ((w.used (rd ix 4 4)).drawn.setActions (rd ix 4 4) (r.withAll w.subCounter)).encode ∧
      ((w.used (rd ix 4 4)).drawn.setActions (rd ix 4 4) (r.withAll w.subCounter)).WF ∧
      (m' swig.key).owner = swigId ∧
      (m' state.key).data = SubState.encode ⟨2, ix.getD 8 0, ix.getD 9 0, 1, w.subCounter, w.id, sub.key⟩ ∧
      (m' state.key).owner = swigId ∧
      ∀ x, x ≠ swig.key → x ≠ state.key → (m' x).data = (m x).data ∧ (m' x).owner = (m x).owner := by
  simp only [createSubV2] at h
  obtain ⟨_, ho, h⟩ := bind_ok_iff.mp h
  obtain ⟨_, hso, h⟩ := bind_ok_iff.mp h
  obtain ⟨_, hao, h⟩ := bind_ok_iff.mp h
  obtain ⟨_, _, h⟩ := bind_ok_iff.mp h
  obtain ⟨_, _, h⟩ := bind_ok_iff.mp h
  obtain ⟨_, _, h⟩ := bind_ok_iff.mp h
  have ho := require_ok_iff.mp ho
  have hso := require_ok_iff.mp hso
  have hao := require_ok_iff.mp hao
  have hne : state.key ≠ swig.key := by
    intro e
    rw [e, ho] at hso
    exact absurd hso (by decide)
  obtain ⟨⟨p, id, granted⟩, hdr, h⟩ := bind_ok_iff.mp h
  obtain ⟨r, hr1, hr2, hr3, hr4, rfl, hr6, rfl⟩ := drawSubId_enc hw hd hdr
  simp only [Wallet.parts_bytes] at h
  have eid : (w.used (rd ix 4 4)).drawn.parts.header.id = w.id := rfl
  rw [eid] at h
  obtain ⟨b1, hb1, h⟩ := bind_ok_iff.mp h
  obtain ⟨rfl, hp1⟩ := checkSelfPda_ok hb1
  obtain ⟨b2, hb2, h⟩ := bind_ok_iff.mp h
  obtain ⟨rfl, hp2⟩ := checkSelfPda_ok hb2
  obtain ⟨m1, hm1, h⟩ := bind_ok_iff.mp h
  obtain ⟨m2, hm2, h⟩ := bind_ok_iff.mp h
  obtain ⟨m3, hm3, hfin⟩ := bind_ok_iff.mp h
  have f1 := fundState_data hm1
  have e2 := sysAllocAssign_ok hm2
  have f3 := fundWallet_data (show fundWallet env _ payer sub = .ok m3 from hm3)
  subst e2
  have hw1 : (w.used (rd ix 4 4)).drawn.WF := Wallet.drawn_wf (Wallet.used_wf hw _) hr4
  have hrole : (w.used (rd ix 4 4)).drawn.role? (rd ix 4 4) = some { r with auth := usedCred r.authType r.auth } := by
    have : (w.used (rd ix 4 4)).role? (rd ix 4 4) = _ := Wallet.used_find w _ _
    show (w.used (rd ix 4 4)).role? (rd ix 4 4) = _
    rw [this, hr1.1]
    simp [(role?_mem hr1.1).2]
  -- the ledger before the final grant
  have g1 : (m3 swig.key).data = (w.used (rd ix 4 4)).drawn.encode := by
    rw [(f3 swig.key).1, Mem.setData_other _ _ hne.symm, Mem.set_other _ _ hne.symm, (f1 swig.key).1]
    simp
  have g1o : (m3 swig.key).owner = swigId := by
    rw [(f3 swig.key).2, Mem.setData_other _ _ hne.symm, Mem.set_other _ _ hne.symm, (f1 swig.key).2]
    simpa using ho
  have g2 : (m3 state.key).data = SubState.encode ⟨2, ix.getD 8 0, ix.getD 9 0, 1, w.subCounter, w.id, sub.key⟩ := by
    rw [(f3 state.key).1]; simp
  have g2o : (m3 state.key).owner = swigId := by
    rw [(f3 state.key).2]; simp
  have g3 : ∀ x, x ≠ swig.key → x ≠ state.key → (m3 x).data = (m x).data ∧ (m3 x).owner = (m x).owner := by
    intro x h1 h2
    rw [(f3 x).1, (f3 x).2, Mem.setData_other _ _ h2, Mem.set_other _ _ h2, (f1 x).1, (f1 x).2, Mem.setData_other _ _ h1]
    simp
  unfold grantAll at hfin
  by_cases hg : r.Scoped P.subAccountV2All false w.subCounter
  · have hgr : granted = true := by rw [hr6]; exact decide_eq_true hg
    rw [if_pos hgr] at hfin
    cases hfin
    have e : (w.used (rd ix 4 4)).drawn.setActions (rd ix 4 4) (r.withAll w.subCounter) = (w.used (rd ix 4 4)).drawn := by
      unfold Role.withAll
      rw [if_pos hg]
      exact setActions_self (r := { r with auth := usedCred r.authType r.auth }) hw1 hrole
    refine ⟨r, ?_⟩
    rw [e]
    exact ⟨hr1, hr2, hr3, hr4, hne, hso, hao, hp1, hp2, g1, hw1, g1o, g2, g2o, g3⟩
  · have hgr : ¬ granted = true := by rw [hr6, decide_eq_true_iff]; exact hg
    rw [if_neg hgr] at hfin
    obtain ⟨t, extra, k1, k2, k3, k4, k5, k6, k7, k8⟩ := appendActions_enc hw1 g1 hfin
    rw [hrole] at k1
    have ht := (Option.some.inj k1).symm
    subst ht
    have hex := Submits.inj k2 (allActionBytes_submits w.subCounter)
    subst hex
    have e : r.withAll w.subCounter = r.actions ++ [allGrant w.subCounter] := by
      unfold Role.withAll
      rw [if_neg hg]
    refine ⟨r, ?_⟩
    rw [e]
    refine ⟨hr1, hr2, hr3, hr4, hne, hso, hao, hp1, hp2, k6, k7, ?_, ?_, ?_, ?_⟩
    · rw [(k8 swig.key).1]; exact g1o
    · rw [(k8 state.key).2 hne]; exact g2
    · rw [(k8 state.key).1]; exact g2o
    · intro x h1 h2
      rw [(k8 x).2 h1, (k8 x).1]
      exact g3 x h1 h2

/-! ## Version 1 -/

theorem subAct_len {a : Act} (ha : a.WF) (h : a.ty = P.subAccount) : a.data.length = 72 := by
  unfold Act.WF at ha
  rw [h] at ha
  exact (Option.some.inj ha).symm

theorem createdSubAct_length (old : Bytes) (sub : Key) (bump : UInt8) (roleId : Nat) (swigId : Key) (h1 : sub.length = 32)
    (h2 : 36 ≤ old.length) (h3 : swigId.length = 32) : (createdSubAct old sub bump roleId swigId).length = 72 := by
  simp [createdSubAct, h1, h3, sl_length]
  omega

/-- Creating a V1 sub-account: the first sub-account action of the role without address is filled in. -/
theorem createSubV1_enc {env : Env} {m m' : Mem} {swig payer sub sys : Meta} {rest : List Meta} {ix : Bytes} {w : Wallet}
    (hw : w.WF) (hd : (m swig.key).data = w.encode) (hk : sub.key.length = 32)
    (h : createSubV1 env m (swig :: payer :: sub :: sys :: rest) ix = .ok m') :
    ∃ (r : Role) (ab : List Act) (a : Act) (aa : List Act),
      ActsAs env m (swig :: payer :: sub :: sys :: rest) w (rd ix 4 4) (ix.drop 16) (ix.take 16) r ∧
      r.actions = ab ++ a :: aa ∧ a.ty = P.subAccount ∧ a.data.take 32 = zeros 32 ∧
      env.pda (subSeeds w.id (natLE 4 (rd ix 4 4)) ++ [[ix.getD 8 0]]) = some sub.key ∧
      (m swig.key).owner = swigId ∧ (m sub.key).owner = systemId ∧
      (m' swig.key).data = ((w.used (rd ix 4 4)).setAct (rd ix 4 4) ab a aa
        (createdSubAct a.data sub.key (ix.getD 8 0) (rd ix 4 4) w.id)).encode ∧
      ((w.used (rd ix 4 4)).setAct (rd ix 4 4) ab a aa
        (createdSubAct a.data sub.key (ix.getD 8 0) (rd ix 4 4) w.id)).WF ∧ OnlyData m m' swig.key := by
  simp only [createSubV1] at h
  obtain ⟨_, ho, h⟩ := bind_ok_iff.mp h
  obtain ⟨_, hso, h⟩ := bind_ok_iff.mp h
  obtain ⟨_, _, h⟩ := bind_ok_iff.mp h
  rw [hd, openSwigU_enc hw] at h
  simp only [ok_bind] at h
  obtain ⟨⟨p, v⟩, hact, h⟩ := bind_ok_iff.mp h
  obtain ⟨r, before, after, g1, g2, g3, g4, hr1, rfl, hr4, hr5, hr6⟩ := actAs_view hw hact
  simp only at h
  rw [hr4, getSub_nil] at h
  have hrm : r ∈ w.roles := (role?_mem hr1.1).1
  obtain ⟨f, hf, h⟩ := bind_ok_iff.mp h
  obtain ⟨o, ho2, h⟩ := bind_ok_iff.mp h
  rw [orErr_ok ho2] at hf
  unfold getActionMut at hf
  rcases getActionGo_grants P.subAccount (zeros 32) r.actions (hw.roles r hrm).acts (hw.actsSize_lt hrm).2 (by intro _; rfl) with
    ⟨a, ab, aa, k1, k2, _, k4⟩ | ⟨_, k2⟩
  · rw [hf] at k4
    have ho3 := Option.some.inj (Except.ok.inj k4)
    have haw : a.WF := (hw.roles r hrm).acts a (by simp [k1])
    have hal := subAct_len haw k2.1
    have hkey : a.data.take 32 = zeros 32 := k2.2 (by decide)
    obtain ⟨b, hb, h⟩ := bind_ok_iff.mp h
    obtain ⟨eb, hb⟩ := checkSelfPda_ok hb
    rw [eb] at h
    obtain ⟨m1, hm1, h⟩ := bind_ok_iff.mp h
    have f1 := fundWallet_data (show fundWallet env _ payer sub = .ok m1 from hm1)
    have hfin := Except.ok.inj h
    have hsl : sl (encActs 0 r.actions) o (o + 72) = a.data := by
      rw [ho3, ← hal]
      exact sl_encActs_mid _ _ _ _ k1
    rw [hsl] at hfin
    have eid : (w.used (rd ix 4 4)).parts.header.id = w.id := rfl
    rw [eid] at hfin hb
    have hcl := createdSubAct_length a.data sub.key (ix.getD 8 0) (rd ix 4 4) w.id hk (by omega) hw.idLen
    have hput : put a.data 0 (createdSubAct a.data sub.key (ix.getD 8 0) (rd ix 4 4) w.id) =
        createdSubAct a.data sub.key (ix.getD 8 0) (rd ix 4 4) w.id := by
      unfold put
      rw [hcl, List.drop_eq_nil_of_le (by omega)]
      simp
    have hrole : (w.used (rd ix 4 4)).role? (rd ix 4 4) = some { r with auth := usedCred r.authType r.auth } :=
      role?_split (Wallet.used_split g1 g2 g3 g4) g2 g3
    have hul := usedCred_length (hw.roles r hrm).auth
    have hpa := putAct_enc (Wallet.used_wf hw (rd ix 4 4)) (id := rd ix 4 4) (v := v) (i := 0)
      (r := { r with auth := usedCred r.authType r.auth })
      (b := createdSubAct a.data sub.key (ix.getD 8 0) (rd ix 4 4) w.id)
      (Wallet.used_split g1 g2 g3 g4) g2 (by rw [hr5]; simp [hul]) k1 (by omega)
    rw [hput, Nat.add_zero, ← ho3] at hpa
    rw [hpa, Wallet.parts_bytes] at hfin
    refine ⟨r, ab, a, aa, hr1, k1, k2.1, hkey, hb, require_ok_iff.mp ho, require_ok_iff.mp hso, ?_, ?_, ?_⟩
    · rw [← hfin]; simp
    · refine Wallet.setAct_wf (Wallet.used_wf hw _) hrole k1 (by omega) ?_
      rw [k2.1]; decide
    · intro x
      rw [← hfin]
      refine ⟨by rw [Mem.setData_owner, (f1 x).2]; simp, fun hx => ?_⟩
      rw [Mem.setData_other _ _ hx, (f1 x).1, Mem.setData_other _ _ hx]
  · rw [hf] at k2
    cases k2

/-- What the checks on a V1 sub-account action establish. -/
structure SubActOk (d : Bytes) (sub swigId : Key) (role : Nat) : Prop where
  sub : sl d 0 32 = sub
  enabled : d.getD 33 0 = 1
  role : rd d 36 4 = role
  swig : sl d 40 72 = swigId

theorem checkSubAct_ok {d : Bytes} {swigId : Key} {role : Nat} {u : Unit}
    (h : checkSubAct (SubAct.decode d) swigId role = .ok u) : d.getD 33 0 = 1 ∧ rd d 36 4 = role ∧ sl d 40 72 = swigId := by
  unfold checkSubAct at h
  obtain ⟨_, h1, h⟩ := bind_ok_iff.mp h
  obtain ⟨_, h2, h⟩ := bind_ok_iff.mp h
  obtain ⟨en, h3, h⟩ := bind_ok_iff.mp h
  have h4 := require_ok_iff.mp h
  refine ⟨?_, require_ok_iff.mp h2, require_ok_iff.mp h1⟩
  subst h4
  unfold readBool at h3
  split at h3
  · cases h3
  · split at h3
    · rename_i h5; exact h5
    · cases h3

theorem subSignV1_enc {env : Env} {cpi : Cpi} {m m' : Mem} {swig sub sys : Meta} {rest : List Meta} {ix : Bytes} {w : Wallet}
    (hw : w.WF) (hd : (m swig.key).data = w.encode) (hk : sub.key.length = 32)
    (h : subSignV1 env cpi m (swig :: sub :: sys :: rest) ix = .ok m') :
    ∃ (q : SubSignIx) (r : Role) (a : Act) (ixs : List Inner) (m1 : Mem), parseSubSign ix = .ok q ∧ env.stackHeight = 1 ∧
      (m swig.key).owner = swigId ∧ (m sub.key).owner = systemId ∧
      ActsAs env m (swig :: sub :: sys :: rest) w q.role q.authPayload q.payload r ∧ a ∈ r.actions ∧ a.ty = P.subAccount ∧
      SubActOk a.data sub.key w.id q.role ∧
      decodeIxs (swig :: sub :: sys :: rest) sub.key [] q.payload = .ok ixs ∧
      execAll env cpi (swig :: sub :: sys :: rest) sub.key (subSeeds w.id (natLE 4 q.role) ++ [[a.data.getD 32 0]])
        (m.setData swig.key (w.used q.role).encode) ixs = .ok m1 ∧ checkRent env m1 sub.key = .ok m' := by
  simp only [subSignV1] at h
  obtain ⟨_, hst, h⟩ := bind_ok_iff.mp h
  obtain ⟨_, ho, h⟩ := bind_ok_iff.mp h
  obtain ⟨_, hso, h⟩ := bind_ok_iff.mp h
  obtain ⟨q, hq, h⟩ := bind_ok_iff.mp h
  rw [hd, openSwigU_enc hw] at h
  simp only [ok_bind] at h
  obtain ⟨⟨p, v⟩, hact, h⟩ := bind_ok_iff.mp h
  obtain ⟨r, hr1, hr2, rfl, hr4, hr5⟩ := actAs_enc hw hact
  simp only at h
  have hrm : r ∈ w.roles := (role?_mem hr1).1
  have hrw := hw.roles r hrm
  rw [hr4, getAction_enc _ _ _ hrw.acts hrw.nonempty (hw.actsSize_lt hrm).2 (by intro _; exact hk)] at h
  simp only [ok_bind] at h
  obtain ⟨d, hdd, h⟩ := bind_ok_iff.mp h
  have hdd := orErr_ok hdd
  obtain ⟨a, ha, hda⟩ := Option.map_eq_some_iff.mp hdd
  have ham := List.mem_of_find?_eq_some ha
  have hag : a.grants P.subAccount sub.key := by simpa using List.find?_some ha
  obtain ⟨u, hc, h⟩ := bind_ok_iff.mp h
  rw [← hda] at hc h
  obtain ⟨c1, c2, c3⟩ := checkSubAct_ok hc
  have c3' : sl a.data 40 72 = w.id := c3
  obtain ⟨ixs, hix, h⟩ := bind_ok_iff.mp h
  obtain ⟨m1, hm1, h⟩ := bind_ok_iff.mp h
  have e1 : (SubAct.decode a.data).swigId = w.id := c3
  have e2 : (SubAct.decode a.data).roleId = q.role := c2
  rw [e1, e2, Wallet.parts_bytes] at hm1
  refine ⟨q, r, a, ixs, m1, hq, require_ok_iff.mp hst, require_ok_iff.mp ho, require_ok_iff.mp hso, ⟨hr1, hr2⟩, ham, hag.1, ⟨?_, c1, c2, c3'⟩, hix, hm1, h⟩
  have := hag.2 (by decide)
  rw [sl_zero]
  exact this

/-- The role whose action is toggled. -/
theorem toggleRole_enc {env : Env} {m : Mem} {metas : List Meta} {w : Wallet} {role authRole : Nat} {payload data : Bytes}
    {p : Parts} {v : RoleView} (hw : w.WF) (h : toggleRole env m metas w.parts role authRole payload data = .ok (p, v)) :
    ∃ r t before after, ActsAs env m metas w authRole payload data r ∧
      (authRole = role ∨ r.holds P.all ∨ r.holds P.manageAuthority) ∧
      (w.used authRole).roles = before ++ t :: after ∧ t.id = role ∧ p = (w.used authRole).parts ∧
      v.actions = encActs 0 t.actions ∧ v.actsOff = rolesSize before + 16 + t.auth.length := by
  unfold toggleRole at h
  obtain ⟨⟨p1, v1⟩, hact, h⟩ := bind_ok_iff.mp h
  obtain ⟨r, before, after, g1, g2, g3, g4, hr1, rfl, hr4, hr5, hr6⟩ := actAs_view hw hact
  simp only at h
  have hrm : r ∈ w.roles := (role?_mem hr1.1).1
  by_cases hne : authRole ≠ role
  · rw [if_pos hne, hr4, hasManage_enc hw hrm] at h
    simp only [ok_bind] at h
    obtain ⟨_, hperm, h⟩ := bind_ok_iff.mp h
    have hperm := decide_eq_true_iff.mp (require_ok_iff.mp hperm)
    have hw1 := Wallet.used_wf hw authRole
    have epr : (w.used authRole).parts.roles = encRoles 0 (w.used authRole).roles := rfl
    rw [epr] at h
    rcases getMutRole_enc role (w.used authRole).roles hw1.rolesOk with ⟨t, tb, ta, k1, k2, k3, k4⟩ | ⟨k1, k2⟩
    · rw [k4] at h
      simp only [ok_bind] at h
      have e := Except.ok.inj h
      refine ⟨r, t, tb, ta, hr1, .inr hperm, k1, k2, (congrArg Prod.fst e).symm, ?_, ?_⟩
      · exact (congrArg (fun x => x.2.actions) e).symm
      · exact (congrArg (fun x => x.2.actsOff) e).symm
    · rw [k2] at h
      cases h
  · have heq : authRole = role := Decidable.of_not_not hne
    rw [if_neg hne] at h
    have e := Except.ok.inj h
    have hul := usedCred_length (hw.roles r hrm).auth
    refine ⟨r, { r with auth := usedCred r.authType r.auth }, before, after, hr1, .inl heq, Wallet.used_split g1 g2 g3 g4,
      by rw [← heq]; exact g2, (congrArg Prod.fst e).symm, ?_, ?_⟩
    · have := (congrArg (fun x => x.2.actions) e).symm
      simp only at this
      rw [this, hr4]
    · have := (congrArg (fun x => x.2.actsOff) e).symm
      simp only at this
      rw [this, hr5]
      simp [hul]

theorem toggleSubV1_enc {env : Env} {m m' : Mem} {swig payer sub : Meta} {rest : List Meta} {ix : Bytes} {w : Wallet}
    (hw : w.WF) (hd : (m swig.key).data = w.encode) (hk : sub.key.length = 32)
    (h : toggleSubV1 env m (swig :: payer :: sub :: rest) ix = .ok m') :
    ∃ (r t : Role) (ab : List Act) (a : Act) (aa : List Act),
      ActsAs env m (swig :: payer :: sub :: rest) w (rd ix 12 4) (ix.drop 16) (ix.take 16) r ∧
      (rd ix 12 4 = rd ix 8 4 ∨ r.holds P.all ∨ r.holds P.manageAuthority) ∧
      (w.used (rd ix 12 4)).role? (rd ix 8 4) = some t ∧ t.actions = ab ++ a :: aa ∧ a.ty = P.subAccount ∧
      a.data.take 32 = sub.key ∧ (ix.getD 2 0 = 0 ∨ ix.getD 2 0 = 1) ∧ (m swig.key).owner = swigId ∧
      ((w.used (rd ix 12 4)).setAct (rd ix 8 4) ab a aa (put a.data 33 [ix.getD 2 0])).WF ∧
      m' = m.setData swig.key ((w.used (rd ix 12 4)).setAct (rd ix 8 4) ab a aa (put a.data 33 [ix.getD 2 0])).encode := by
  simp only [toggleSubV1] at h
  obtain ⟨_, ho, h⟩ := bind_ok_iff.mp h
  obtain ⟨_, hso, h⟩ := bind_ok_iff.mp h
  obtain ⟨_, _, h⟩ := bind_ok_iff.mp h
  obtain ⟨bb, hbb, h⟩ := bind_ok_iff.mp h
  rw [hd, openSwigU_enc hw] at h
  simp only [ok_bind] at h
  obtain ⟨⟨p, v⟩, htr, h⟩ := bind_ok_iff.mp h
  obtain ⟨r, t, before, after, hr1, hr2, g1, g2, rfl, hr4, hr5⟩ := toggleRole_enc hw htr
  simp only at h
  rw [hr4] at h
  have hw1 := Wallet.used_wf hw (rd ix 12 4)
  have htm : t ∈ (w.used (rd ix 12 4)).roles := by simp [g1]
  have htrole : (w.used (rd ix 12 4)).role? (rd ix 8 4) = some t := hw1.role?_iff.mpr ⟨htm, g2⟩
  obtain ⟨f, hf, h⟩ := bind_ok_iff.mp h
  obtain ⟨o, ho2, h⟩ := bind_ok_iff.mp h
  rw [orErr_ok ho2] at hf
  unfold getActionMut at hf
  rcases getActionGo_grants P.subAccount sub.key t.actions (hw1.roles t htm).acts (hw1.actsSize_lt htm).2 (by intro _; exact hk) with
    ⟨a, ab, aa, k1, k2, _, k4⟩ | ⟨_, k2⟩
  · rw [hf] at k4
    have ho3 := Option.some.inj (Except.ok.inj k4)
    have hal := subAct_len ((hw1.roles t htm).acts a (by simp [k1])) k2.1
    obtain ⟨_, hsub, h⟩ := bind_ok_iff.mp h
    have hfin := Except.ok.inj h
    have hpa := putAct_enc hw1 (id := rd ix 8 4) (v := v) (i := 33) (b := [ix.getD 2 0]) g1 g2 hr5 k1 (by simp; omega)
    rw [← ho3] at hpa
    rw [hpa, Wallet.parts_bytes] at hfin
    refine ⟨r, t, ab, a, aa, hr1, hr2, htrole, k1, k2.1, k2.2 (by decide), ?_, require_ok_iff.mp ho, ?_, hfin.symm⟩
    · unfold readBool at hbb
      split at hbb
      · rename_i h0; exact .inl h0
      · split at hbb
        · rename_i h0; exact .inr h0
        · cases hbb
    · refine Wallet.setAct_wf hw1 htrole k1 (put_length (by simp; omega)) ?_
      rw [k2.1]; decide
  · rw [hf] at k2
    cases k2

/-- What lets a role withdraw from a V1 sub-account: its own enabled sub-account action for the address (then that action is
returned), or no such action and ManageAuthority over its own derived address, or no such action and All. -/
theorem withdrawPermission_enc {env : Env} {w : Wallet} {role : Nat} {sub : Key} {r : Role} {s : Option SubAct} {h : Header}
    (hw : w.WF) (hrm : r ∈ w.roles) (hk : sub.length = 32)
    (hp : withdrawPermission env h role sub (encActs 0 r.actions) = .ok s) :
    (∃ a ∈ r.actions, a.ty = P.subAccount ∧ SubActOk a.data sub h.id role ∧ s = some (SubAct.decode a.data)) ∨
    ((¬ ∃ a ∈ r.actions, a.ty = P.subAccount ∧ a.data.take 32 = sub) ∧ s = none ∧
      ((r.holds P.manageAuthority ∧ ∃ b, findPda env (subSeeds h.id (natLE 4 role)) = .ok (sub, b)) ∨
        (¬ r.holds P.manageAuthority ∧ r.holds P.all))) := by
  have hrw := hw.roles r hrm
  unfold withdrawPermission at hp
  rw [hasMarker_enc hw hrm (by decide), hasMarker_enc hw hrm (by decide),
    getAction_enc _ _ _ hrw.acts hrw.nonempty (hw.actsSize_lt hrm).2 (by intro _; exact hk)] at hp
  simp only [ok_bind] at hp
  cases hf : r.actions.find? (fun a => a.grants P.subAccount sub) with
  | some a =>
    rw [hf] at hp
    simp only [Option.map_some] at hp
    obtain ⟨u, hc, hp⟩ := bind_ok_iff.mp hp
    obtain ⟨c1, c2, c3⟩ := checkSubAct_ok hc
    have ham := List.mem_of_find?_eq_some hf
    have hag : a.grants P.subAccount sub := by simpa using List.find?_some hf
    left
    refine ⟨a, ham, hag.1, ⟨?_, c1, c2, c3⟩, (Except.ok.inj hp).symm⟩
    have := hag.2 (by decide)
    rw [sl_zero]; exact this
  | none =>
    rw [hf] at hp
    simp only [Option.map_none] at hp
    right
    refine ⟨?_, ?_⟩
    · rintro ⟨a, ham, h1, h2⟩
      have := List.find?_eq_none.mp hf a ham
      simp only [decide_eq_true_eq] at this
      exact this ⟨h1, fun _ => h2⟩
    · by_cases hm : r.holds P.manageAuthority
      · rw [if_pos (decide_eq_true hm)] at hp
        obtain ⟨⟨k, b⟩, hfp, hp⟩ := bind_ok_iff.mp hp
        obtain ⟨_, hks, hp⟩ := bind_ok_iff.mp hp
        have hks : k = sub := require_ok_iff.mp hks
        refine ⟨(Except.ok.inj hp).symm, .inl ⟨hm, b, ?_⟩⟩
        rw [← hks]; exact hfp
      · rw [if_neg (by rw [decide_eq_true_iff]; exact hm)] at hp
        obtain ⟨_, hall, hp⟩ := bind_ok_iff.mp hp
        exact ⟨(Except.ok.inj hp).symm, .inr ⟨hm, decide_eq_true_iff.mp (require_ok_iff.mp hall)⟩⟩

theorem withdrawSubV1_enc {env : Env} {cpi : Cpi} {m m' : Mem} {swig auth sub x3 wallet x5 : Meta} {rest : List Meta} {ix : Bytes}
    {w : Wallet} (hw : w.WF) (hd : (m swig.key).data = w.encode) (hk : sub.key.length = 32)
    (h : withdrawSubV1 env cpi m (swig :: auth :: sub :: x3 :: wallet :: x5 :: rest) ix = .ok m') :
    ∃ (r : Role) (s : Option SubAct) (role : Nat) (bump b : UInt8),
      ActsAs env m (swig :: auth :: sub :: x3 :: wallet :: x5 :: rest) w (rd ix 4 4) (ix.drop 16) (ix.take 16) r ∧
      (m swig.key).owner = swigId ∧ (m sub.key).owner = systemId ∧ (m wallet.key).owner = systemId ∧
      findPda env (walletSeeds swig.key) = .ok (wallet.key, b) ∧
      withdrawPermission env w.header (rd ix 4 4) sub.key (encActs 0 r.actions) = .ok s ∧
      withdrawSigner env w.header sub.key s = .ok (role, bump) ∧
      (if 7 ≤ (swig :: auth :: sub :: x3 :: wallet :: x5 :: rest).length then
        withdrawTokenV1 env cpi (m.setData swig.key (w.used (rd ix 4 4)).encode) (swig :: auth :: sub :: x3 :: wallet :: x5 :: rest)
          sub.key wallet.key (rd ix 8 8) (subSeeds w.id (natLE 4 role) ++ [[bump]])
      else withdrawSol env (m.setData swig.key (w.used (rd ix 4 4)).encode) sub wallet (rd ix 8 8)
        (subSeeds w.id (natLE 4 role) ++ [[bump]])) = .ok m' := by
  simp only [withdrawSubV1] at h
  obtain ⟨_, ho, h⟩ := bind_ok_iff.mp h
  obtain ⟨_, hso, h⟩ := bind_ok_iff.mp h
  obtain ⟨_, hwo, h⟩ := bind_ok_iff.mp h
  obtain ⟨_, _, h⟩ := bind_ok_iff.mp h
  rw [hd, openSwig_enc hw] at h
  simp only [ok_bind] at h
  obtain ⟨⟨k, b⟩, hfp, h⟩ := bind_ok_iff.mp h
  obtain ⟨_, hke, h⟩ := bind_ok_iff.mp h
  have hke : k = wallet.key := require_ok_iff.mp hke
  obtain ⟨⟨p, v⟩, hact, h⟩ := bind_ok_iff.mp h
  obtain ⟨r, hr1, hr2, rfl, hr4, hr5⟩ := actAs_enc hw hact
  simp only at h
  have eh : (w.used (rd ix 4 4)).parts.header = w.header := Wallet.used_header w _
  rw [hr4, eh, Wallet.parts_bytes] at h
  obtain ⟨s, hs, h⟩ := bind_ok_iff.mp h
  obtain ⟨⟨role, bump⟩, hsig, h⟩ := bind_ok_iff.mp h
  exact ⟨r, s, role, bump, b, ⟨hr1, hr2⟩, require_ok_iff.mp ho, require_ok_iff.mp hso, require_ok_iff.mp hwo, by rw [← hke]; exact hfp, hs, hsig, h⟩

end Verif
