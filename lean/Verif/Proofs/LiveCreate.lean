import Verif.Proofs.Live
import Verif.Proofs.ClientInj

/-! When the creation of a wallet succeeds. -/

namespace Verif

/-- The search for a marker permission in records written by the program or the client library. -/
theorem findActionGo_of (ty : Nat) (h0 : ∀ a : Act, a.WF → a.ty = ty → a.data = []) : ∀ (as : List Act) (pre : Bytes) (fuel : Nat),
    (∀ a ∈ as, a.WF) → pre.length + actsSize as < 2 ^ 32 → actsSize as ≤ fuel →
    findActionGo ty 0 (pre ++ encActs pre.length as) fuel pre.length = .ok (decide (∃ a ∈ as, a.ty = ty)) := by
  intro as
  induction as with
  | nil =>
    intro pre fuel _ _ _
    cases fuel <;> simp [findActionGo, encActs]
  | cons a as ih =>
    intro pre fuel hwf hs hf
    have hsz : actsSize (a :: as) = a.size + actsSize as := rfl
    have ha8 : a.size = 8 + a.data.length := rfl
    obtain ⟨f1, f2, f3, _⟩ := act_fields pre a as (hwf a (by simp)) (by omega)
    have hc : pre.length < (pre ++ encActs pre.length (a :: as)).length := by
      simp [encActs, Act.size]; omega
    have h8 : ¬ pre.length + 8 > (pre ++ encActs pre.length (a :: as)).length := by
      simp [encActs, Act.size]; omega
    cases fuel with
    | zero => omega
    | succ fuel =>
      unfold findActionGo
      rw [if_pos hc, if_neg h8, f1]
      by_cases ht : a.ty = ty
      · have hd := h0 a (hwf a (by simp)) ht
        have hl : aLen (pre ++ encActs pre.length (a :: as)) pre.length = 0 := by rw [f2, hd]; rfl
        rw [if_pos ht, hl, if_neg (by omega), if_neg (by simp)]
        simp [ht]
      · rw [if_neg ht, f3]
        have hstep := acts_step pre [] a as
        simp only [List.append_nil] at hstep
        have e : pre.length + a.size = (pre ++ encAct (pre.length + a.size) a).length := by simp
        rw [hstep, e]
        have e2 : (pre ++ encAct (pre ++ encAct (pre.length + a.size) a).length a) = pre ++ encAct (pre.length + a.size) a := by
          rw [← e]
        rw [e2, ih _ fuel (fun y hy => hwf y (by simp [hy])) (by simp; omega) (by omega)]
        simp [ht]

theorem marker_empty {ty : Nat} (h : ty = P.all ∨ ty = P.manageAuthority) (a : Act) (hw : a.WF) (ht : a.ty = ty) : a.data = [] := by
  have hw : actionLen a.ty = some a.data.length := hw
  rw [ht] at hw
  have : some a.data.length = some 0 := by
    rw [← hw]
    rcases h with rfl | rfl <;> rfl
  exact List.eq_nil_of_length_eq_zero (Option.some.inj this)

theorem createData_of {c : CreateIx} {al n : Nat} {a : Auth} {as : List Act} (hid : c.id.length = 32) (hal : authLen c.authType = some al)
    (hn : n = align8 (48 + 16 + al + c.actions.length)) (hmax : n ≤ maxGrowth) (ha : initialAuth c.authType c.authData = some a)
    (hs : Submits c.actions as) (hfr : ∀ x ∈ as, x.Fresh) (h1 : 1 ≤ as.length) (h255 : as.length ≤ 255) (hdup : NoV2Dup as) :
    ∃ d, createData (zeros n) c = .ok d := by
  have hw := Wallet.blank_wf hid c.bump c.walletBump
  have hge : 48 + 16 + al + c.actions.length ≤ n := by rw [hn]; unfold align8; omega
  have halm := authLen_mod hal
  have hal' := authLen_lt hal
  unfold createData
  rw [if_neg (by simp; omega)]
  have ez : (zeros n).drop 48 = encRoles 0 (Wallet.blank c.id c.bump c.walletBump).roles ++ zeros (n - 48) := by
    simp [zeros, Wallet.blank, encRoles]
  have eh : Header.new c.id c.bump c.walletBump = (Wallet.blank c.id c.bump c.walletBump).header := rfl
  rw [ez, eh]
  have hacts := hs.length
  have hamod := actsSize_mod (fun a ha => (hfr a ha).1 : ∀ a ∈ as, a.WF)
  have hnk : n - 48 = 16 + al + c.actions.length := by
    rw [align8_of_mod (by omega)] at hn
    omega
  have z1 : sl (zeros (n - 48)) 6 8 = zeros 2 := sl_zeros _ _ _ (by omega)
  have z2 : sl (sl (zeros (n - 48)) 16 (16 + al)) 24 al = zeros (al - 24) := by
    rw [sl_zeros _ _ _ (by omega), sl_zeros _ _ _ (by omega)]
  have g7 := (setAuthority_initial hal (by rw [sl_length_of_le (by simp; omega)]; omega) z2 a.encode).mpr ⟨a, ha, rfl⟩
  rw [addRole_enc hw.rolesOk rfl hal hs hfr h1 h255 hdup z1 (by simp; omega) g7, ok_bind]
  exact ⟨_, rfl⟩

/-- `create_v1` succeeds. -/
theorem createV1_of {env : Env} {m : Mem} {swig payer wallet sys : Meta} {rest : List Meta} {ix : Bytes} {c : CreateIx} {a : Auth}
    {as : List Act} (hid : c.id.length = 32) (hp : parseCreate ix = .ok c)
    (hs1 : (m swig.key).owner = systemId) (hs2 : (m swig.key).data = []) (hs3 : (m swig.key).lamports = 0)
    (hw1 : (m wallet.key).owner = systemId) (hw2 : (m wallet.key).data = [])
    (hsp : env.pda (swigSeeds c.id ++ [[c.bump]]) = some swig.key)
    (hwp : env.pda (walletSeeds swig.key ++ [[c.walletBump]]) = some wallet.key)
    (ha : initialAuth c.authType c.authData = some a) (hwr : c.actions = encActs 0 as) (hs : Submits c.actions as)
    (hman : ∃ x ∈ as, x.ty = P.all ∨ x.ty = P.manageAuthority)
    (hfr : ∀ x ∈ as, x.Fresh) (h1 : 1 ≤ as.length) (h255 : as.length ≤ 255) (hdup : NoV2Dup as)
    (hsize : 64 + a.encode.length + c.actions.length ≤ maxGrowth)
    (hpay : payer.key ≠ swig.key ∧ payer.key ≠ wallet.key ∧ swig.key ≠ wallet.key) (hsig : payer.signer = true)
    (hwr1 : payer.writable = true) (hwr2 : swig.writable = true) (hwr3 : wallet.writable = true)
    (hp1 : (m payer.key).owner = systemId) (hp2 : (m payer.key).data = [])
    (hfunds : env.rent (64 + a.encode.length + c.actions.length) + env.rent 0 ≤ (m payer.key).lamports) :
    ∃ m', createV1 env m (swig :: payer :: wallet :: sys :: rest) ix = .ok m' := by
  have hal := initialAuth_length ha
  have halm := authLen_mod hal
  have hwf : ∀ x ∈ as, x.WF := fun x hx => (hfr x hx).1
  have hamod := actsSize_mod hwf
  have hacts := hs.length
  have hal8 : align8 (48 + 16 + a.encode.length + c.actions.length) = 64 + a.encode.length + c.actions.length := align8_of_mod (by omega)
  have hfind : ∀ ty, ty = P.all ∨ ty = P.manageAuthority →
      findActionGo ty 0 c.actions c.actions.length 0 = .ok (decide (∃ x ∈ as, x.ty = ty)) := by
    intro ty hty
    have := findActionGo_of ty (marker_empty hty) as [] c.actions.length hwf (by unfold maxGrowth at hsize; simp; omega) (by omega)
    rw [hwr]
    rw [hwr] at this
    simpa using this
  have hpda : ∀ {seeds : List Bytes} {b : UInt8} {t : Key} {e : Err}, env.pda (seeds ++ [[b]]) = some t →
      ∃ x, checkSelfPda env seeds b t e = .ok x := by
    intro seeds b t e h
    unfold checkSelfPda
    rw [h]
    simp
  have hchk : createChecks env m swig wallet ix = .ok (c, a.encode.length) := by
    unfold createChecks
    obtain ⟨x1, e1⟩ := hpda (e := E.invalidSeedSwigAccount) hsp
    obtain ⟨x2, e2⟩ := hpda (e := E.invalidSeedSwigAccount) hwp
    rw [require_of hs1, ok_bind, require_of (by simp [hs2]), ok_bind, hp, ok_bind, e1, ok_bind, require_of hw1, ok_bind,
      require_of (by simp [hw2]), ok_bind, e2, ok_bind, hfind _ (Or.inr rfl), ok_bind, hfind _ (Or.inl rfl), ok_bind,
      require_of (by
        obtain ⟨x, hx, h⟩ := hman
        rcases h with h | h
        · exact Or.inr (decide_eq_true ⟨x, hx, h⟩)
        · exact Or.inl (decide_eq_true ⟨x, hx, h⟩)), ok_bind, initialAuth_ty ha, ok_bind, hal]
    rfl
  simp only [createV1]
  rw [hchk, ok_bind]
  simp only
  rw [hal8, hs3, Nat.sub_zero]
  have e0 : ∀ x, x ≠ swig.key →
      (m.set swig.key { owner := swigId, lamports := (m swig.key).lamports, data := zeros (64 + a.encode.length + c.actions.length) }) x = m x := by
    intro x hx
    simp [Mem.set, hx]
  obtain ⟨m1, hm1⟩ : ∃ m1, sysCreate m payer swig (env.rent (64 + a.encode.length + c.actions.length))
      (64 + a.encode.length + c.actions.length) swigId = .ok m1 := by
    unfold sysCreate
    rw [if_neg (by simp [hwr2]), if_neg (by simp [hs1, hs2, hs3]), if_neg (by omega)]
    exact sysTransfer_of hsig hwr1 hwr2 (by rw [e0 _ hpay.1]; exact hp1) (by rw [e0 _ hpay.1]; exact hp2) (by rw [e0 _ hpay.1]; omega)
  rw [hm1, ok_bind]
  have htr := (sysCreate_ok hm1).2.2
  have hd1 := sysTransfer_data htr
  have hl1 : (m1 payer.key).lamports = (m payer.key).lamports - env.rent (64 + a.encode.length + c.actions.length) := by
    obtain ⟨_, _, _, _, rfl⟩ := sysTransfer_ok htr
    rw [e0 _ hpay.1]
    simp [Mem.setLamports, Mem.set, hpay.1]
  obtain ⟨m2, hm2⟩ : ∃ m2, fundWallet env m1 payer wallet = .ok m2 := by
    unfold fundWallet
    dsimp only
    split
    · refine sysTransfer_of hsig hwr1 hwr3 ?_ ?_ (by omega)
      · rw [(hd1 payer.key).2, e0 _ hpay.1]; exact hp1
      · rw [(hd1 payer.key).1, e0 _ hpay.1]; exact hp2
    · exact ⟨_, rfl⟩
  rw [hm2, ok_bind]
  have hd2 : (m2 swig.key).data = zeros (64 + a.encode.length + c.actions.length) := by
    have : (m2 swig.key).data = (m1 swig.key).data := by
      unfold fundWallet at hm2
      dsimp only at hm2
      split at hm2
      · exact (sysTransfer_data hm2 _).1
      · cases hm2; rfl
    rw [this, (hd1 swig.key).1]
    simp [Mem.set]
  rw [hd2]
  obtain ⟨d, hd⟩ := createData_of hid hal (n := 64 + a.encode.length + c.actions.length) hal8.symm hsize ha hs hfr h1 h255 hdup
  rw [hd, ok_bind]
  exact ⟨_, rfl⟩

end Verif
