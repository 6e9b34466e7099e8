import Verif.Spec.Accept
import Verif.Proofs.LiveSub
import Verif.Proofs.LiveClose
import Verif.Proofs.ClientMore

/-! When the handlers accept: the conditions met by every accepted request that `Proofs/Handlers.lean` and its siblings leave out. -/

namespace Verif

theorem speaks_iff {env : Env} {m : Mem} {metas : List Meta} {w : Wallet} (hw : w.WF) {id : Nat} {payload data : Bytes} {r : Role} :
    Speaks env m metas w id payload data r ↔ ActsAs env m metas w id payload data r := by
  constructor
  · rintro ⟨h1, x, h2⟩
    have := authRole_used (hw.roles r (role?_mem h1).1).auth h2
    exact ⟨h1, this ▸ h2⟩
  · rintro ⟨h1, h2⟩
    exact ⟨h1, _, h2⟩

theorem topUp_topped {env : Env} {m m' : Mem} {payer swig : Meta} {n : Nat} (h : topUp env m payer swig n = .ok m') :
    Topped env m payer swig n := by
  unfold topUp at h
  dsimp only at h
  split at h
  · unfold sysTransfer at h
    split at h
    · cases h
    · rename_i h1
      split at h
      · cases h
      · rename_i h2
        split at h
        · cases h
        · rename_i h3
          simp only [not_or, Bool.not_eq_false] at h1
          simp only [not_or, Decidable.not_not] at h2
          exact .inr ⟨h1.1, h1.2.1, h1.2.2, h2.1, h2.2, by omega⟩
  · exact .inl (by omega)

theorem Topped.ofSetData {env : Env} {m : Mem} {payer swig : Meta} {n : Nat} {d : Bytes} (ho : (m swig.key).owner = swigId)
    (h : Topped env (m.setData swig.key d) payer swig n) : Topped env m payer swig n := by
  rcases h with h | ⟨h1, h2, h3, h4, h5, h6⟩
  · exact .inl (by simpa using h)
  · have h4 : (m payer.key).owner = systemId := by simpa using h4
    have hne : payer.key ≠ swig.key := fun h => by rw [h, ho] at h4; revert h4; decide
    rw [Mem.setData_other _ _ hne] at h5
    exact .inr ⟨h1, h2, h3, h4, h5, by simpa using h6⟩

theorem realloc_grows {m m' : Mem} {k : Key} {n : Nat} (h : realloc m k n = .ok m') : n ≤ 10485760 ∧ n ≤ (m k).data.length + 10240 := by
  show n ≤ maxAccountLen ∧ n ≤ (m k).data.length + maxGrowth
  unfold realloc at h
  split at h
  · cases h
  · omega

section
variable {env : Env} {m m' : Mem} {swig payer sys : Meta} {rest : List Meta} {ix : Bytes} {w : Wallet}

theorem removeAuthorityV1_sys (h : removeAuthorityV1 env m (swig :: payer :: sys :: rest) ix = .ok m') : sys.key = systemId := by
  simp only [removeAuthorityV1] at h
  obtain ⟨_, _, h⟩ := bind_ok_iff.mp h
  obtain ⟨_, hs, _⟩ := bind_ok_iff.mp h
  exact require_ok_iff.mp hs

theorem setRentClaimerV1_paid (hw : w.WF) (hd : (m swig.key).data = w.encode)
    (h : setRentClaimerV1 env m (swig :: payer :: sys :: rest) ix = .ok m') :
    sys.key = systemId ∧ MayGrow w.encode.length 40 ∧ Topped env m payer swig (w.encode.length + 40) := by
  simp only [setRentClaimerV1] at h
  obtain ⟨_, ho, h⟩ := bind_ok_iff.mp h
  have ho := require_ok_iff.mp ho
  obtain ⟨_, hs, h⟩ := bind_ok_iff.mp h
  obtain ⟨a, ha, h⟩ := bind_ok_iff.mp h
  obtain ⟨_, c1, h⟩ := bind_ok_iff.mp h
  obtain ⟨_, c2, h⟩ := bind_ok_iff.mp h
  rw [hd, openSwig_enc hw] at h
  simp only [ok_bind] at h
  obtain ⟨wallet, hwal, h⟩ := bind_ok_iff.mp h
  obtain ⟨_, c3, h⟩ := bind_ok_iff.mp h
  obtain ⟨⟨p, v⟩, hact, h⟩ := bind_ok_iff.mp h
  obtain ⟨r, hr1, hr2, rfl, hr4, hr5⟩ := actAs_enc hw hact
  simp only at h
  obtain ⟨_, _, h⟩ := bind_ok_iff.mp h
  obtain ⟨_, _, h⟩ := bind_ok_iff.mp h
  obtain ⟨_, _, h⟩ := bind_ok_iff.mp h
  obtain ⟨_, _, h⟩ := bind_ok_iff.mp h
  obtain ⟨_, _, h⟩ := bind_ok_iff.mp h
  obtain ⟨m1, hre, h⟩ := bind_ok_iff.mp h
  obtain ⟨m2, htop, h⟩ := bind_ok_iff.mp h
  obtain ⟨g1, g2⟩ := realloc_grows hre
  obtain ⟨_, rfl⟩ := realloc_ok hre
  rw [Mem.setData_data, Wallet.parts_bytes, Wallet.used_encode_length hw] at g2
  exact ⟨require_ok_iff.mp hs, ⟨g1, by omega⟩, .ofSetData ho (.ofSetData (by simpa using ho) (topUp_topped htop))⟩

theorem addAuthorityV1_paid (hw : w.WF) (hd : (m swig.key).data = w.encode) {a : AddIx} {cred : Auth} {as : List Act}
    (h : addAuthorityV1 env m (swig :: payer :: sys :: rest) ix = .ok m') (hp : parseAdd ix = .ok a)
    (hc : initialAuth a.newType a.authData = some cred) (hs : Submits a.actions as) (hfr : ∀ x ∈ as, x.Fresh) :
    sys.key = systemId ∧ MayGrow w.encode.length (16 + cred.encode.length + a.actions.length) ∧
      Topped env m payer swig (w.encode.length + (16 + cred.encode.length + a.actions.length)) := by
  have hal := initialAuth_length hc
  have hmod := Wallet.encode_mod hw
  have halm := authLen_mod hal
  have hacts := hs.length
  have hamod := actsSize_mod (fun a ha => (hfr a ha).1 : ∀ a ∈ as, a.WF)
  have hal8 : align8 (w.encode.length + (16 + cred.encode.length + a.actions.length)) =
      w.encode.length + (16 + cred.encode.length + a.actions.length) := align8_of_mod (by omega)
  simp only [addAuthorityV1] at h
  obtain ⟨_, ho, h⟩ := bind_ok_iff.mp h
  have ho := require_ok_iff.mp ho
  obtain ⟨_, hsy, h⟩ := bind_ok_iff.mp h
  obtain ⟨a', ha, h⟩ := bind_ok_iff.mp h
  rw [hp] at ha
  cases ha
  obtain ⟨ty, hty, h⟩ := bind_ok_iff.mp h
  have := authTypeOf_eq hty
  subst this
  rw [hd, openSwig_enc hw] at h
  simp only [ok_bind] at h
  obtain ⟨tail, ht, h⟩ := bind_ok_iff.mp h
  obtain ⟨⟨p, v⟩, hact, h⟩ := bind_ok_iff.mp h
  obtain ⟨r, hr1, hr2, rfl, hr4, hr5⟩ := actAs_enc hw hact
  simp only at h
  obtain ⟨_, _, h⟩ := bind_ok_iff.mp h
  obtain ⟨_, _, h⟩ := bind_ok_iff.mp h
  rw [hal] at h
  simp only [orErr, ok_bind] at h
  rw [hal8] at h
  obtain ⟨m1, hre, h⟩ := bind_ok_iff.mp h
  obtain ⟨m2, htop, h⟩ := bind_ok_iff.mp h
  obtain ⟨g1, g2⟩ := realloc_grows hre
  obtain ⟨_, rfl⟩ := realloc_ok hre
  rw [Mem.setData_data, Wallet.parts_bytes, Wallet.used_encode_length hw] at g2
  exact ⟨require_ok_iff.mp hsy, ⟨g1, by omega⟩, .ofSetData ho (.ofSetData (by simpa using ho) (topUp_topped htop))⟩

theorem growFor_paid {n : Nat} (ho : (m swig.key).owner = swigId) (hmod : (m swig.key).data.length % 8 = 0) (hn : n % 8 = 0)
    (h : growFor env m payer swig n = .ok m') :
    n > 0 → MayGrow (m swig.key).data.length n ∧ Topped env m payer swig ((m swig.key).data.length + n) := by
  intro hpos
  unfold growFor at h
  rw [if_pos hpos] at h
  dsimp only at h
  rw [align8_of_mod (by omega)] at h
  obtain ⟨m1, hre, h⟩ := bind_ok_iff.mp h
  obtain ⟨g1, g2⟩ := realloc_grows hre
  obtain ⟨_, rfl⟩ := realloc_ok hre
  exact ⟨⟨g1, by omega⟩, .ofSetData ho (topUp_topped h)⟩

theorem updateAuthorityV1_paid (hw : w.WF) (hd : (m swig.key).data = w.encode) {a : UpdateIx} {t : Role} {as : List Act}
    (h : updateAuthorityV1 env m (swig :: payer :: sys :: rest) ix = .ok m') (hp : parseUpdate ix = .ok a)
    (ht : w.role? a.target = some t) (hres : a.op.Result t.actions as) (hfr : ∀ x ∈ as, x.Fresh) :
    sys.key = systemId ∧ (a.op.growth (actsSize t.actions) > 0 → MayGrow w.encode.length (a.op.growth (actsSize t.actions)) ∧
      Topped env m payer swig (w.encode.length + a.op.growth (actsSize t.actions))) := by
  simp only [updateAuthorityV1] at h
  obtain ⟨_, ho, h⟩ := bind_ok_iff.mp h
  have ho := require_ok_iff.mp ho
  obtain ⟨_, hsy, h⟩ := bind_ok_iff.mp h
  obtain ⟨a', ha, h⟩ := bind_ok_iff.mp h
  rw [hp] at ha
  cases ha
  rw [hd, openSwig_enc hw] at h
  simp only [ok_bind] at h
  obtain ⟨tail, _, h⟩ := bind_ok_iff.mp h
  obtain ⟨⟨p, v⟩, hact, h⟩ := bind_ok_iff.mp h
  obtain ⟨r, hr1, hr2, rfl, hr4, hr5⟩ := actAs_enc hw hact
  simp only at h
  obtain ⟨_, _, h⟩ := bind_ok_iff.mp h
  obtain ⟨_, _, h⟩ := bind_ok_iff.mp h
  obtain ⟨⟨cur, authOff, actsOff⟩, hoff, h⟩ := bind_ok_iff.mp h
  simp only at h
  obtain ⟨m1, hg, h⟩ := bind_ok_iff.mp h
  refine ⟨require_ok_iff.mp hsy, ?_⟩
  have hw1 := Wallet.used_wf hw a.acting
  have ht1 : ∃ t1, (w.used a.acting).role? a.target = some t1 := by rw [Wallet.used_find, ht]; exact ⟨_, rfl⟩
  obtain ⟨t1, ht1⟩ := ht1
  obtain ⟨t', ht', _, _, hta, _⟩ := Wallet.used_role_inv hw ht1
  rw [ht] at ht'
  cases ht'
  obtain ⟨before, after, g1, g2, g3, g4⟩ := hw1.split ht1
  have hfo := findOffsetsGo_enc a.target t1 after g2 before [] (by rw [← g1]; exact hw1.rolesOk) g3
  simp only [List.nil_append, List.length_nil, Nat.zero_add, ← g1] at hfo
  have hfo' : findOffsetsGo (w.used a.acting).parts.roles a.target (w.used a.acting).parts.header.roles 0 = _ := hfo
  rw [hfo'] at hoff
  cases hoff
  have htw : t1.WF := hw1.roles t1 (by simp [g1])
  rw [hta] at hres ⊢
  have hgm := growth_mod hres htw.acts (fun x hx => (hfr x hx).1)
  have := growFor_paid (m := m.setData swig.key (w.used a.acting).parts.bytes) (by simpa using ho)
    (by rw [Mem.setData_data, Wallet.parts_bytes]; exact Wallet.encode_mod hw1) hgm hg
  rw [Mem.setData_data, Wallet.parts_bytes, Wallet.used_encode_length hw] at this
  intro hpos
  exact ⟨(this hpos).1, .ofSetData ho (this hpos).2⟩

/-! ## Closing -/

theorem findPda_iff {seeds : List Bytes} {k : Key} : (∃ b, findPda env seeds = .ok (k, b)) ↔ ∃ b, Client.Canonical env seeds b k := by
  constructor
  · rintro ⟨b, h⟩
    have key : ∀ n, n ≤ 255 → findPdaGo env seeds n = some (k, b) → env.pda (seeds ++ [[b]]) = some k ∧ b ≠ 0 ∧
        ∀ c : UInt8, b < c → c.toNat ≤ n → env.pda (seeds ++ [[c]]) = none := by
      intro n
      induction n with
      | zero => intro _ h; cases h
      | succ n ih =>
        intro hn h
        have hval : (UInt8.ofNat (n + 1)).toNat = n + 1 := by simp; omega
        unfold findPdaGo at h
        split at h
        · rename_i k' hk
          cases h
          refine ⟨hk, ?_, ?_⟩
          · intro h0
            rw [h0] at hval
            simp at hval
          · intro c hc hcn
            rw [UInt8.lt_iff_toNat_lt] at hc
            omega
        · rename_i hk
          obtain ⟨h1, h2, h3⟩ := ih (by omega) h
          refine ⟨h1, h2, ?_⟩
          intro c hc hcn
          by_cases hce : c.toNat = n + 1
          · rw [show c = UInt8.ofNat (n + 1) from UInt8.toNat_inj.mp (by rw [hval, hce])]
            exact hk
          · exact h3 c hc (by omega)
    obtain ⟨h1, h2, h3⟩ := key 255 (Nat.le_refl _) (orErr_ok h)
    exact ⟨b, h1, h2, fun c hc => h3 c hc (by have := c.toNat_lt; omega)⟩
  · rintro ⟨b, h⟩
    exact ⟨b, Client.findPda_canonical h⟩

theorem drainWallet_iff {swig : Key} {bump : UInt8} {wallet dst : Meta} :
    (∃ m', drainWallet env m swig bump wallet dst = .ok m') ↔ Emptied env m swig bump wallet dst := by
  unfold drainWallet Emptied
  split
  · rename_i hpos
    unfold signedTransfer
    constructor
    · rintro ⟨m', h⟩ _
      cases hk : env.pda (walletSeeds swig ++ [[bump]]) with
      | none => rw [hk] at h; cases h
      | some k =>
        rw [hk] at h
        dsimp only at h
        unfold sysTransfer at h
        split at h
        · cases h
        · rename_i h1
          split at h
          · cases h
          · rename_i h2
            simp only [not_or, Bool.not_eq_false, Bool.or_eq_true, decide_eq_true_eq] at h1
            simp only [not_or, Decidable.not_not] at h2
            exact ⟨⟨k, rfl, h1.1.symm⟩, h1.2.1, h1.2.2, h2.1, h2.2⟩
    · intro h
      obtain ⟨⟨k, hk, hs⟩, h2, h3, h4, h5⟩ := h hpos
      rw [hk]
      dsimp only
      exact sysTransfer_of (src := { wallet with signer := wallet.signer || decide (k = wallet.key) })
        (by rcases hs with h | h <;> simp [h]) h2 h3 h4 h5 (Nat.le_refl _)
  · rename_i hz
    exact ⟨fun _ h => absurd h hz, fun _ => ⟨_, rfl⟩⟩

theorem Emptied.setData {wallet dst : Meta} {bump : UInt8} (ho : (m swig.key).owner = swigId) (d : Bytes) :
    Emptied env (m.setData swig.key d) swig.key bump wallet dst ↔ Emptied env m swig.key bump wallet dst := by
  unfold Emptied
  by_cases hne : wallet.key = swig.key
  · rw [hne]
    simp only [Mem.setData_lamports, Mem.setData_owner, ho, show swigId ≠ systemId by decide, false_and, and_false]
  · rw [Mem.setData_other _ _ hne]

end

section
variable {env : Env} {m m' : Mem} {swig wallet dst sys : Meta} {rest : List Meta} {ix : Bytes} {w : Wallet}

theorem closeSwigV1_iff (hw : w.WF) (hd : (m swig.key).data = w.encode) (ho : (m swig.key).owner = swigId) :
    (∃ m', closeSwigV1 env m (swig :: wallet :: dst :: sys :: rest) ix = .ok m') ↔
      8 ≤ ix.length ∧ sys.key = systemId ∧ (∃ b, Client.Canonical env (walletSeeds swig.key) b wallet.key) ∧
      (∃ r, Speaks env m (swig :: wallet :: dst :: sys :: rest) w (rd ix 4 4) (ix.drop 8) (ix.take 8) r ∧
        (r.holds P.all ∨ r.holds P.manageAuthority ∨ r.holds P.closeSwigAuthority)) ∧
      (w.claimer = none ∨ w.claimer = some dst.key) ∧ (m swig.key).lamports ≤ env.rent w.encode.length ∧
      (m wallet.key).lamports ≤ env.rent 0 ∧ Emptied env m swig.key w.walletBump wallet dst := by
  constructor
  · rintro ⟨m', h⟩
    obtain ⟨a, r, m1, b, h1, _, h2, h3, h4, h5, h6, h7, h8, _⟩ := closeSwigV1_enc hw hd h
    simp only [closeSwigV1] at h
    obtain ⟨_, _, h⟩ := bind_ok_iff.mp h
    obtain ⟨_, hs, _⟩ := bind_ok_iff.mp h
    unfold parseRoleIx at h1
    split at h1
    · cases h1
    · cases h1
      rw [hd] at h6
      exact ⟨by omega, require_ok_iff.mp hs, findPda_iff.mp ⟨b, h5⟩, ⟨r, (speaks_iff hw).mpr h2, h3⟩, h4, h6, h7,
        (Emptied.setData ho _).mp (drainWallet_iff.mp ⟨m1, h8⟩)⟩
  · rintro ⟨h8, hsys, hc, ⟨r, hs, hperm⟩, hcl, h1, h2, he⟩
    obtain ⟨b, hpda⟩ := findPda_iff.mpr hc
    obtain ⟨v, e1, e2, e3⟩ := actAs_of hw ((speaks_iff hw).mp hs)
    simp only [closeSwigV1]
    rw [require_of ho, ok_bind, require_of hsys, ok_bind, show parseRoleIx ix E.invalidInstructionDataTooShort = .ok ⟨rd ix 4 4, ix.take 8, ix.drop 8⟩ by
        unfold parseRoleIx; rw [if_neg (by omega)], ok_bind, hd, openSwig_enc hw, ok_bind,
      show w.parts.tail = encTail w.claimer from rfl, claimerReadStrict_enc hw.claimer, ok_bind, hpda, ok_bind]
    dsimp only
    rw [require_of rfl, ok_bind, e1, ok_bind]
    dsimp only
    rw [e2, hasClose_enc hw (role?_mem hs.1).1, ok_bind, require_of (by simpa using hperm), ok_bind, require_of hcl, ok_bind,
      require_of h1, ok_bind, require_of h2, ok_bind, Wallet.parts_bytes]
    obtain ⟨m1, hm1⟩ := drainWallet_iff.mpr ((Emptied.setData ho (w.used (rd ix 4 4)).encode).mpr he)
    rw [show (w.used (rd ix 4 4)).parts.header.walletBump = w.walletBump from rfl, hm1, ok_bind, realloc_of (by decide) (by unfold maxGrowth; omega), ok_bind]
    exact ⟨_, rfl⟩

end

/-! ## Migrating -/

section
variable {env : Env} {m m' : Mem} {swig x payer wallet y : Meta} {rest : List Meta} {ix : Bytes} {w : Wallet}

theorem rd_zero_head {b : Bytes} {i n : Nat} (h : rd b i (n + 1) = 0) : b.getD i 0 = 0 := by
  unfold rd sl at h
  by_cases hi : i < b.length
  · rw [show i + (n + 1) - i = n + 1 by omega, List.drop_eq_getElem_cons hi, List.take_succ_cons] at h
    simp only [leNat] at h
    have : b[i].toNat = 0 := by omega
    rw [List.getD_eq_getElem?_getD, List.getElem?_eq_getElem hi]
    exact UInt8.toNat_inj.mp (by simpa using this)
  · rw [List.getD_eq_getElem?_getD, List.getElem?_eq_none (by omega)]
    rfl

theorem migrateV1_iff (hw : w.WF) (hd : (m swig.key).data = w.encode) (ho : (m swig.key).owner = swigId) :
    (∃ m', migrateV1 env m (swig :: x :: payer :: wallet :: y :: rest) ix = .ok m') ↔
      8 ≤ ix.length ∧ (∃ r, Speaks env m (swig :: x :: payer :: wallet :: y :: rest) w (rd ix 4 4) (ix.drop 8) (ix.take 8) r ∧
        (r.holds P.all ∨ r.holds P.manageAuthority)) ∧
      (m wallet.key).owner = systemId ∧ (m wallet.key).data = [] ∧ env.pda (walletSeeds swig.key ++ [[ix.getD 2 0]]) = some wallet.key ∧
      Topped env m payer wallet 0 := by
  have h48 := Wallet.encode_length hw
  have tops : ∀ d, Topped env (m.setData swig.key d) payer wallet 0 ↔ Topped env m payer wallet 0 := by
    intro d
    unfold Topped
    by_cases hne : payer.key = swig.key
    · rw [hne]
      simp only [Mem.setData_lamports, Mem.setData_owner, ho, show swigId ≠ systemId by decide, false_and, and_false]
    · rw [Mem.setData_other _ _ hne]
      simp only [Mem.setData_lamports]
  constructor
  · rintro ⟨m', h⟩
    obtain ⟨a, r, h1, h2, h3, h4, _⟩ := migrateV1_enc hw hd h
    unfold parseRoleIx at h1
    split at h1
    · cases h1
    · rename_i hl
      cases h1
      simp only [migrateV1] at h
      obtain ⟨a, ha, h⟩ := bind_ok_iff.mp h
      obtain ⟨_, _, h⟩ := bind_ok_iff.mp h
      obtain ⟨_, _, h⟩ := bind_ok_iff.mp h
      obtain ⟨_, _, h⟩ := bind_ok_iff.mp h
      rw [hd, openSwig_enc hw] at h
      simp only [ok_bind] at h
      obtain ⟨⟨p, v⟩, hact, h⟩ := bind_ok_iff.mp h
      simp only at h
      obtain ⟨_, _, h⟩ := bind_ok_iff.mp h
      obtain ⟨_, _, h⟩ := bind_ok_iff.mp h
      obtain ⟨_, k1, h⟩ := bind_ok_iff.mp h
      obtain ⟨_, k2, h⟩ := bind_ok_iff.mp h
      obtain ⟨b, _, h⟩ := bind_ok_iff.mp h
      obtain ⟨_, _, h⟩ := bind_ok_iff.mp h
      exact ⟨by omega, ⟨r, (speaks_iff hw).mpr h2, h3⟩, require_ok_iff.mp k1, List.length_eq_zero_iff.mp (require_ok_iff.mp k2), h4,
        (tops _).mp (topUp_topped (n := 0) h)⟩
  · rintro ⟨h8, ⟨r, hs, hperm⟩, h1, h2, h3, h4⟩
    obtain ⟨v, e1, e2, e3⟩ := actAs_of hw ((speaks_iff hw).mp hs)
    simp only [migrateV1]
    rw [show parseRoleIx ix E.invalidSwigCreateInstructionDataTooShort = .ok ⟨rd ix 4 4, ix.take 8, ix.drop 8⟩ by
        unfold parseRoleIx; rw [if_neg (by omega)], ok_bind, require_of (by rw [hd]; omega), ok_bind, require_of (by rw [hd]; rfl), ok_bind,
      require_of (show ¬ (rd (m swig.key).data 40 8 = 0 ∧ (m swig.key).data.getD 40 0 ≠ 0) from fun h => h.2 (rd_zero_head h.1)), ok_bind, hd, openSwig_enc hw, ok_bind, e1, ok_bind]
    dsimp only
    rw [e2, hasManage_enc hw (role?_mem hs.1).1, ok_bind, require_of (by simpa using hperm), ok_bind, require_of h1, ok_bind,
      require_of (by rw [h2]; rfl), ok_bind, checkSelfPda_of h3, ok_bind, require_of (.inl ho), ok_bind]
    exact topUp_of (n := 0) ((tops _).mpr h4)

end

/-! ## Switching a V2 sub-account on or off -/

section
variable {env : Env} {m m' : Mem} {swig x state : Meta} {rest : List Meta} {ix : Bytes} {w : Wallet}

theorem toggleSubV2_more (hw : w.WF) (hd : (m swig.key).data = w.encode)
    (h : toggleSubV2 env m (swig :: x :: state :: rest) ix = .ok m') :
    16 ≤ ix.length ∧ isV2 w.header = true ∧ ((m state.key).data.getD 3 0 = 0 ∨ (m state.key).data.getD 3 0 = 1) := by
  have hne := (toggleSubV2_enc hw hd h)
  obtain ⟨_, _, _, hne, _⟩ := hne
  simp only [toggleSubV2] at h
  obtain ⟨_, _, h⟩ := bind_ok_iff.mp h
  obtain ⟨_, _, h⟩ := bind_ok_iff.mp h
  obtain ⟨_, h16, h⟩ := bind_ok_iff.mp h
  obtain ⟨_, _, h⟩ := bind_ok_iff.mp h
  obtain ⟨⟨p, v⟩, hact, h⟩ := bind_ok_iff.mp h
  obtain ⟨r, hr1, hr2, rfl, hr4⟩ := actScoped_enc hw hd (by decide) (rd_lt32 _ _) hact
  simp only at h
  obtain ⟨u, ht, h⟩ := bind_ok_iff.mp h
  unfold toggleState at ht
  rw [Mem.setData_other _ _ hne] at ht
  obtain ⟨s, hs, ht⟩ := bind_ok_iff.mp ht
  obtain ⟨en, hen, _⟩ := bind_ok_iff.mp ht
  obtain ⟨_, _, rfl⟩ := loadSubState_ok hs
  refine ⟨require_ok_iff.mp h16, hr4, ?_⟩
  unfold SubState.isEnabled at hen
  split at hen
  · rename_i h0; exact .inl h0
  · split at hen
    · rename_i h1; exact .inr h1
    · cases hen

end

end Verif
