import Verif.Spec.AcceptSub
import Verif.Proofs.Accept
import Verif.Proofs.LiveCreate

/-! When the sub-account requests and the creation of wallets are accepted. -/

namespace Verif

section
variable {env : Env} {m m' : Mem}

/-- `fundWallet` succeeds exactly when the rent of an empty account is there or can be paid. -/
theorem fundWallet_iff {payer acct : Meta} : (∃ m', fundWallet env m payer acct = .ok m') ↔ Topped env m payer acct 0 := by
  unfold fundWallet Topped
  dsimp only
  split
  · unfold sysTransfer
    constructor
    · rintro ⟨m', h⟩
      split at h
      · cases h
      · rename_i h1
        split at h
        · cases h
        · rename_i h2
          split at h
          · cases h
          · simp only [not_or, Bool.not_eq_false] at h1
            simp only [not_or, Decidable.not_not] at h2
            exact .inr ⟨h1.1, h1.2.1, h1.2.2, h2.1, h2.2, by omega⟩
    · rintro (h | ⟨h1, h2, h3, h4, h5, h6⟩)
      · omega
      · rw [if_neg (by simp [h1, h2, h3]), if_neg (by simp [h4, h5]), if_neg (by omega)]
        exact ⟨_, rfl⟩
  · exact ⟨fun _ => .inl (by omega), fun _ => ⟨_, rfl⟩⟩

/-- New data in an account of the program changes nothing. -/
theorem Topped.other {payer acct : Meta} {n : Nat} {k : Key} (ho : (m k).owner = swigId) (d : Bytes) :
    Topped env (m.setData k d) payer acct n ↔ Topped env m payer acct n := by
  unfold Topped
  by_cases hne : payer.key = k
  · rw [hne]
    simp only [Mem.setData_lamports, Mem.setData_owner, ho, show swigId ≠ systemId by decide, false_and, and_false]
  · rw [Mem.setData_other _ _ hne]
    simp only [Mem.setData_lamports]

theorem readBool_iff {b : UInt8} : (∃ x, readBool b = .ok x) ↔ b = 0 ∨ b = 1 := by
  unfold readBool
  constructor
  · rintro ⟨x, h⟩
    split at h
    · rename_i h0; exact .inl h0
    · split at h
      · rename_i h0; exact .inr h0
      · cases h
  · rintro (rfl | rfl) <;> exact ⟨_, rfl⟩

theorem checkSubAct_iff {d : Bytes} {id : Key} {role : Nat} :
    (∃ u, checkSubAct (SubAct.decode d) id role = .ok u) ↔ d.getD 33 0 = 1 ∧ rd d 36 4 = role ∧ sl d 40 72 = id := by
  constructor
  · rintro ⟨u, h⟩
    exact checkSubAct_ok h
  · rintro ⟨h1, h2, h3⟩
    unfold checkSubAct
    rw [require_of (show (SubAct.decode d).swigId = id from h3), ok_bind, require_of (show (SubAct.decode d).roleId = role from h2), ok_bind,
      show (SubAct.decode d).enabled = d.getD 33 0 from rfl, h1]
    exact ⟨(), rfl⟩

/-- A payment out of `src`, an address the program signs for with `seeds`. -/
theorem signedTransfer_iff {seeds : List Bytes} {src dst : Meta} {n : Nat} :
    (∃ m', signedTransfer env m seeds src dst n = .ok m') ↔
      (∃ k, env.pda seeds = some k ∧ (k = src.key ∨ src.signer = true)) ∧ src.writable = true ∧ dst.writable = true ∧
      (m src.key).owner = systemId ∧ (m src.key).data = [] ∧ n ≤ (m src.key).lamports := by
  unfold signedTransfer
  constructor
  · rintro ⟨m', h⟩
    cases hk : env.pda seeds with
    | none => rw [hk] at h; cases h
    | some k =>
      rw [hk] at h
      dsimp only at h
      unfold sysTransfer at h
      split at h
      · cases h
      · rename_i h1
        split at h
        · cases h
        · rename_i h2
          split at h
          · cases h
          · rename_i h3
            simp only [not_or, Bool.not_eq_false, Bool.or_eq_true, decide_eq_true_eq] at h1
            simp only [not_or, Decidable.not_not] at h2
            exact ⟨⟨k, rfl, h1.1.symm⟩, h1.2.1, h1.2.2, h2.1, h2.2, by dsimp only at h3; omega⟩
  · rintro ⟨⟨k, hk, hs⟩, h2, h3, h4, h5, h6⟩
    rw [hk]
    dsimp only
    exact sysTransfer_of (src := { src with signer := src.signer || decide (k = src.key) })
      (by rcases hs with h | h <;> simp [h]) h2 h3 h4 h5 h6

theorem withdrawSol_iff {seeds : List Bytes} {src dst : Meta} {n : Nat} :
    (∃ m', withdrawSol env m src dst n seeds = .ok m') ↔
      (∃ k, env.pda seeds = some k ∧ (k = src.key ∨ src.signer = true)) ∧ src.writable = true ∧ dst.writable = true ∧
      (m src.key).owner = systemId ∧ (m src.key).data = [] ∧ n ≤ (m src.key).lamports := by
  unfold withdrawSol
  split
  · constructor
    · rintro ⟨_, h⟩; cases h
    · rintro ⟨_, _, _, _, _, h⟩; omega
  · exact signedTransfer_iff

end

/-! ## Version 1 -/

section
variable {env : Env} {cpi : Cpi} {m : Mem} {swig payer sub sys : Meta} {rest : List Meta} {ix : Bytes} {w : Wallet}

theorem createSubV1_iff (hw : w.WF) (hd : (m swig.key).data = w.encode) (ho : (m swig.key).owner = swigId) (hk : sub.key.length = 32) :
    (∃ m', createSubV1 env m (swig :: payer :: sub :: sys :: rest) ix = .ok m') ↔
      16 ≤ ix.length ∧ (m sub.key).owner = systemId ∧
      (∃ r, Speaks env m (swig :: payer :: sub :: sys :: rest) w (rd ix 4 4) (ix.drop 16) (ix.take 16) r ∧
        ∃ a ∈ r.actions, a.ty = P.subAccount ∧ a.data.take 32 = zeros 32) ∧
      env.pda (subSeeds w.id (natLE 4 (rd ix 4 4)) ++ [[ix.getD 8 0]]) = some sub.key ∧ Topped env m payer sub 0 := by
  constructor
  · rintro ⟨m', h⟩
    obtain ⟨r, ab, a, aa, h1, h2, h3, h4, h5, _, h7, _⟩ := createSubV1_enc hw hd hk h
    simp only [createSubV1] at h
    obtain ⟨_, _, h⟩ := bind_ok_iff.mp h
    obtain ⟨_, _, h⟩ := bind_ok_iff.mp h
    obtain ⟨_, h16, h⟩ := bind_ok_iff.mp h
    rw [hd, openSwigU_enc hw] at h
    simp only [ok_bind] at h
    obtain ⟨⟨p, v⟩, hact, h⟩ := bind_ok_iff.mp h
    simp only at h
    obtain ⟨f, hf, h⟩ := bind_ok_iff.mp h
    obtain ⟨o, ho2, h⟩ := bind_ok_iff.mp h
    obtain ⟨b, hb, h⟩ := bind_ok_iff.mp h
    obtain ⟨m1, hm1, h⟩ := bind_ok_iff.mp h
    exact ⟨require_ok_iff.mp h16, h7, ⟨r, (speaks_iff hw).mpr h1, a, by simp [h2], h3, h4⟩, h5,
      (Topped.other ho _).mp (fundWallet_iff.mp ⟨m1, hm1⟩)⟩
  · rintro ⟨h16, hso, ⟨r, hs, a, ha, hty, hz⟩, hp, ht⟩
    obtain ⟨v, e1, e2, e3⟩ := actAs_of hw ((speaks_iff hw).mp hs)
    have hrm : r ∈ w.roles := (role?_mem hs.1).1
    simp only [createSubV1]
    rw [require_of ho, ok_bind, require_of hso, ok_bind, require_of h16, ok_bind, hd, openSwigU_enc hw, ok_bind, e1, ok_bind]
    dsimp only
    rw [e2, getSub_nil]
    unfold getActionMut
    rcases getActionGo_grants P.subAccount (zeros 32) r.actions (hw.roles r hrm).acts (hw.actsSize_lt hrm).2 (by intro _; rfl) with
      ⟨a', ab, aa, k1, k2, _, k4⟩ | ⟨k1, _⟩
    · rw [k4, ok_bind]
      simp only [orErr, ok_bind]
      rw [show (w.used (rd ix 4 4)).parts.header.id = w.id from rfl, checkSelfPda_of hp, ok_bind]
      obtain ⟨m1, hm1⟩ := fundWallet_iff.mpr ((Topped.other ho (w.used (rd ix 4 4)).parts.bytes).mpr ht)
      rw [show fundEmpty env (m.setData swig.key (w.used (rd ix 4 4)).parts.bytes) payer sub = .ok m1 from hm1, ok_bind]
      exact ⟨_, rfl⟩
    · exact absurd ⟨hty, fun _ => hz⟩ (k1 a ha)

theorem toggleSubV1_iff (hw : w.WF) (hd : (m swig.key).data = w.encode) (ho : (m swig.key).owner = swigId) (hk : sub.key.length = 32) :
    (∃ m', toggleSubV1 env m (swig :: payer :: sub :: rest) ix = .ok m') ↔
      16 ≤ ix.length ∧ (m sub.key).owner = systemId ∧ (ix.getD 2 0 = 0 ∨ ix.getD 2 0 = 1) ∧
      (∃ r, Speaks env m (swig :: payer :: sub :: rest) w (rd ix 12 4) (ix.drop 16) (ix.take 16) r ∧
        (rd ix 12 4 = rd ix 8 4 ∨ r.holds P.all ∨ r.holds P.manageAuthority)) ∧
      ∃ t, w.role? (rd ix 8 4) = some t ∧ ∃ a ∈ t.actions, a.ty = P.subAccount ∧ a.data.take 32 = sub.key := by
  constructor
  · rintro ⟨m', h⟩
    obtain ⟨r, t, ab, a, aa, h1, h2, h3, h4, h5, h6, h7, _⟩ := toggleSubV1_enc hw hd hk h
    simp only [toggleSubV1] at h
    obtain ⟨_, _, h⟩ := bind_ok_iff.mp h
    obtain ⟨_, hso, h⟩ := bind_ok_iff.mp h
    obtain ⟨_, h16, h⟩ := bind_ok_iff.mp h
    obtain ⟨t', ht', _, _, hta, _⟩ := Wallet.used_role_inv hw h3
    exact ⟨require_ok_iff.mp h16, require_ok_iff.mp hso, h7, ⟨r, (speaks_iff hw).mpr h1, h2⟩, t', ht', a, by rw [hta, h4]; simp, h5, h6⟩
  · rintro ⟨h16, hso, h01, ⟨r, hs, hperm⟩, t, ht, a, ha, hty, hz⟩
    obtain ⟨v, e1, e2, e3⟩ := actAs_of hw ((speaks_iff hw).mp hs)
    have hrm : r ∈ w.roles := (role?_mem hs.1).1
    have hw1 := Wallet.used_wf hw (rd ix 12 4)
    have e4 : ∃ v', toggleRole env m (swig :: payer :: sub :: rest) w.parts (rd ix 8 4) (rd ix 12 4) (ix.drop 16) (ix.take 16) =
        .ok ((w.used (rd ix 12 4)).parts, v') ∧ v'.actions = encActs 0 t.actions := by
      unfold toggleRole
      rw [e1, ok_bind]
      dsimp only
      split
      · rename_i hne
        rw [e2, hasManage_enc hw hrm, ok_bind, require_of (decide_eq_true (hperm.resolve_left hne)), ok_bind,
          show (w.used (rd ix 12 4)).parts.roles = encRoles 0 (w.used (rd ix 12 4)).roles from rfl]
        have ht1 : ∃ t1, (w.used (rd ix 12 4)).role? (rd ix 8 4) = some t1 := by rw [Wallet.used_find, ht]; exact ⟨_, rfl⟩
        obtain ⟨t1, ht1⟩ := ht1
        obtain ⟨t', ht', _, _, hta, _⟩ := Wallet.used_role_inv hw ht1
        rw [ht] at ht'
        cases ht'
        rcases getMutRole_enc (rd ix 8 4) (w.used (rd ix 12 4)).roles hw1.rolesOk with ⟨t2, tb, ta, k1, k2, k3, k4⟩ | ⟨k1, _⟩
        · have : t2 = t1 := by have := role?_split k1 k2 k3; rw [ht1] at this; exact (Option.some.inj this).symm
          subst this
          rw [k4, ok_bind]
          simp only [orErr, ok_bind]
          exact ⟨_, rfl, by rw [hta]; rfl⟩
        · exact absurd (role?_mem ht1).2 (k1 t1 (role?_mem ht1).1)
      · rename_i hne
        have heq : rd ix 12 4 = rd ix 8 4 := Decidable.of_not_not hne
        have : r = t := by have := hs.1; rw [heq, ht] at this; exact (Option.some.inj this).symm
        subst this
        exact ⟨v, rfl, e2⟩
    obtain ⟨v', e4, e5⟩ := e4
    obtain ⟨x, hx⟩ := readBool_iff.mpr h01
    have htm : t ∈ w.roles := (role?_mem ht).1
    simp only [toggleSubV1]
    rw [require_of ho, ok_bind, require_of hso, ok_bind, require_of h16, ok_bind, hx, ok_bind, hd, openSwigU_enc hw, ok_bind, e4, ok_bind]
    dsimp only
    rw [e5]
    unfold getActionMut
    rcases getActionGo_grants P.subAccount sub.key t.actions (hw.roles t htm).acts (hw.actsSize_lt htm).2 (by intro _; exact hk) with
      ⟨a', ab, aa, k1, k2, _, k4⟩ | ⟨k1, _⟩
    · have hal := subAct_len ((hw.roles t htm).acts a' (by simp [k1])) k2.1
      rw [k4, ok_bind]
      simp only [orErr, ok_bind]
      have hsl : sl (encActs 0 t.actions) (actsSize ab + 8) (actsSize ab + 8 + 32) = sub.key := by
        have := sl_encActs_mid _ _ _ _ k1
        have hkey : a'.data.take 32 = sub.key := k2.2 (by decide)
        rw [← hkey]
        conv => rhs; rw [← this]
        unfold sl
        rw [List.take_take, show actsSize ab + 8 + 32 - (actsSize ab + 8) = 32 by omega,
          show actsSize ab + 8 + a'.data.length - (actsSize ab + 8) = a'.data.length by omega, Nat.min_eq_left (by omega)]
      rw [require_of hsl, ok_bind]
      exact ⟨_, rfl⟩
    · exact absurd ⟨hty, fun _ => hz⟩ (k1 a ha)

end

section
variable {env : Env} {cpi : Cpi} {m : Mem} {swig sub sys : Meta} {rest : List Meta} {ix : Bytes} {w : Wallet}

theorem subSignV1_iff (hw : w.WF) (hd : (m swig.key).data = w.encode) (ho : (m swig.key).owner = swigId) (hk : sub.key.length = 32) :
    (∃ m', subSignV1 env cpi m (swig :: sub :: sys :: rest) ix = .ok m') ↔
      16 + rd ix 2 2 ≤ ix.length ∧ env.stackHeight = 1 ∧ (m sub.key).owner = systemId ∧
      ∃ r a ixs m1, Speaks env m (swig :: sub :: sys :: rest) w (rd ix 4 4) (ix.drop (16 + rd ix 2 2)) (sl ix 16 (16 + rd ix 2 2)) r ∧
        r.actions.find? (fun a => a.grants P.subAccount sub.key) = some a ∧
        a.data.getD 33 0 = 1 ∧ rd a.data 36 4 = rd ix 4 4 ∧ sl a.data 40 72 = w.id ∧
        decodeIxs (swig :: sub :: sys :: rest) sub.key [] (sl ix 16 (16 + rd ix 2 2)) = .ok ixs ∧
        execAll env cpi (swig :: sub :: sys :: rest) sub.key (subSeeds w.id (natLE 4 (rd ix 4 4)) ++ [[a.data.getD 32 0]])
          (m.setData swig.key (w.used (rd ix 4 4)).encode) ixs = .ok m1 ∧ env.rent (m1 sub.key).data.length ≤ (m1 sub.key).lamports := by
  have hparse : 16 + rd ix 2 2 ≤ ix.length ↔ parseSubSign ix = .ok ⟨rd ix 4 4, sl ix 16 (16 + rd ix 2 2), ix.drop (16 + rd ix 2 2)⟩ := by
    unfold parseSubSign
    constructor
    · intro h
      rw [if_neg (by omega)]
      dsimp only
      rw [if_neg (by omega)]
    · intro h
      split at h
      · cases h
      · dsimp only at h
        split at h
        · cases h
        · omega
  constructor
  · rintro ⟨m', h⟩
    simp only [subSignV1] at h
    obtain ⟨_, hst, h⟩ := bind_ok_iff.mp h
    obtain ⟨_, _, h⟩ := bind_ok_iff.mp h
    obtain ⟨_, hso, h⟩ := bind_ok_iff.mp h
    obtain ⟨q, hq, h⟩ := bind_ok_iff.mp h
    have hlen : 16 + rd ix 2 2 ≤ ix.length := by
      unfold parseSubSign at hq
      split at hq
      · cases hq
      · dsimp only at hq
        split at hq
        · cases hq
        · omega
    rw [hparse.mp hlen] at hq
    cases hq
    rw [hd, openSwigU_enc hw] at h
    simp only [ok_bind] at h
    obtain ⟨⟨p, v⟩, hact, h⟩ := bind_ok_iff.mp h
    obtain ⟨r, hr1, hr2, rfl, hr4, hr5⟩ := actAs_enc hw hact
    simp only at h
    have hrm : r ∈ w.roles := (role?_mem hr1).1
    have hrw := hw.roles r hrm
    rw [hr4, getAction_enc _ _ _ hrw.acts hrw.nonempty (hw.actsSize_lt hrm).2 (by intro _; exact hk)] at h
    simp only [ok_bind] at h
    obtain ⟨d, hdd, h⟩ := bind_ok_iff.mp h
    have hdd := orErr_ok hdd
    obtain ⟨a, ha, hda⟩ := Option.map_eq_some_iff.mp hdd
    obtain ⟨u, hc, h⟩ := bind_ok_iff.mp h
    rw [← hda] at hc h
    obtain ⟨c1, c2, c3⟩ := checkSubAct_ok hc
    obtain ⟨ixs, hix, h⟩ := bind_ok_iff.mp h
    obtain ⟨m1, hm1, h⟩ := bind_ok_iff.mp h
    have e1 : (SubAct.decode a.data).swigId = w.id := c3
    have e2 : (SubAct.decode a.data).roleId = rd ix 4 4 := c2
    rw [e1, e2, Wallet.parts_bytes] at hm1
    refine ⟨hlen, require_ok_iff.mp hst, require_ok_iff.mp hso, r, a, ixs, m1, (speaks_iff hw).mpr ⟨hr1, hr2⟩, ha, c1, c2, c3, hix, hm1, ?_⟩
    unfold checkRent at h
    split at h
    · cases h
    · omega
  · rintro ⟨hlen, hst, hso, r, a, ixs, m1, hs, ha, c1, c2, c3, hix, hm1, hrent⟩
    obtain ⟨v, e1, e2, e3⟩ := actAs_of hw ((speaks_iff hw).mp hs)
    have hrm : r ∈ w.roles := (role?_mem hs.1).1
    have hrw := hw.roles r hrm
    obtain ⟨u, hc⟩ := checkSubAct_iff.mpr ⟨c1, c2, c3⟩
    have d1 : (SubAct.decode a.data).swigId = w.id := c3
    have d2 : (SubAct.decode a.data).roleId = rd ix 4 4 := c2
    simp only [subSignV1]
    rw [require_of hst, ok_bind, require_of ho, ok_bind, require_of hso, ok_bind, hparse.mp hlen, ok_bind, hd, openSwigU_enc hw, ok_bind, e1,
      ok_bind]
    dsimp only
    rw [e2, getAction_enc _ _ _ hrw.acts hrw.nonempty (hw.actsSize_lt hrm).2 (by intro _; exact hk), ok_bind, ha]
    simp only [Option.map_some, orErr, ok_bind]
    rw [show (w.used (rd ix 4 4)).parts.header.id = w.id from rfl, hc, ok_bind, hix, ok_bind, d1, d2, Wallet.parts_bytes,
      show (SubAct.decode a.data).bump = a.data.getD 32 0 from rfl, hm1, ok_bind]
    unfold checkRent
    rw [if_neg (by omega)]
    exact ⟨_, rfl⟩

end

/-! ## Withdrawals, version 1 -/

section
variable {env : Env} {cpi : Cpi} {m : Mem} {w : Wallet}

/-- The search among the first eleven roles. -/
theorem findSubRole_iff {id sub : Key} {i : Nat} {b : UInt8} : ∀ (n s : Nat), findSubRole env id sub n s = .ok (i, b) ↔
    s ≤ i ∧ i < s + n ∧ findPda env (subSeeds id (natLE 4 i)) = .ok (sub, b) ∧
      ∀ j, s ≤ j → j < i → ∃ k c, findPda env (subSeeds id (natLE 4 j)) = .ok (k, c) ∧ k ≠ sub := by
  intro n
  induction n with
  | zero =>
    intro s
    constructor
    · intro h; cases h
    · rintro ⟨h1, h2, _⟩; omega
  | succ n ih =>
    intro s
    unfold findSubRole
    cases hf : findPda env (subSeeds id (natLE 4 s)) with
    | error e =>
      constructor
      · intro h; cases h
      · rintro ⟨h1, h2, h3, h4⟩
        by_cases hs : s = i
        · subst hs; rw [hf] at h3; cases h3
        · obtain ⟨k, c, h5, _⟩ := h4 s (Nat.le_refl _) (by omega)
          rw [hf] at h5; cases h5
    | ok x =>
      obtain ⟨k, c⟩ := x
      rw [ok_bind]
      dsimp only
      split
      · rename_i hk
        subst hk
        constructor
        · intro h
          cases h
          exact ⟨Nat.le_refl _, by omega, hf, fun j h1 h2 => by omega⟩
        · rintro ⟨h1, h2, h3, h4⟩
          by_cases hs : s = i
          · subst hs; rw [hf] at h3; cases h3; rfl
          · obtain ⟨k', c', h5, h6⟩ := h4 s (Nat.le_refl _) (by omega)
            rw [hf] at h5; cases h5; exact absurd rfl h6
      · rename_i hk
        rw [ih (s + 1)]
        constructor
        · rintro ⟨h1, h2, h3, h4⟩
          refine ⟨by omega, by omega, h3, fun j h5 h6 => ?_⟩
          by_cases hs : j = s
          · subst hs; exact ⟨k, c, hf, hk⟩
          · exact h4 j (by omega) h6
        · rintro ⟨h1, h2, h3, h4⟩
          have hs : s ≠ i := by rintro rfl; rw [hf] at h3; cases h3; exact hk rfl
          exact ⟨by omega, by omega, h3, fun j h5 h6 => h4 j (by omega) h6⟩

/-- Canonical derivation and the search loop. -/
theorem findPda_canonical_iff {seeds : List Bytes} {k : Key} {b : UInt8} : findPda env seeds = .ok (k, b) ↔ Client.Canonical env seeds b k := by
  constructor
  · intro h
    obtain ⟨b', hb⟩ := findPda_iff.mp ⟨b, h⟩
    have := Client.findPda_canonical hb
    rw [h] at this
    cases this
    exact hb
  · exact Client.findPda_canonical

theorem mayWithdrawV1_iff (hw : w.WF) {role : Nat} {sub : Key} {r : Role} (hrm : r ∈ w.roles) (hk : sub.length = 32) {i : Nat} {b : UInt8} :
    (∃ s, withdrawPermission env w.header role sub (encActs 0 r.actions) = .ok s ∧ withdrawSigner env w.header sub s = .ok (i, b)) ↔
      MayWithdrawV1 env w.id role sub r i b := by
  have hrw := hw.roles r hrm
  unfold withdrawPermission MayWithdrawV1
  rw [hasMarker_enc hw hrm (by decide), hasMarker_enc hw hrm (by decide),
    getAction_enc _ _ _ hrw.acts hrw.nonempty (hw.actsSize_lt hrm).2 (by intro _; exact hk)]
  simp only [ok_bind, show w.header.id = w.id from rfl]
  cases hf : r.actions.find? (fun a => a.grants P.subAccount sub) with
  | some a =>
    simp only [Option.map_some]
    constructor
    · rintro ⟨s, hp, hs⟩
      obtain ⟨u, hc, hp⟩ := bind_ok_iff.mp hp
      obtain ⟨c1, c2, c3⟩ := checkSubAct_ok hc
      cases hp
      cases hs
      exact ⟨c1, c2, c3, c2, rfl⟩
    · rintro ⟨c1, c2, c3, rfl, rfl⟩
      obtain ⟨u, hc⟩ := checkSubAct_iff.mpr ⟨c1, c2, c3⟩
      rw [hc]
      refine ⟨_, rfl, ?_⟩
      show Except.ok ((SubAct.decode a.data).roleId, (SubAct.decode a.data).bump) = _
      rw [show (SubAct.decode a.data).roleId = i from c2]
      rfl
  | none =>
    simp only [Option.map_none]
    have hsig : withdrawSigner env w.header sub none = findSubRole env w.id sub 11 0 := rfl
    constructor
    · rintro ⟨s, hp, hs⟩
      by_cases hm : r.holds P.manageAuthority
      · rw [if_pos (decide_eq_true hm)] at hp
        obtain ⟨⟨k, c⟩, hfp, hp⟩ := bind_ok_iff.mp hp
        obtain ⟨_, hks, hp⟩ := bind_ok_iff.mp hp
        have hks : k = sub := require_ok_iff.mp hks
        cases hp
        rw [hsig, findSubRole_iff] at hs
        obtain ⟨_, h2, h3, h4⟩ := hs
        refine ⟨.inl ⟨hm, c, findPda_canonical_iff.mp (hks ▸ hfp)⟩, by omega, findPda_canonical_iff.mp h3, fun j hj => ?_⟩
        obtain ⟨k', c', h5, h6⟩ := h4 j (Nat.zero_le _) hj
        exact ⟨k', c', findPda_canonical_iff.mp h5, h6⟩
      · rw [if_neg (by rw [decide_eq_true_iff]; exact hm)] at hp
        obtain ⟨_, hall, hp⟩ := bind_ok_iff.mp hp
        cases hp
        rw [hsig, findSubRole_iff] at hs
        obtain ⟨_, h2, h3, h4⟩ := hs
        refine ⟨.inr ⟨hm, decide_eq_true_iff.mp (require_ok_iff.mp hall)⟩, by omega, findPda_canonical_iff.mp h3, fun j hj => ?_⟩
        obtain ⟨k', c', h5, h6⟩ := h4 j (Nat.zero_le _) hj
        exact ⟨k', c', findPda_canonical_iff.mp h5, h6⟩
    · rintro ⟨hperm, h2, h3, h4⟩
      refine ⟨none, ?_, ?_⟩
      · rcases hperm with ⟨hm, c, hc⟩ | ⟨hm, hall⟩
        · rw [if_pos (decide_eq_true hm), findPda_canonical_iff.mpr hc, ok_bind]
          dsimp only
          rw [require_of rfl, ok_bind]
        · rw [if_neg (by rw [decide_eq_true_iff]; exact hm), require_of (decide_eq_true hall), ok_bind]
      · rw [hsig, findSubRole_iff]
        refine ⟨Nat.zero_le _, by omega, findPda_canonical_iff.mpr h3, fun j _ hj => ?_⟩
        obtain ⟨k', c', h5, h6⟩ := h4 j hj
        exact ⟨k', c', findPda_canonical_iff.mpr h5, h6⟩

variable {swig auth sub x3 wallet x5 : Meta} {rest : List Meta} {ix : Bytes}

/-- Everything but the movement of the money. -/
theorem withdrawSubV1_front (hw : w.WF) (hd : (m swig.key).data = w.encode) (ho : (m swig.key).owner = swigId) (hk : sub.key.length = 32) :
    (∃ m', withdrawSubV1 env cpi m (swig :: auth :: sub :: x3 :: wallet :: x5 :: rest) ix = .ok m') ↔
      16 ≤ ix.length ∧ (m sub.key).owner = systemId ∧ (m wallet.key).owner = systemId ∧
      (∃ b, Client.Canonical env (walletSeeds swig.key) b wallet.key) ∧
      ∃ r i b, Speaks env m (swig :: auth :: sub :: x3 :: wallet :: x5 :: rest) w (rd ix 4 4) (ix.drop 16) (ix.take 16) r ∧
        MayWithdrawV1 env w.id (rd ix 4 4) sub.key r i b ∧
        ∃ m', (if 7 ≤ (swig :: auth :: sub :: x3 :: wallet :: x5 :: rest).length then
          withdrawTokenV1 env cpi (m.setData swig.key (w.used (rd ix 4 4)).encode) (swig :: auth :: sub :: x3 :: wallet :: x5 :: rest)
            sub.key wallet.key (rd ix 8 8) (subSeeds w.id (natLE 4 i) ++ [[b]])
        else withdrawSol env (m.setData swig.key (w.used (rd ix 4 4)).encode) sub wallet (rd ix 8 8)
          (subSeeds w.id (natLE 4 i) ++ [[b]])) = .ok m' := by
  constructor
  · rintro ⟨m', h⟩
    obtain ⟨r, s, i, b, b', h1, h2, h3, h4, h5, h6, h7, h8⟩ := withdrawSubV1_enc hw hd hk h
    simp only [withdrawSubV1] at h
    obtain ⟨_, _, h⟩ := bind_ok_iff.mp h
    obtain ⟨_, _, h⟩ := bind_ok_iff.mp h
    obtain ⟨_, _, h⟩ := bind_ok_iff.mp h
    obtain ⟨_, h16, h⟩ := bind_ok_iff.mp h
    exact ⟨require_ok_iff.mp h16, h3, h4, ⟨b', findPda_canonical_iff.mp h5⟩, r, i, b, (speaks_iff hw).mpr h1,
      (mayWithdrawV1_iff hw (role?_mem h1.1).1 hk).mp ⟨s, h6, h7⟩, m', h8⟩
  · rintro ⟨h16, h3, h4, ⟨b', h5⟩, r, i, b, hs, hm, m', h8⟩
    obtain ⟨v, e1, e2, e3⟩ := actAs_of hw ((speaks_iff hw).mp hs)
    obtain ⟨s, h6, h7⟩ := (mayWithdrawV1_iff hw (role?_mem hs.1).1 hk).mpr hm
    simp only [withdrawSubV1]
    rw [require_of ho, ok_bind, require_of h3, ok_bind, require_of h4, ok_bind, require_of h16, ok_bind, hd, openSwig_enc hw, ok_bind,
      findPda_canonical_iff.mpr h5, ok_bind]
    dsimp only
    rw [require_of rfl, ok_bind, e1, ok_bind]
    dsimp only
    have eh : (w.used (rd ix 4 4)).parts.header = w.header := Wallet.used_header w _
    rw [eh, e2, h6, ok_bind, h7, ok_bind]
    dsimp only
    rw [show w.header.id = w.id from rfl, Wallet.parts_bytes]
    exact ⟨m', h8⟩

end

/-! ## Version 2 -/

section
variable {env : Env} {cpi : Cpi} {m : Mem} {w : Wallet} {swig : Meta} {rest : List Meta} {ix : Bytes}

theorem subSignV2_iff {state sub sys : Meta} (hw : w.WF) (hd : (m swig.key).data = w.encode) (ho : (m swig.key).owner = swigId) :
    (∃ m', subSignV2 env cpi m (swig :: state :: sub :: sys :: rest) ix = .ok m') ↔
      16 + rd ix 2 2 ≤ ix.length ∧ env.stackHeight = 1 ∧ (m sub.key).owner = systemId ∧ isV2 w.header = true ∧
      (∃ r, Speaks env m (swig :: state :: sub :: sys :: rest) w (rd ix 4 4) (ix.drop (16 + rd ix 2 2)) (ix.take (16 + rd ix 2 2)) r ∧
        r.Scoped P.subAccountV2Sign true (rd ix 8 4)) ∧
      (m state.key).owner = swigId ∧ StateOk env (m state.key).data state.key sub.key w.id (rd ix 8 4) ∧
      ∃ ixs m1, decodeIxs (swig :: state :: sub :: sys :: rest) sub.key [] (sl ix 16 (16 + rd ix 2 2)) = .ok ixs ∧
        execAll env cpi (swig :: state :: sub :: sys :: rest) sub.key
          (subV2Seeds w.id (natLE 4 (rd ix 8 4)) ++ [[(m state.key).data.getD 2 0]])
          (m.setData swig.key (w.used (rd ix 4 4)).encode) ixs = .ok m1 ∧ env.rent (m1 sub.key).data.length ≤ (m1 sub.key).lamports := by
  have hparse : 16 + rd ix 2 2 ≤ ix.length → parseSubSignV2 ix =
      .ok ⟨rd ix 4 4, rd ix 8 4, sl ix 16 (16 + rd ix 2 2), ix.take (16 + rd ix 2 2), ix.drop (16 + rd ix 2 2)⟩ := by
    intro h
    unfold parseSubSignV2
    rw [if_neg (by omega)]
    dsimp only
    rw [if_neg (by omega)]
  constructor
  · rintro ⟨m', h⟩
    have hv : isV2 w.header = true := by
      simp only [subSignV2] at h
      obtain ⟨_, _, h⟩ := bind_ok_iff.mp h
      obtain ⟨_, _, h⟩ := bind_ok_iff.mp h
      obtain ⟨_, _, h⟩ := bind_ok_iff.mp h
      obtain ⟨a, _, h⟩ := bind_ok_iff.mp h
      obtain ⟨x, hx, h⟩ := bind_ok_iff.mp h
      unfold actScoped at hx
      rw [hd] at hx
      obtain ⟨p, hp, _⟩ := bind_ok_iff.mp hx
      exact (openSwigV2_ok hw hp).2
    obtain ⟨a, r, ixs, m1, h1, _, h3, h4, h5, h6, h7, h8, h9, h10, h11, h12⟩ := subSignV2_enc hw hd h
    have hlen : 16 + rd ix 2 2 ≤ ix.length := by
      unfold parseSubSignV2 at h1
      split at h1
      · cases h1
      · dsimp only at h1
        split at h1
        · cases h1
        · omega
    rw [hparse hlen] at h1
    cases h1
    refine ⟨hlen, h4, h3, hv, ⟨r, (speaks_iff hw).mpr h5, h6⟩, h8, h9, ixs, m1, h10, h11, ?_⟩
    unfold checkRent at h12
    split at h12
    · cases h12
    · omega
  · rintro ⟨hlen, h4, h3, hv, ⟨r, h5, h6⟩, h8, h9, ixs, m1, h10, h11, h12⟩
    have hne : state.key ≠ swig.key := by
      intro e
      have := h9.disc
      rw [e, hd, Wallet.encode_disc] at this
      exact absurd this (by decide)
    exact ⟨m1, subSignV2_of hw hd ho hv (hparse hlen) h3 h4 (rd_lt32 _ _) ((speaks_iff hw).mp h5) h6 hne h8 h9 h10 h11 h12⟩

theorem withdrawSubV2_front {auth state sub wallet x6 x7 : Meta} (hw : w.WF) (hd : (m swig.key).data = w.encode)
    (ho : (m swig.key).owner = swigId) :
    (∃ m', withdrawSubV2 env cpi m (swig :: auth :: state :: sub :: wallet :: x6 :: x7 :: rest) ix = .ok m') ↔
      24 ≤ ix.length ∧ (m sub.key).owner = systemId ∧ (m wallet.key).owner = systemId ∧ isV2 w.header = true ∧
      (∃ r, Speaks env m (swig :: auth :: state :: sub :: wallet :: x6 :: x7 :: rest) w (rd ix 4 4) (ix.drop 24) (ix.take 24) r ∧
        r.Scoped P.subAccountV2Withdraw true (rd ix 8 4)) ∧
      (m state.key).owner = swigId ∧ StateOk env (m state.key).data state.key sub.key w.id (rd ix 8 4) ∧
      env.pda (walletSeeds swig.key ++ [[w.walletBump]]) = some wallet.key ∧
      ∃ m', withdrawV2 env cpi (m.setData swig.key (w.used (rd ix 4 4)).encode)
        (swig :: auth :: state :: sub :: wallet :: x6 :: x7 :: rest) sub wallet (rd ix 16 8)
        (subV2Seeds w.id (natLE 4 (rd ix 8 4)) ++ [[(m state.key).data.getD 2 0]]) = .ok m' := by
  constructor
  · rintro ⟨m', h⟩
    obtain ⟨r, h1, h2, h3, h4, h5, h6, h7, h8, h9, h10⟩ := withdrawSubV2_enc hw hd h
    simp only [withdrawSubV2] at h
    obtain ⟨_, _, h⟩ := bind_ok_iff.mp h
    obtain ⟨_, _, h⟩ := bind_ok_iff.mp h
    obtain ⟨_, _, h⟩ := bind_ok_iff.mp h
    obtain ⟨_, h24, h⟩ := bind_ok_iff.mp h
    obtain ⟨x, hx, h⟩ := bind_ok_iff.mp h
    unfold actScoped at hx
    rw [hd] at hx
    obtain ⟨p, hp, _⟩ := bind_ok_iff.mp hx
    exact ⟨require_ok_iff.mp h24, h6, h7, (openSwigV2_ok hw hp).2, ⟨r, (speaks_iff hw).mpr h1, h2⟩, h4, h8, h9, m', h10⟩
  · rintro ⟨h24, h6, h7, hv, ⟨r, h1, h2⟩, h4, h8, h9, h10⟩
    have hne : state.key ≠ swig.key := by
      intro e
      have := h8.disc
      rw [e, hd, Wallet.encode_disc] at this
      exact absurd this (by decide)
    exact withdrawSubV2_of hw hd ho hv h24 ((speaks_iff hw).mp h1) h2 hne h4 h6 h7 h8 h9 h10

end

/-! ## Creation of version 2 sub-accounts -/

section
variable {env : Env} {m m' : Mem}

theorem MayPay.congr {m m' : Mem} {payer x : Meta} (h1 : (m' payer.key).owner = (m payer.key).owner)
    (h2 : (m' payer.key).data = (m payer.key).data) : MayPay m' payer x ↔ MayPay m payer x := by
  unfold MayPay
  rw [h1, h2]

theorem shortfall_iff {payer x : Meta} {c : Nat} : (∃ m', (if c > 0 then sysTransfer m payer x c else .ok m) = .ok m') ↔
    (c = 0 ∨ MayPay m payer x) ∧ c ≤ (m payer.key).lamports := by
  split
  · constructor
    · rintro ⟨m', h⟩
      unfold sysTransfer at h
      split at h
      · cases h
      · rename_i h1
        split at h
        · cases h
        · rename_i h2
          split at h
          · cases h
          · simp only [not_or, Bool.not_eq_false] at h1
            simp only [not_or, Decidable.not_not] at h2
            exact ⟨.inr ⟨h1.1, h1.2.1, h1.2.2, h2.1, h2.2⟩, by omega⟩
    · rintro ⟨h | ⟨h1, h2, h3, h4, h5⟩, h6⟩
      · omega
      · exact sysTransfer_of h1 h2 h3 h4 h5 h6
  · exact ⟨fun _ => ⟨.inl (by omega), by omega⟩, fun _ => ⟨_, rfl⟩⟩

theorem shortfall_ok {payer x : Meta} {c : Nat} (h : (if c > 0 then sysTransfer m payer x c else .ok m) = .ok m') (hne : payer.key ≠ x.key) :
    (m' payer.key).lamports = (m payer.key).lamports - c ∧ (∀ k, (m' k).data = (m k).data ∧ (m' k).owner = (m k).owner) ∧
      ∀ k, k ≠ payer.key → k ≠ x.key → m' k = m k := by
  split at h
  · obtain ⟨g1, _, g3⟩ := sysTransfer_lam h hne
    exact ⟨g1, sysTransfer_data h, g3⟩
  · cases h
    exact ⟨by omega, fun _ => ⟨rfl, rfl⟩, fun _ _ _ => rfl⟩

theorem topped_iff {payer x : Meta} {n : Nat} : Topped env m payer x n ↔
    (env.rent n ≤ (m x.key).lamports ∨ MayPay m payer x) ∧ env.rent n - (m x.key).lamports ≤ (m payer.key).lamports := by
  unfold Topped MayPay
  constructor
  · rintro (h | ⟨h1, h2, h3, h4, h5, h6⟩)
    · exact ⟨.inl h, by omega⟩
    · exact ⟨.inr ⟨h1, h2, h3, h4, h5⟩, by omega⟩
  · rintro ⟨h | ⟨h1, h2, h3, h4, h5⟩, h6⟩
    · exact .inl h
    · exact .inr ⟨h1, h2, h3, h4, h5, by omega⟩

theorem appendActions_iff {swig payer : Meta} {id : Nat} {acts : Bytes} {w : Wallet} {t : Role} {extra : List Act}
    (hw : w.WF) (hd : (m swig.key).data = w.encode) (ho : (m swig.key).owner = swigId) (ht : w.role? id = some t) (hs : Submits acts extra)
    (hpos : extra ≠ []) : (∃ m', appendActions env m swig payer id acts = .ok m') ↔
      (∀ x ∈ t.actions ++ extra, x.Fresh) ∧ (t.actions ++ extra).length ≤ 255 ∧ NoV2Dup (t.actions ++ extra) ∧
      MayGrow w.encode.length acts.length ∧ Topped env m payer swig (w.encode.length + acts.length) := by
  constructor
  · rintro ⟨m', h⟩
    obtain ⟨t', extra', h1, h2, h3, h4, h5, _⟩ := appendActions_enc hw hd h
    rw [ht] at h1
    cases h1
    have := Submits.inj h2 hs
    subst this
    have hxl := hs.length
    have hxm := actsSize_mod (fun x hx => (h3 x (by simp [hx])).1 : ∀ x ∈ extra', x.WF)
    have hx0 : 0 < acts.length := by
      rw [hxl]
      cases extra' with
      | nil => exact absurd rfl hpos
      | cons a as =>
        have : actsSize (a :: as) = 8 + a.data.length + actsSize as := rfl
        omega
    unfold appendActions at h
    obtain ⟨_, _, h⟩ := bind_ok_iff.mp h
    obtain ⟨_, _, h⟩ := bind_ok_iff.mp h
    obtain ⟨⟨cur, authOff, actsOff⟩, _, h⟩ := bind_ok_iff.mp h
    obtain ⟨m1, hg, h⟩ := bind_ok_iff.mp h
    have := growFor_paid ho (by rw [hd]; exact Wallet.encode_mod hw) (by omega) hg hx0
    rw [hd] at this
    exact ⟨h3, h4, h5, this.1, this.2⟩
  · rintro ⟨h3, h4, h5, h6, h7⟩
    have h1 : 1 ≤ (t.actions ++ extra).length := by
      cases extra with
      | nil => exact absurd rfl hpos
      | cons a as => simp; omega
    exact appendActions_of hw hd ht hs h3 h1 h4 h5 h6 (fun d => (Topped.other ho d).mpr h7)

theorem sysAllocAssign_iff {seeds : List Bytes} {acct : Meta} {space : Nat} {owner : Key} (hp : env.pda seeds = some acct.key)
    (ho : (m acct.key).owner = systemId) (hd : (m acct.key).data = []) (hs : space ≤ maxGrowth) :
    (∃ m', sysAllocAssign env m seeds acct space owner = .ok m') ↔ acct.writable = true := by
  unfold sysAllocAssign
  rw [hp]
  dsimp only
  constructor
  · rintro ⟨m', h⟩
    split at h
    · cases h
    · rename_i h1
      simp only [not_or, Bool.not_eq_false] at h1
      exact h1.1
  · intro h
    rw [if_neg (by simp [h]), if_neg (by simp [ho, hd]), if_neg (by omega)]
    exact ⟨_, rfl⟩

variable {swig payer state sub sys : Meta} {rest : List Meta} {ix : Bytes} {w : Wallet}

/-- What the payments for the state account and the sub-account leave. -/
theorem subPaid {m0 m1 m3 : Mem} {a : Acct} {d : Bytes} (p1 : payer.key ≠ swig.key) (p2 : payer.key ≠ state.key) (p3 : payer.key ≠ sub.key)
    (hss : state.key ≠ sub.key) (hne : state.key ≠ swig.key) (hsw : sub.key ≠ swig.key)
    (h1 : fundState env m0 payer state = .ok m1) (h3 : fundEmpty env ((m1.set state.key a).setData state.key d) payer sub = .ok m3) :
    m3 swig.key = m0 swig.key ∧ (m3 payer.key).owner = (m0 payer.key).owner ∧ (m3 payer.key).data = (m0 payer.key).data ∧
      (m3 payer.key).lamports = (m0 payer.key).lamports - (env.rent 72 - (m0 state.key).lamports) - (env.rent 0 - (m0 sub.key).lamports) := by
  obtain ⟨f1, g1, k1⟩ := shortfall_ok h1 p2
  obtain ⟨f3, g3, k3⟩ := shortfall_ok h3 p3
  have k2 : ∀ k, k ≠ state.key → ((m1.set state.key a).setData state.key d) k = m1 k := by
    intro k hk
    rw [Mem.setData_other _ _ hk, Mem.set_other _ _ hk]
  rw [k2 _ p2, k2 _ hss.symm, k1 _ p3.symm hss.symm, f1] at f3
  exact ⟨by rw [k3 _ p1.symm hsw.symm, k2 _ hne.symm, k1 _ p1.symm hne.symm], by rw [(g3 _).2, k2 _ p2, (g1 _).2],
    by rw [(g3 _).1, k2 _ p2, (g1 _).1], f3⟩

theorem createSubV2_iff (hw : w.WF) (hd : (m swig.key).data = w.encode) (ho : (m swig.key).owner = swigId) (p1 : payer.key ≠ swig.key)
    (p2 : payer.key ≠ state.key) (p3 : payer.key ≠ sub.key) (hss : state.key ≠ sub.key) :
    (∃ m', createSubV2 env m (swig :: payer :: state :: sub :: sys :: rest) ix = .ok m') ↔
      16 ≤ ix.length ∧ sys.key = systemId ∧ (m state.key).owner = systemId ∧ (m state.key).data = [] ∧ state.writable = true ∧
      (m sub.key).owner = systemId ∧ isV2 w.header = true ∧ w.subCounter + 1 < 2 ^ 32 ∧
      env.pda (subV2StateSeeds w.id (natLE 4 w.subCounter) ++ [[ix.getD 8 0]]) = some state.key ∧
      env.pda (subV2Seeds w.id (natLE 4 w.subCounter) ++ [[ix.getD 9 0]]) = some sub.key ∧
      ∃ r, Speaks env m (swig :: payer :: state :: sub :: sys :: rest) w (rd ix 4 4) (ix.drop 16) (ix.take 16) r ∧
        r.holds P.subAccountV2Create ∧
        if r.Scoped P.subAccountV2All false w.subCounter then ToppedAll env m payer [(state, 72), (sub, 0)]
        else (∀ x ∈ r.actions, x.Fresh) ∧ r.actions.length < 255 ∧ MayGrow w.encode.length 16 ∧
          ToppedAll env m payer [(state, 72), (sub, 0), (swig, w.encode.length + 16)] := by
  -- both sides after the checks
  have key : ∀ r, Speaks env m (swig :: payer :: state :: sub :: sys :: rest) w (rd ix 4 4) (ix.drop 16) (ix.take 16) r →
      (m state.key).owner = systemId → (m state.key).data = [] → (m sub.key).owner = systemId → w.subCounter + 1 < 2 ^ 32 →
      env.pda (subV2StateSeeds w.id (natLE 4 w.subCounter) ++ [[ix.getD 8 0]]) = some state.key →
      ((∃ m', ((fundState env (m.setData swig.key (w.used (rd ix 4 4)).drawn.encode) payer state).bind fun m1 =>
        (sysAllocAssign env m1 (subV2StateSeeds w.id (natLE 4 w.subCounter) ++ [[ix.getD 8 0]]) state 72 swigId).bind fun m2 =>
        (fundEmpty env (m2.setData state.key (SubState.encode ⟨2, ix.getD 8 0, ix.getD 9 0, 1, w.subCounter, w.id, sub.key⟩)) payer sub).bind
          fun m3 => grantAll env m3 swig payer (rd ix 4 4) w.subCounter (decide (r.Scoped P.subAccountV2All false w.subCounter))) = .ok m') ↔
        state.writable = true ∧
        if r.Scoped P.subAccountV2All false w.subCounter then ToppedAll env m payer [(state, 72), (sub, 0)]
        else (∀ x ∈ r.actions, x.Fresh) ∧ r.actions.length < 255 ∧ MayGrow w.encode.length 16 ∧
          ToppedAll env m payer [(state, 72), (sub, 0), (swig, w.encode.length + 16)]) := by
    intro r hs hso hse hsub hc hp1
    have hne : state.key ≠ swig.key := fun e => by rw [e, ho] at hso; exact absurd hso (by decide)
    have hsw : sub.key ≠ swig.key := fun e => by rw [e, ho] at hsub; exact absurd hsub (by decide)
    have hw1 : (w.used (rd ix 4 4)).drawn.WF := Wallet.drawn_wf (Wallet.used_wf hw _) hc
    have hul : (w.used (rd ix 4 4)).drawn.encode.length = w.encode.length := by
      rw [Wallet.encode_length hw1, ← Wallet.used_encode_length hw (rd ix 4 4), Wallet.encode_length (Wallet.used_wf hw _)]
      rfl
    have hrole : (w.used (rd ix 4 4)).drawn.role? (rd ix 4 4) = some { r with auth := usedCred r.authType r.auth } := by
      have : (w.used (rd ix 4 4)).role? (rd ix 4 4) = _ := Wallet.used_find w _ _
      show (w.used (rd ix 4 4)).role? (rd ix 4 4) = _
      rw [this, hs.1]
      simp [(role?_mem hs.1).2]
    have hlen : (allActionBytes w.subCounter).length = 16 := by simp [allActionBytes]
    generalize hm0 : m.setData swig.key (w.used (rd ix 4 4)).drawn.encode = m0
    have l0 : ∀ k, (m0 k).lamports = (m k).lamports ∧ (m0 k).owner = (m k).owner := by intro k; rw [← hm0]; simp
    have d0 : ∀ k, k ≠ swig.key → (m0 k).data = (m k).data := by intro k hk; rw [← hm0, Mem.setData_other _ _ hk]
    have d0s : (m0 swig.key).data = (w.used (rd ix 4 4)).drawn.encode := by rw [← hm0]; simp
    have mp0 : ∀ x, MayPay m0 payer x ↔ MayPay m payer x := fun x => MayPay.congr (l0 _).2 (d0 _ p1)
    have i1 := shortfall_iff (m := m0) (payer := payer) (x := state) (c := env.rent 72 - (m0 state.key).lamports)
    rw [mp0, (l0 _).1, (l0 _).1] at i1
    have i1 : (∃ m1, fundState env m0 payer state = .ok m1) ↔
        (env.rent 72 - (m state.key).lamports = 0 ∨ MayPay m payer state) ∧
          env.rent 72 - (m state.key).lamports ≤ (m payer.key).lamports := by
      unfold fundState
      rw [(l0 _).1]
      exact i1
    -- the steps after the first payment
    have step : ∀ m1, fundState env m0 payer state = .ok m1 → ∀ a d,
        ((∃ m3, fundEmpty env ((m1.set state.key a).setData state.key d) payer sub = .ok m3) ↔
          (env.rent 0 - (m sub.key).lamports = 0 ∨ MayPay m payer sub) ∧
            env.rent 0 - (m sub.key).lamports ≤ (m payer.key).lamports - (env.rent 72 - (m state.key).lamports)) := by
      intro m1 h1 a d
      obtain ⟨f1, g1, k1⟩ := shortfall_ok h1 p2
      have k2 : ∀ k, k ≠ state.key → ((m1.set state.key a).setData state.key d) k = m1 k := by
        intro k hk
        rw [Mem.setData_other _ _ hk, Mem.set_other _ _ hk]
      have i3 := shortfall_iff (m := (m1.set state.key a).setData state.key d) (payer := payer) (x := sub)
        (c := env.rent 0 - (((m1.set state.key a).setData state.key d) sub.key).lamports)
      rw [MayPay.congr (m := m) (by rw [k2 _ p2, (g1 _).2, (l0 _).2]) (by rw [k2 _ p2, (g1 _).1, d0 _ p1])] at i3
      rw [k2 _ p2, k2 _ hss.symm, k1 _ p3.symm hss.symm, f1, (l0 _).1, (l0 _).1, (l0 _).1] at i3
      unfold fundEmpty fundWallet
      dsimp only
      rw [k2 _ hss.symm, k1 _ p3.symm hss.symm, (l0 _).1]
      exact i3
    have alloc : ∀ m1, fundState env m0 payer state = .ok m1 →
        ((∃ m2, sysAllocAssign env m1 (subV2StateSeeds w.id (natLE 4 w.subCounter) ++ [[ix.getD 8 0]]) state 72 swigId = .ok m2) ↔
          state.writable = true) := by
      intro m1 h1
      obtain ⟨_, g1, _⟩ := shortfall_ok h1 p2
      exact sysAllocAssign_iff hp1 (by rw [(g1 _).2, (l0 _).2, hso]) (by rw [(g1 _).1, d0 _ hne, hse]) (by unfold maxGrowth; omega)
    have grant : ∀ m1 m3 a d, fundState env m0 payer state = .ok m1 → fundEmpty env ((m1.set state.key a).setData state.key d) payer sub = .ok m3 →
        ((∃ m', grantAll env m3 swig payer (rd ix 4 4) w.subCounter (decide (r.Scoped P.subAccountV2All false w.subCounter)) = .ok m') ↔
          (¬ r.Scoped P.subAccountV2All false w.subCounter → (∀ x ∈ r.actions, x.Fresh) ∧ r.actions.length < 255 ∧ MayGrow w.encode.length 16 ∧
            (env.rent (w.encode.length + 16) ≤ (m swig.key).lamports ∨ MayPay m payer swig) ∧
            env.rent (w.encode.length + 16) - (m swig.key).lamports ≤
              (m payer.key).lamports - (env.rent 72 - (m state.key).lamports) - (env.rent 0 - (m sub.key).lamports))) := by
      intro m1 m3 a d h1 h3
      obtain ⟨q1, q2, q3, q4⟩ := subPaid p1 p2 p3 hss hne hsw h1 h3
      unfold grantAll
      by_cases hg : r.Scoped P.subAccountV2All false w.subCounter
      · rw [if_pos (decide_eq_true hg)]
        exact ⟨fun _ h => absurd hg h, fun _ => ⟨_, rfl⟩⟩
      · rw [if_neg (by rw [decide_eq_true_iff]; exact hg),
          appendActions_iff (t := { r with auth := usedCred r.authType r.auth }) hw1 (by rw [q1, d0s]) (by rw [q1, (l0 _).2, ho]) hrole
            (allActionBytes_submits w.subCounter) (by simp), hul, hlen, topped_iff, q1, (l0 _).1, q4, (l0 _).1, (l0 _).1, (l0 _).1,
          MayPay.congr (m := m) (by rw [q2, (l0 _).2]) (by rw [q3, d0 _ p1])]
        constructor
        · rintro ⟨h1, h2, _, h4, h5⟩ _
          exact ⟨fun x hx => h1 x (by simp [hx]), by simp at h2; omega, h4, h5⟩
        · intro h
          obtain ⟨h1, h2, h4, h5⟩ := h hg
          refine ⟨fun x hx => ?_, by simp; omega,
            show NoV2Dup (r.actions ++ _) from allGrant_dup (hw.roles r (role?_mem hs.1).1) (by omega) hg, h4, h5⟩
          rcases List.mem_append.mp hx with hx | hx
          · exact h1 x hx
          · rw [List.mem_singleton.mp hx]; exact allGrant_fresh _
    have fin : (state.writable = true ∧
        if r.Scoped P.subAccountV2All false w.subCounter then ToppedAll env m payer [(state, 72), (sub, 0)]
        else (∀ x ∈ r.actions, x.Fresh) ∧ r.actions.length < 255 ∧ MayGrow w.encode.length 16 ∧
          ToppedAll env m payer [(state, 72), (sub, 0), (swig, w.encode.length + 16)]) ↔
        state.writable = true ∧ ((env.rent 72 - (m state.key).lamports = 0 ∨ MayPay m payer state) ∧
          env.rent 72 - (m state.key).lamports ≤ (m payer.key).lamports) ∧
        ((env.rent 0 - (m sub.key).lamports = 0 ∨ MayPay m payer sub) ∧
            env.rent 0 - (m sub.key).lamports ≤ (m payer.key).lamports - (env.rent 72 - (m state.key).lamports)) ∧
        (¬ r.Scoped P.subAccountV2All false w.subCounter → (∀ x ∈ r.actions, x.Fresh) ∧ r.actions.length < 255 ∧ MayGrow w.encode.length 16 ∧
            (env.rent (w.encode.length + 16) ≤ (m swig.key).lamports ∨ MayPay m payer swig) ∧
            env.rent (w.encode.length + 16) - (m swig.key).lamports ≤
              (m payer.key).lamports - (env.rent 72 - (m state.key).lamports) - (env.rent 0 - (m sub.key).lamports)) := by
      unfold ToppedAll
      simp only [List.mem_cons, List.not_mem_nil, or_false, forall_eq_or_imp, forall_eq, List.map_cons, List.map_nil, List.sum_cons,
        List.sum_nil, Nat.sub_eq_zero_iff_le]
      split
      · rename_i hg
        constructor
        · rintro ⟨h0, ⟨h1, h2⟩, h3⟩
          exact ⟨h0, ⟨h1, by omega⟩, ⟨h2, by omega⟩, fun h => absurd hg h⟩
        · rintro ⟨h0, ⟨h1, h2⟩, ⟨h3, h4⟩, _⟩
          exact ⟨h0, ⟨h1, h3⟩, by omega⟩
      · rename_i hg
        constructor
        · rintro ⟨h0, a1, a2, a3, ⟨h1, h2, h3⟩, h4⟩
          exact ⟨h0, ⟨h1, by omega⟩, ⟨h2, by omega⟩, fun _ => ⟨a1, a2, a3, h3, by omega⟩⟩
        · rintro ⟨h0, ⟨h1, h2⟩, ⟨h3, h4⟩, h5⟩
          obtain ⟨a1, a2, a3, a4, a5⟩ := h5 hg
          exact ⟨h0, a1, a2, a3, ⟨h1, h3, a4⟩, by omega⟩
    rw [fin]
    constructor
    · rintro ⟨m', h⟩
      obtain ⟨m1, h1, h⟩ := bind_ok_iff.mp h
      obtain ⟨m2, h2, h⟩ := bind_ok_iff.mp h
      have hwr := (alloc m1 h1).mp ⟨m2, h2⟩
      have e2 := sysAllocAssign_ok h2
      subst e2
      obtain ⟨m3, h3, h⟩ := bind_ok_iff.mp h
      exact ⟨hwr, i1.mp ⟨m1, h1⟩, (step m1 h1 _ _).mp ⟨m3, h3⟩, (grant m1 m3 _ _ h1 h3).mp ⟨m', h⟩⟩
    · rintro ⟨hwr, c1, c2, c3⟩
      obtain ⟨m1, h1⟩ := i1.mpr c1
      obtain ⟨m2, h2⟩ := (alloc m1 h1).mpr hwr
      have e2 := sysAllocAssign_ok h2
      subst e2
      obtain ⟨m3, h3⟩ := (step m1 h1 _ _).mpr c2
      obtain ⟨m', h⟩ := (grant m1 m3 _ _ h1 h3).mpr c3
      exact ⟨m', bind_ok_iff.mpr ⟨m1, h1, bind_ok_iff.mpr ⟨_, h2, bind_ok_iff.mpr ⟨m3, h3, h⟩⟩⟩⟩
  constructor
  · rintro ⟨m', h⟩
    simp only [createSubV2] at h
    obtain ⟨_, _, h⟩ := bind_ok_iff.mp h
    obtain ⟨_, hso, h⟩ := bind_ok_iff.mp h
    obtain ⟨_, hao, h⟩ := bind_ok_iff.mp h
    obtain ⟨_, hsy, h⟩ := bind_ok_iff.mp h
    obtain ⟨_, hse, h⟩ := bind_ok_iff.mp h
    obtain ⟨_, h16, h⟩ := bind_ok_iff.mp h
    have hso := require_ok_iff.mp hso
    have hao := require_ok_iff.mp hao
    have hse := List.length_eq_zero_iff.mp (require_ok_iff.mp hse)
    obtain ⟨⟨p, id, granted⟩, hdr, h⟩ := bind_ok_iff.mp h
    obtain ⟨r, hr1, hr2, hr3, hr4, rfl, hr6, rfl⟩ := drawSubId_enc hw hd hdr
    simp only [Wallet.parts_bytes] at h
    rw [show (w.used (rd ix 4 4)).drawn.parts.header.id = w.id from rfl] at h
    obtain ⟨b1, hb1, h⟩ := bind_ok_iff.mp h
    obtain ⟨rfl, hp1⟩ := checkSelfPda_ok hb1
    obtain ⟨b2, hb2, h⟩ := bind_ok_iff.mp h
    obtain ⟨rfl, hp2⟩ := checkSelfPda_ok hb2
    rw [hr6] at h
    have hs := (speaks_iff hw).mpr hr1
    obtain ⟨k1, k2⟩ := (key r hs hso hse hao hr4 hp1).mp ⟨m', h⟩
    exact ⟨require_ok_iff.mp h16, require_ok_iff.mp hsy, hso, hse, k1, hao, hr3, hr4, hp1, hp2, r, hs, hr2, k2⟩
  · rintro ⟨h16, hsy, hso, hse, k1, hao, hr3, hr4, hp1, hp2, r, hs, hr2, k2⟩
    obtain ⟨m', h⟩ := (key r hs hso hse hao hr4 hp1).mpr ⟨k1, k2⟩
    refine ⟨m', ?_⟩
    simp only [createSubV2]
    rw [require_of ho, ok_bind, require_of hso, ok_bind, require_of hao, ok_bind, require_of hsy, ok_bind, require_of (by simp [hse]),
      ok_bind, require_of h16, ok_bind, drawSubId_of hw hd hr3 ((speaks_iff hw).mp hs) hr2 hr4, ok_bind]
    dsimp only
    rw [show (w.used (rd ix 4 4)).drawn.parts.header.id = w.id from rfl, checkSelfPda_of hp1, ok_bind, checkSelfPda_of hp2, ok_bind,
      Wallet.parts_bytes]
    exact h

end

/-! ## Token accounts and assets -/

section
variable {env : Env} {cpi : Cpi} {m : Mem} {w : Wallet} {swig wallet dst prog : Meta} {rest : List Meta} {ix : Bytes}

theorem closeTokenV1_iff (hw : w.WF) (hd : (m swig.key).data = w.encode) (ho : (m swig.key).owner = swigId) :
    (∃ m', closeTokenV1 env cpi m (swig :: wallet :: dst :: prog :: rest) ix = .ok m') ↔
      8 ≤ ix.length ∧ (∃ r, Speaks env m (swig :: wallet :: dst :: prog :: rest) w (rd ix 4 4) (ix.drop 8) (ix.take 8) r ∧
        (r.holds P.all ∨ r.holds P.manageAuthority ∨ r.holds P.closeSwigAuthority)) ∧
      (w.claimer = none ∨ w.claimer = some dst.key) ∧ (prog.key = tokenId ∨ prog.key = token2022Id) ∧
      rd ix 2 2 < (swig :: wallet :: dst :: prog :: rest).length ∧
      ∃ b, Client.Canonical env (walletSeeds swig.key) b wallet.key ∧
        ∃ m', closeTokensGo env cpi (swig :: wallet :: dst :: prog :: rest) prog.key (isV2 w.header) swig.key wallet.key dst.key
          (walletSeeds swig.key ++ [[b]]) (swigSeeds w.id ++ [[w.bump]]) (m.setData swig.key (w.used (rd ix 4 4)).encode)
          ((swig :: wallet :: dst :: prog :: rest).drop (rd ix 2 2)) = .ok m' := by
  constructor
  · rintro ⟨m', h⟩
    obtain ⟨a, r, b, h1, h2, h3, h4, h5, h6, h7⟩ := closeTokenV1_enc hw hd h
    have hoff : rd ix 2 2 < (swig :: wallet :: dst :: prog :: rest).length := by
      simp only [closeTokenV1] at h
      obtain ⟨_, _, h⟩ := bind_ok_iff.mp h
      obtain ⟨_, _, h⟩ := bind_ok_iff.mp h
      obtain ⟨_, _, h⟩ := bind_ok_iff.mp h
      obtain ⟨_, _, h⟩ := bind_ok_iff.mp h
      obtain ⟨⟨_, _⟩, _, h⟩ := bind_ok_iff.mp h
      obtain ⟨_, _, h⟩ := bind_ok_iff.mp h
      obtain ⟨_, _, h⟩ := bind_ok_iff.mp h
      obtain ⟨⟨_, _⟩, _, h⟩ := bind_ok_iff.mp h
      obtain ⟨_, _, h⟩ := bind_ok_iff.mp h
      obtain ⟨_, _, h⟩ := bind_ok_iff.mp h
      obtain ⟨_, _, h⟩ := bind_ok_iff.mp h
      obtain ⟨_, _, h⟩ := bind_ok_iff.mp h
      obtain ⟨_, _, h⟩ := bind_ok_iff.mp h
      obtain ⟨_, hoff, h⟩ := bind_ok_iff.mp h
      exact require_ok_iff.mp hoff
    unfold parseRoleIx at h1
    split at h1
    · cases h1
    · cases h1
      exact ⟨by omega, ⟨r, (speaks_iff hw).mpr h2, h3⟩, h4, h5, hoff, b, findPda_canonical_iff.mp h6, m', h7⟩
  · rintro ⟨h8, ⟨r, hs, h3⟩, h4, h5, hoff, b, h6, m', h7⟩
    obtain ⟨v, e1, e2, e3⟩ := actAs_of hw ((speaks_iff hw).mp hs)
    have hl := Wallet.encode_length hw
    have hpar : parseRoleIx ix E.invalidInstructionDataTooShort = .ok ⟨rd ix 4 4, ix.take 8, ix.drop 8⟩ := by
      unfold parseRoleIx
      rw [if_neg (by omega)]
    simp only [closeTokenV1]
    rw [require_of ho, ok_bind, hpar, ok_bind, hd, require_of (by omega), ok_bind, require_of (Wallet.encode_disc w), ok_bind,
      findPda_canonical_iff.mpr h6, ok_bind]
    dsimp only
    rw [require_of rfl, ok_bind, openSwig_enc hw, ok_bind, e1, ok_bind]
    dsimp only
    rw [e2, hasClose_enc hw (role?_mem hs.1).1, ok_bind, require_of (decide_eq_true h3), ok_bind,
      show (w.used (rd ix 4 4)).parts.tail = encTail w.claimer from rfl, claimerReadStrict_enc hw.claimer, ok_bind, require_of h4, ok_bind,
      require_of h5, ok_bind, require_of hoff, ok_bind, Wallet.parts_bytes, show (w.used (rd ix 4 4)).parts.header = w.header from
        Wallet.used_header w _]
    exact ⟨m', h7⟩

theorem transferAssetsV1_iff {payer sys : Meta} (hw : w.WF) (hd : (m swig.key).data = w.encode) (ho : (m swig.key).owner = swigId) :
    (∃ m', transferAssetsV1 env cpi m (swig :: wallet :: payer :: sys :: rest) ix = .ok m') ↔
      8 ≤ ix.length ∧ (∃ r, Speaks env m (swig :: wallet :: payer :: sys :: rest) w (rd ix 4 4) (ix.drop 8) (ix.take 8) r ∧
        (r.holds P.all ∨ r.holds P.manageAuthority)) ∧ w.walletBump ≠ 0 ∧
      env.pda (walletSeeds swig.key ++ [[w.walletBump]]) = some wallet.key ∧
      ∃ m', transferTokensGo env cpi (swig :: wallet :: payer :: sys :: rest) swig.key wallet.key (swigSeeds w.id ++ [[w.bump]])
        (transferSol env (m.setData swig.key (w.used (rd ix 4 4)).encode) swig.key wallet.key) rest = .ok m' := by
  constructor
  · rintro ⟨m', h⟩
    obtain ⟨a, r, h1, _, h2, h3, h4, h5, h6⟩ := transferAssetsV1_enc hw hd h
    unfold parseRoleIx at h1
    split at h1
    · cases h1
    · cases h1
      exact ⟨by omega, ⟨r, (speaks_iff hw).mpr h2, h3⟩, h4, h5, m', h6⟩
  · rintro ⟨h8, ⟨r, hs, h3⟩, h4, h5, m', h6⟩
    obtain ⟨v, e1, e2, e3⟩ := actAs_of hw ((speaks_iff hw).mp hs)
    have hpar : parseRoleIx ix E.invalidSwigSignInstructionDataTooShort = .ok ⟨rd ix 4 4, ix.take 8, ix.drop 8⟩ := by
      unfold parseRoleIx
      rw [if_neg (by omega)]
    simp only [transferAssetsV1]
    rw [require_of ho, ok_bind, hpar, ok_bind, hd, openSwig_enc hw, ok_bind,
      show w.parts.header.walletBump = w.walletBump from rfl, require_of h4, ok_bind, checkSelfPda_of h5, ok_bind, e1, ok_bind]
    dsimp only
    rw [e2, hasManage_enc hw (role?_mem hs.1).1, ok_bind, require_of (decide_eq_true h3), ok_bind, Wallet.parts_bytes,
      show (w.used (rd ix 4 4)).parts.header = w.header from Wallet.used_header w _]
    exact ⟨m', h6⟩

end

/-! ## New wallets -/

section
variable {env : Env} {m : Mem} {swig payer wallet sys : Meta} {rest : List Meta} {ix : Bytes} {as : List Act}

theorem createV1_iff (hwf : ∀ x ∈ as, x.WF) (hact : ix.drop (40 + rd ix 4 2) = encActs 0 as) (p1 : payer.key ≠ wallet.key)
    (p2 : swig.key ≠ wallet.key) :
    (∃ m', createV1 env m (swig :: payer :: wallet :: sys :: rest) ix = .ok m') ↔
      40 + rd ix 4 2 ≤ ix.length ∧ (m swig.key).owner = systemId ∧ (m swig.key).data = [] ∧ (m swig.key).lamports = 0 ∧
      (m wallet.key).owner = systemId ∧ (m wallet.key).data = [] ∧
      env.pda (swigSeeds (sl ix 8 40) ++ [[ix.getD 6 0]]) = some swig.key ∧
      env.pda (walletSeeds swig.key ++ [[ix.getD 7 0]]) = some wallet.key ∧
      (∃ x ∈ as, x.ty = P.all ∨ x.ty = P.manageAuthority) ∧ (∀ x ∈ as, x.Fresh) ∧ as.length ≤ 255 ∧ NoV2Dup as ∧
      ∃ a, initialAuth (rd ix 2 2) (sl ix 40 (40 + rd ix 4 2)) = some a ∧ 64 + a.encode.length + actsSize as ≤ maxGrowth ∧
        payer.key ≠ swig.key ∧ MayPay m payer swig ∧ ToppedAll env m payer [(swig, 64 + a.encode.length + actsSize as), (wallet, 0)] := by
  have hamod := actsSize_mod hwf
  have hacts : Submits (encActs 0 as) as := Submits.encActs hwf 0
  have hsl : (ix.drop 40).take (rd ix 4 2) = sl ix 40 (40 + rd ix 4 2) := by
    unfold sl
    rw [Nat.add_sub_cancel_left]
  have hdr : (ix.drop 40).drop (rd ix 4 2) = encActs 0 as := by rw [List.drop_drop, hact]
  have hfind : ∀ ty, ty = P.all ∨ ty = P.manageAuthority → actsSize as < 2 ^ 32 →
      findActionGo ty 0 (encActs 0 as) (encActs 0 as).length 0 = .ok (decide (∃ x ∈ as, x.ty = ty)) := by
    intro ty hty hlt
    have := findActionGo_of ty (marker_empty hty) as [] (encActs 0 as).length hwf (by simpa using hlt) (by simp)
    simpa using this
  have e0 : ∀ n x, x ≠ swig.key → (m.set swig.key { owner := swigId, lamports := (m swig.key).lamports, data := zeros n }) x = m x := by
    intro n x hx
    rw [Mem.set_other _ _ hx]
  constructor
  · rintro ⟨m', h⟩
    obtain ⟨c, al, a, as', hchk, ha, hs, hfr, h1, h255, hdup, _⟩ := createV1_enc h
    obtain ⟨g1, g2, g3, g4, g5, g6, g7, g8, g9⟩ := createChecks_ok hchk
    simp only [createV1] at h
    rw [hchk, ok_bind] at h
    dsimp only at h
    have hal := initialAuth_length ha
    have halm := authLen_mod hal
    have : al = a.encode.length := by rw [hal] at g9; exact (Option.some.inj g9).symm
    subst this
    have hlen : 40 + rd ix 4 2 ≤ ix.length := by
      unfold parseCreate at g3
      split at g3
      · cases g3
      · dsimp only at g3
        split at g3
        · cases g3
        · rename_i h40 h5
          simp at h5
          omega
    have hpar : parseCreate ix = .ok ⟨rd ix 2 2, ix.getD 6 0, ix.getD 7 0, sl ix 8 40, sl ix 40 (40 + rd ix 4 2), encActs 0 as⟩ := by
      unfold parseCreate
      rw [if_neg (by omega)]
      dsimp only
      rw [if_neg (by simp; omega), hsl, hdr]
    rw [hpar] at g3
    cases g3
    have := hs.inj hacts
    subst this
    simp only [encActs_length] at h g4 g7 g8 ha
    rw [align8_of_mod (by omega)] at h
    obtain ⟨m1, hm1, h⟩ := bind_ok_iff.mp h
    obtain ⟨m2, hm2, h⟩ := bind_ok_iff.mp h
    have hwsw : swig.writable = true := by
      unfold sysCreate at hm1
      split at hm1
      · cases hm1
      · rename_i hx; simpa using hx
    obtain ⟨hl0, hmax, htr⟩ := sysCreate_ok hm1
    rw [show 48 + 16 + a.encode.length + actsSize as' = 64 + a.encode.length + actsSize as' by omega] at hmax htr
    have hps : payer.key ≠ swig.key := by
      intro e
      unfold sysTransfer at htr
      split at htr
      · cases htr
      · split at htr
        · cases htr
        · rename_i h2
          rw [e, Mem.set_same] at h2
          exact absurd rfl (fun _ : (0 : Nat) = 0 => h2 (.inl (by simp [show swigId ≠ systemId by decide])))
    obtain ⟨t1, t2, t3⟩ := sysTransfer_lam htr hps
    have td := sysTransfer_data htr
    have mp : MayPay m payer swig ∧ env.rent (64 + a.encode.length + actsSize as') - (m swig.key).lamports ≤ (m payer.key).lamports := by
      unfold sysTransfer at htr
      split at htr
      · cases htr
      · rename_i q1
        split at htr
        · cases htr
        · rename_i q2
          split at htr
          · cases htr
          · rename_i q3
            rw [e0 _ _ hps] at q2 q3
            simp only [not_or, Bool.not_eq_false] at q1
            simp only [not_or, Decidable.not_not] at q2
            exact ⟨⟨q1.1, q1.2.1, q1.2.2, q2.1, q2.2⟩, by omega⟩
    have hf := shortfall_iff.mp ⟨m2, (show (if env.rent 0 - (m1 wallet.key).lamports > 0 then
      sysTransfer m1 payer wallet (env.rent 0 - (m1 wallet.key).lamports) else .ok m1) = .ok m2 from hm2)⟩
    rw [t3 _ p1.symm p2.symm, e0 _ _ p2.symm, t1, e0 _ _ hps,
      MayPay.congr (m := m) (by rw [(td _).2, e0 _ _ hps]) (by rw [(td _).1, e0 _ _ hps])] at hf
    have hlt : actsSize as' < 2 ^ 32 := by unfold maxGrowth at hmax; omega
    refine ⟨hlen, g1, g2, hl0, g5, g6, g4, g7, ?_, hfr, h255, hdup, a, ha, hmax, hps, mp.1, ?_⟩
    · rcases g8 with g8 | g8
      · rw [← encActs_length 0 as', hfind _ (.inr rfl) hlt] at g8
        obtain ⟨x, hx, ht⟩ := decide_eq_true_iff.mp (Except.ok.inj g8)
        exact ⟨x, hx, .inr ht⟩
      · rw [← encActs_length 0 as', hfind _ (.inl rfl) hlt] at g8
        obtain ⟨x, hx, ht⟩ := decide_eq_true_iff.mp (Except.ok.inj g8)
        exact ⟨x, hx, .inl ht⟩
    · unfold ToppedAll
      simp only [List.mem_cons, List.not_mem_nil, or_false, forall_eq_or_imp, forall_eq, List.map_cons, List.map_nil, List.sum_cons,
        List.sum_nil]
      exact ⟨⟨.inr mp.1, hf.1.imp (by intro h; omega) id⟩, by have := mp.2; have := hf.2; omega⟩
  · rintro ⟨hlen, g1, g2, g3, g5, g6, g4, g7, hman, hfr, h255, hdup, a, ha, hmax, hps, mp, htop⟩
    have hal := initialAuth_length ha
    have halm := authLen_mod hal
    have hlt : actsSize as < 2 ^ 32 := by unfold maxGrowth at hmax; omega
    have hpar : parseCreate ix = .ok ⟨rd ix 2 2, ix.getD 6 0, ix.getD 7 0, sl ix 8 40, sl ix 40 (40 + rd ix 4 2), encActs 0 as⟩ := by
      unfold parseCreate
      rw [if_neg (by omega)]
      dsimp only
      rw [if_neg (by simp; omega), hsl, hdr]
    unfold ToppedAll at htop
    simp only [List.mem_cons, List.not_mem_nil, or_false, forall_eq_or_imp, forall_eq, List.map_cons, List.map_nil, List.sum_cons,
      List.sum_nil, g3, Nat.sub_zero, Nat.add_zero] at htop
    obtain ⟨⟨_, htw⟩, hsum⟩ := htop
    have hchk : createChecks env m swig wallet ix =
        .ok (⟨rd ix 2 2, ix.getD 6 0, ix.getD 7 0, sl ix 8 40, sl ix 40 (40 + rd ix 4 2), encActs 0 as⟩, a.encode.length) := by
      unfold createChecks
      rw [require_of g1, ok_bind, require_of (by simp [g2]), ok_bind, hpar, ok_bind]
      dsimp only
      rw [checkSelfPda_of g4, ok_bind, require_of g5, ok_bind,
        require_of (by simp [g6]), ok_bind, checkSelfPda_of g7, ok_bind, hfind _ (Or.inr rfl) hlt, ok_bind, hfind _ (Or.inl rfl) hlt, ok_bind,
        require_of (by
          obtain ⟨x, hx, h⟩ := hman
          rcases h with h | h
          · exact Or.inr (decide_eq_true ⟨x, hx, h⟩)
          · exact Or.inl (decide_eq_true ⟨x, hx, h⟩)), ok_bind, initialAuth_ty ha, ok_bind, hal]
      rfl
    have h1 : 1 ≤ as.length := by
      obtain ⟨x, hx, _⟩ := hman
      exact List.length_pos_of_mem hx
    simp only [createV1]
    rw [hchk, ok_bind]
    dsimp only
    rw [encActs_length, align8_of_mod (by omega), g3, Nat.sub_zero, show 48 + 16 + a.encode.length + actsSize as = 64 + a.encode.length + actsSize as by omega]
    obtain ⟨m1, hm1⟩ : ∃ m1, sysCreate m payer swig (env.rent (64 + a.encode.length + actsSize as)) (64 + a.encode.length + actsSize as) swigId =
        .ok m1 := by
      unfold sysCreate
      rw [if_neg (by simp [mp.2.2.1]), if_neg (by simp [g1, g2, g3]), if_neg (by omega)]
      exact sysTransfer_of mp.1 mp.2.1 mp.2.2.1 (by rw [e0 _ _ hps]; exact mp.2.2.2.1) (by rw [e0 _ _ hps]; exact mp.2.2.2.2)
        (by rw [e0 _ _ hps]; omega)
    rw [hm1, ok_bind]
    have htr := (sysCreate_ok hm1).2.2
    have td := sysTransfer_data htr
    obtain ⟨t1, _, t3⟩ := sysTransfer_lam htr hps
    rw [e0 _ _ hps] at t1
    obtain ⟨m2, hm2⟩ : ∃ m2, fundWallet env m1 payer wallet = .ok m2 := by
      refine shortfall_iff.mpr ?_
      rw [t3 _ p1.symm p2.symm, e0 _ _ p2.symm, t1, MayPay.congr (m := m) (by rw [(td _).2, e0 _ _ hps]) (by rw [(td _).1, e0 _ _ hps])]
      exact ⟨htw.imp (by intro h; omega) id, by omega⟩
    rw [hm2, ok_bind]
    have hd2 : (m2 swig.key).data = zeros (64 + a.encode.length + actsSize as) := by
      rw [(fundWallet_data hm2 _).1, (td swig.key).1, Mem.set_same]
    rw [hd2]
    obtain ⟨d, hd⟩ := createData_of (c := ⟨rd ix 2 2, ix.getD 6 0, ix.getD 7 0, sl ix 8 40, sl ix 40 (40 + rd ix 4 2), encActs 0 as⟩)
      (parseCreate_id hpar) hal (n := 64 + a.encode.length + actsSize as)
      (by dsimp only; rw [encActs_length, align8_of_mod (by omega)]) hmax ha hacts hfr h1 h255 hdup
    rw [hd, ok_bind]
    exact ⟨_, rfl⟩

end

end Verif
