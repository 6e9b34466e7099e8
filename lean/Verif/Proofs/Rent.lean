import Verif.Spec.Rent
import Verif.Proofs.History
import Verif.Proofs.FrameLamports
import Verif.Proofs.Scope
import Verif.Props.Manage

/-! Every request keeps the configuration account it is for, and those of other wallets, at the rent minimum. -/

namespace Verif

/-- Data of an open or closed configuration account, and its rent minimum. -/
def Upward.solid (rent : Nat → Nat) : Upward where
  holds d l := ((∃ w : Wallet, w.WF ∧ d = w.encode) ∨ d = [255]) ∧ rent d.length ≤ l
  up _ _ _ h h' := ⟨h'.1, Nat.le_trans h'.2 h⟩
  state d _ _ h h' := by
    exfalso
    rcases h'.1 with ⟨w, _, rfl⟩ | rfl
    · rw [Wallet.encode_head] at h; exact absurd h (by decide)
    · exact absurd h (by decide)

/-! ## Sizes -/

theorem len_of_size {w w' : Wallet} (hw : w.WF) (hw' : w'.WF) (hc : w'.claimer = w.claimer) (hs : rolesSize w'.roles = rolesSize w.roles) :
    w'.encode.length = w.encode.length := by
  rw [Wallet.encode_length hw, Wallet.encode_length hw', hc, hs]

theorem rolesSize_map {rs : List Role} {f : Role → Role} (h : ∀ r ∈ rs, (f r).size = r.size) : rolesSize (rs.map f) = rolesSize rs := by
  unfold rolesSize
  rw [List.map_map]
  congr 1
  exact List.map_congr_left h

theorem len_setAuth {w : Wallet} {id : Nat} {x : Bytes} (hw : w.WF) (hw' : (w.setAuth id x).WF) :
    (w.setAuth id x).encode.length = w.encode.length := by
  refine len_of_size hw hw' rfl (rolesSize_map fun r hr => ?_)
  split
  · rename_i hid
    have h1 := (hw.roles r hr).auth
    have h2 := (hw'.roles { r with auth := x } (by
      show _ ∈ w.roles.map _
      exact List.mem_map.mpr ⟨r, hr, by rw [if_pos hid]⟩)).auth
    have : x.length = r.auth.length := by
      rw [h1] at h2; exact (Option.some.inj h2).symm
    unfold Role.size; simp only; omega
  · rfl

theorem role_unique {w : Wallet} {id : Nat} {r s : Role} (hw : w.WF) (h : w.role? id = some r) (hs : s ∈ w.roles) (hi : s.id = id) : s = r := by
  have h1 : w.role? id = some s := hw.role?_iff.mpr ⟨hs, hi⟩
  rw [h] at h1
  exact (Option.some.inj h1).symm

theorem len_setActions {w : Wallet} {id : Nat} {r : Role} {as : List Act} (hw : w.WF) (hw' : (w.setActions id as).WF)
    (h : w.role? id = some r) (hs : actsSize as = actsSize r.actions) : (w.setActions id as).encode.length = w.encode.length := by
  refine len_of_size hw hw' rfl (rolesSize_map fun s hs' => ?_)
  split
  · rename_i hid
    have := role_unique hw h hs' hid
    subst this
    unfold Role.size; simp only; omega
  · rfl

theorem Act.Charged.len {a b : Act} (ha : a.WF) (hb : b.WF) (h : a.Charged b) : b.size = a.size := by
  unfold Act.WF at ha hb
  rw [h.1, ha] at hb
  unfold Act.size
  rw [Option.some.inj hb]

theorem All2.size {as bs : List Act} (h : All2 Act.Charged as bs) (ha : ∀ a ∈ as, a.WF) (hb : ∀ b ∈ bs, b.WF) : actsSize bs = actsSize as := by
  induction h with
  | nil => rfl
  | cons h _ ih =>
    have h1 := h.len (ha _ (by simp)) (hb _ (by simp))
    have h2 := ih (fun a h => ha a (by simp [h])) (fun b h => hb b (by simp [h]))
    unfold actsSize at h2 ⊢
    simp only [List.map_cons, List.sum_cons]
    omega

theorem len_setAct {w : Wallet} {id : Nat} {r : Role} {ab aa : List Act} {a : Act} {d : Bytes} (hw : w.WF) (hw' : (w.setAct id ab a aa d).WF)
    (h : w.role? id = some r) (hr : r.actions = ab ++ a :: aa) (hl : d.length = a.data.length) :
    (w.setAct id ab a aa d).encode.length = w.encode.length := by
  refine len_setActions hw hw' h ?_
  rw [hr]
  unfold actsSize Act.size
  simp [hl]

/-- An action appended: the account has the rent minimum of its new size. -/
theorem append_min {env : Env} {m m' : Mem} {swig payer : Meta} {id : Nat} {acts : Bytes} {w : Wallet} (hw : w.WF)
    (hd : (m swig.key).data = w.encode) (hn : 0 < acts.length) (ho : (m swig.key).owner = swigId)
    (h : appendActions env m swig payer id acts = .ok m') : env.rent (m' swig.key).data.length ≤ (m' swig.key).lamports := by
  obtain ⟨t, extra, h1, h2, h3, _, _, h6, h7, _⟩ := appendActions_enc hw hd h
  have hlen : (m' swig.key).data.length = align8 ((m swig.key).data.length + acts.length) := by
    have e1 := setActions_size hw h1 (as := t.actions ++ extra)
    have e2 : actsSize (t.actions ++ extra) = actsSize t.actions + actsSize extra := actsSize_append _ _
    have e3 := h2.length
    have e4 := Wallet.encode_mod h7
    have e5 := Wallet.encode_length hw
    have e6 := Wallet.encode_length h7
    have e7 : (w.setActions id (t.actions ++ extra)).claimer = w.claimer := rfl
    rw [e7] at e6
    rw [h6, hd, align8_of_mod] <;> omega
  unfold appendActions at h
  obtain ⟨_, _, h⟩ := bind_ok_iff.mp h
  obtain ⟨_, _, h⟩ := bind_ok_iff.mp h
  obtain ⟨⟨_, _, _⟩, _, h⟩ := bind_ok_iff.mp h
  obtain ⟨m1, hg, h⟩ := bind_ok_iff.mp h
  obtain ⟨⟨_, _⟩, _, h⟩ := bind_ok_iff.mp h
  have h := (Except.ok.inj h).symm
  have := growFor_min hg hn ho
  rw [hlen, h]
  simpa using this

/-! ## A request for the wallet itself -/

section
variable {env : Env} {cpi : Cpi} {m m' : Mem} {k : Key}

theorem solid_of {w' : Wallet} (hw : w'.WF) (hd : (m' k).data = w'.encode) (ho : (m' k).owner = swigId)
    (hl : env.rent (m' k).data.length ≤ (m' k).lamports) : Keep k (.solid env.rent) m' :=
  ⟨ho, .inl ⟨w', hw, hd⟩, hl⟩

/-- Same size, no lamports taken. -/
theorem solid_same {w w' : Wallet} (hd : (m k).data = w.encode) (hx : env.rent (m k).data.length ≤ (m k).lamports) (hw : w'.WF)
    (hd' : (m' k).data = w'.encode) (ho : (m' k).owner = swigId) (hlen : w'.encode.length = w.encode.length)
    (hl : (m k).lamports ≤ (m' k).lamports) : Keep k (.solid env.rent) m' := by
  refine solid_of hw hd' ho ?_
  rw [hd', hlen, ← hd]
  omega

theorem solid_used {w : Wallet} (hw : w.WF) (hd : (m k).data = w.encode) (ho : (m k).owner = swigId)
    (hx : env.rent (m k).data.length ≤ (m k).lamports) (id : Nat) : Keep k (.solid env.rent) (m.setData k (w.used id).encode) :=
  solid_same (m := m) hd hx (Wallet.used_wf hw id) (by simp) (by simpa using ho) (Wallet.used_encode_length hw id) (by simp)

theorem process_solid {w : Wallet} {swig : Meta} {rest0 : List Meta} {ix : Bytes} (ho : (m swig.key).owner = swigId) (hw : w.WF)
    (hd : (m swig.key).data = w.encode) (hx : env.rent (m swig.key).data.length ≤ (m swig.key).lamports)
    (hs : Supply m) (hr : ∀ a b, a ≤ b → env.rent a ≤ env.rent b) (hf : Fine env cpi m (swig :: rest0) ix)
    (hc : ∀ a ix b, Keep swig.key (.solid env.rent) a → cpi a ix = .ok b → Keep swig.key (.solid env.rent) b)
    (hna : ∀ a ix b k, (a k).owner = systemId → cpi a ix = .ok b → (b k).owner = systemId)
    (e : process env cpi m (swig :: rest0) ix = .ok m') : Keep swig.key (.solid env.rent) m' := by
  have he := e
  obtain ⟨hcount, hctr⟩ := hf.room _ _ _ rfl ⟨ho, hw, hd⟩
  have hrt := hf.runtime _ _ rfl
  have hs1 := hs swig.key
  have hu := solid_used (env := env) hw hd ho hx
  unfold process at e
  obtain ⟨_, _, e1⟩ := bind_ok_iff.mp e
  clear e
  obtain ⟨cls, hcls, e⟩ := bind_ok_iff.mp e1
  clear e1
  unfold dispatch at e
  split at e
  · cases e
  split at e
  · match rest0, hrt, hf, e with
    | payer :: sys :: rest, hrt, hf, e =>
      obtain ⟨a, _, cred, as, hp, _, _, _, _, _, _, _, _, h1, h2, h3⟩ := addAuthorityV1_enc hw hd hcount hctr e
      obtain ⟨m1, m2, g1, htop, hl⟩ := add_topUp hw hd hcount hctr e
      refine solid_of h2 h1 (by rw [(h3 _).1]; exact ho) ?_
      rw [hl]
      exact topUp_min htop (by rw [(g1 _).2]; exact ho)
    | [_], _, _, e => cases e
    | [], _, _, e => cases e
  · match rest0, hrt, hf, e with
    | payer :: sys :: rest, hrt, hf, e =>
      obtain ⟨a, _, t, hp, h0, _, _, ht, h1, h2, h3, h4⟩ := removeAuthorityV1_enc hw hd e
      refine solid_of h2 h1 (by rw [(h3 _).1]; exact ho) ?_
      by_cases hne : payer.key = swig.key
      · have e1 : (m' swig.key).data.length ≤ w.encode.length := by
          obtain ⟨a', t', k1, k2, _, _, _, k6, _⟩ := C04_remove_exactly_one hw hd e
          rw [hd] at k6
          omega
        have e2 : (m' swig.key).lamports = (m swig.key).lamports := by
          rw [h4]
          unfold removeRefund
          rw [hne, Mem.setLamports_same, Mem.setLamports_same]
          unfold add64 sub64
          rw [hd] at hx
          have h5 := hr (w.encode.length - t.size) _ (Nat.sub_le w.encode.length t.size)
          generalize env.rent w.encode.length = x at *
          generalize env.rent (w.encode.length - t.size) = y at *
          omega
        rw [e2]
        rw [hd] at hx
        exact Nat.le_trans (hr _ _ e1) hx
      · obtain ⟨_, _, _, h5, _⟩ := C42_remove_rent hw hd hne hr hx (by omega) (hs.two hne) e
        exact h5
    | [_], _, _, e => cases e
    | [], _, _, e => cases e
  · match rest0, hrt, hf, e with
    | payer :: sys :: rest, hrt, hf, e =>
      obtain ⟨a, _, _, as, hp, _, _, _, _, _, _, _, _, h1, h2, h3, h4⟩ := updateAuthorityV1_full hw hd e
      refine solid_of h2 h1 (by rw [(h3 _).1]; exact ho) ?_
      by_cases hne : payer.key = swig.key
      · rcases Nat.lt_trichotomy (m' swig.key).data.length (m swig.key).data.length with hl | hl | hl
        · rw [h4.shrunkSelf hl hne (by omega)]
          exact Nat.le_trans (hr _ _ (Nat.le_of_lt hl)) hx
        · rw [h4.same hl, hl]; exact hx
        · exact h4.grownMin hl ho
      · exact (C42_update_rent hw hd hne hr hx (hs.two hne) e).1
    | [_], _, _, e => cases e
    | [], _, _, e => cases e
  · cases e
  · match rest0, hrt, hf, e with
    | payer :: sys :: rest, hrt, hf, e =>
      obtain ⟨a, r, auth, s, hp, g1, g2, g3, g4, g5, _, _, h1, h2, h3⟩ := createSessionV1_enc hw hd e
      exact solid_same hd hx h2 h1 (by rw [h3]; simpa using ho) (len_setAuth hw h2) (by rw [h3]; simp)
    | [_], _, _, e => cases e
    | [], _, _, e => cases e
  · match rest0, hrt, hf, e with
    | payer :: sub :: sys :: rest, hrt, hf, e =>
      obtain ⟨r, ab, a, aa, hr', g1, g2, _, _, _, _, h1, h2, h3⟩ := createSubV1_enc hw hd (hrt.keys sub (by simp)) e
      have hu' := Wallet.used_wf hw (rd ix 4 4)
      have ha : a.WF := (hw.roles r (role?_mem hr'.1).1).acts a (by rw [g1]; simp)
      refine solid_same hd hx h2 h1 (by rw [(h3 _).1]; exact ho) ?_ ?_
      · rw [len_setAct hu' h2 (role?_used hr'.1) g1, Wallet.used_encode_length hw]
        have h72 := subAct_len ha g2
        rw [createdSubAct_length _ _ _ _ _ (hrt.keys sub (by simp)) (by omega) hw.idLen]
        omega
      · simp only [createSubV1] at e
        obtain ⟨_, _, e⟩ := bind_ok_iff.mp e
        obtain ⟨_, _, e⟩ := bind_ok_iff.mp e
        obtain ⟨_, _, e⟩ := bind_ok_iff.mp e
        obtain ⟨_, _, e⟩ := bind_ok_iff.mp e
        obtain ⟨⟨_, _⟩, _, e⟩ := bind_ok_iff.mp e
        obtain ⟨_, _, e⟩ := bind_ok_iff.mp e
        obtain ⟨_, _, e⟩ := bind_ok_iff.mp e
        obtain ⟨_, _, e⟩ := bind_ok_iff.mp e
        obtain ⟨m1, hfw, e⟩ := bind_ok_iff.mp e
        cases e
        have := (Keep.fundWallet (v := swig.key) (Q := .atLeast (m swig.key).lamports) ⟨by simpa using ho, by simp [Upward.atLeast]⟩ hfw).2
        simpa [Upward.atLeast] using this
    | [_, _], _, _, e => cases e
    | [_], _, _, e => cases e
    | [], _, _, e => cases e
  · match rest0, hrt, hf, e with
    | auth :: sub :: x3 :: wallet :: x5 :: rest, hrt, hf, e =>
      obtain ⟨r, s, role, bump, b, _, _, _, _, _, _, _, h1⟩ := withdrawSubV1_enc hw hd (hrt.keys sub (by simp)) e
      split at h1
      · exact Keep.withdrawTokenV1 hc (hu _) h1
      · exact (hu _).withdrawSol h1
    | [_, _, _, _], _, _, e => cases e
    | [_, _, _], _, _, e => cases e
    | [_, _], _, _, e => cases e
    | [_], _, _, e => cases e
    | [], _, _, e => cases e
  · match rest0, hrt, hf, e with
    | sub :: sys :: rest, hrt, hf, e =>
      obtain ⟨q, r, a, ixs, m1, hp, _, _, hso, _, _, _, _, _, h1, h2⟩ := subSignV1_enc hw hd (hrt.keys sub (by simp)) e
      exact Keep.checkRent (Keep.execAll hc hna (hu _) (by simpa using hso) h1) h2
    | [_], _, _, e => cases e
    | [], _, _, e => cases e
  · match rest0, hrt, hf, e with
    | payer :: sub :: rest, hrt, hf, e =>
      obtain ⟨r, t, ab, a, aa, _, _, g0, g1, g2, g3, _, _, h2, h3⟩ := toggleSubV1_enc hw hd (hrt.keys sub (by simp)) e
      have hu' := Wallet.used_wf hw (rd ix 12 4)
      have ha : a.WF := (hu'.roles t (role?_mem g0).1).acts a (by rw [g1]; simp)
      refine solid_same hd hx h2 (by rw [h3]; simp) (by rw [h3]; simpa using ho) ?_ (by rw [h3]; simp)
      rw [len_setAct hu' h2 g0 g1, Wallet.used_encode_length hw]
      have := subAct_len ha g2
      exact put_length (by simp; omega)
    | [_], _, _, e => cases e
    | [], _, _, e => cases e
  · rename_i hix
    match rest0, hrt, hf, he, hcls, e with
    | wallet :: x3 :: rest, hrt, hf, he, hcls, e =>
      obtain ⟨a, r, before, after, ixs, h1, h2, h3, h4, h5, h6, h7, h8⟩ := signV2_enc hw hd e
      have hso : (m wallet.key).owner = systemId := by
        obtain ⟨c, cs, rfl, _, h3, h5⟩ := classifyAll_rest hcls
        cases cs with
        | nil => simp at h3
        | cons c1 cs =>
          simp at h4
          subst h4
          have h5 := (h5 (wallet, .wallet) (by simp)).1
          cases h5; assumption
      by_cases hres : Restricted r
      · have hr : w.role? (rd ix 4 4) = some r := by
          have := h5.1
          rwa [(parseSign_ok h1).1] at this
        obtain ⟨ixs', m1, g1, g2⟩ := RestrictedSign.out ⟨hw, hd, hix, hr, hres, hrt, he⟩
        rcases g2 with g2 | ⟨x, cls', hs, total, acc, as', g2⟩
        · exact (hf.noCollision _ _ _ _ _ _ rfl hix ⟨ho, hw, hd⟩ g1 g2).elim
        · have hown := Keep.execAll hc hna (hu _) (by simpa using hso) g1.2
          have hu' := Wallet.used_wf hw (rd ix 4 4)
          refine solid_same (m := m1) g2.config hown.2.2 g2.stored.1 g2.stored.2.1 (by rw [g2.own]; exact hown.1) ?_ (by rw [g2.lam]; exact Nat.le_refl _)
          refine len_setActions hu' g2.stored.1 (role?_used hr) ?_
          exact g2.charged.size (hw.roles r (role?_mem hr).1).acts
            (g2.stored.1.roles _ (role?_mem g2.stored.2.2).1).acts
      · rcases signWith_ok h7 (by simp) h8 with ⟨_, g⟩ | ⟨g, _⟩
        · exact Keep.execAll hc hna (hu _) (by simpa using hso) g
        · exact (hres g).elim
    | [_], _, _, _, _, e => cases e
    | [], _, _, _, _, e => cases e
  · match rest0, hrt, hf, e with
    | auth :: payer :: wallet :: sys :: rest, hrt, hf, e =>
      obtain ⟨a, r, hp, _, _, _, h1, h3⟩ := migrateV1_enc hw hd e
      have hu' := Wallet.used_wf hw a.role
      refine solid_same hd hx (Wallet.migrated_wf hu' _) h1 (by rw [(h3 _).1]; exact ho) ?_ ?_
      · rw [← Wallet.used_encode_length hw a.role]
        exact len_of_size hu' (Wallet.migrated_wf hu' _) rfl rfl
      · simp only [migrateV1] at e
        obtain ⟨_, _, e⟩ := bind_ok_iff.mp e
        obtain ⟨_, _, e⟩ := bind_ok_iff.mp e
        obtain ⟨_, _, e⟩ := bind_ok_iff.mp e
        obtain ⟨_, _, e⟩ := bind_ok_iff.mp e
        obtain ⟨_, _, e⟩ := bind_ok_iff.mp e
        obtain ⟨⟨_, _⟩, _, e⟩ := bind_ok_iff.mp e
        obtain ⟨_, _, e⟩ := bind_ok_iff.mp e
        obtain ⟨_, _, e⟩ := bind_ok_iff.mp e
        obtain ⟨_, _, e⟩ := bind_ok_iff.mp e
        obtain ⟨_, _, e⟩ := bind_ok_iff.mp e
        obtain ⟨_, _, e⟩ := bind_ok_iff.mp e
        obtain ⟨_, _, e⟩ := bind_ok_iff.mp e
        have := (Keep.fundWallet (v := swig.key) (Q := .atLeast (m swig.key).lamports) ⟨by simpa using ho, by simp [Upward.atLeast]⟩ e).2
        simpa [Upward.atLeast] using this
    | [_, _, _], _, _, e => cases e
    | [_, _], _, _, e => cases e
    | [_], _, _, e => cases e
    | [], _, _, e => cases e
  · match rest0, hrt, hf, e with
    | wallet :: payer :: sys :: rest, hrt, hf, e =>
      obtain ⟨a, r, hp, _, _, _, _, _, h1⟩ := transferAssetsV1_enc hw hd e
      refine Keep.transferTokensGo hc _ (Nat.le_refl _) ?_ h1
      have hg := hu a.role
      unfold transferSol
      dsimp only
      split
      · rename_i hgt
        refine ⟨by simpa using ho, ?_⟩
        simp only [Mem.setLamports_data]
        refine ⟨hg.2.1, ?_⟩
        by_cases hww : wallet.key = swig.key
        · rw [hww, Mem.setLamports_same, Mem.setLamports_same]
          simp only [Mem.setData_lamports, Mem.setData_data] at hgt ⊢
          unfold add64
          rw [Nat.mod_eq_of_lt (by omega)]
          omega
        · rw [Mem.setLamports_other _ _ (Ne.symm hww), Mem.setLamports_same]
          exact Nat.le_refl _
      · exact hg
    | [_, _], _, _, e => cases e
    | [_], _, _, e => cases e
    | [], _, _, e => cases e
  · match rest0, hrt, hf, e with
    | wallet :: dst :: prog :: rest, hrt, hf, e =>
      obtain ⟨a, r, b, hp, _, _, _, _, _, h1⟩ := closeTokenV1_enc hw hd e
      exact Keep.closeTokensGo hc (hu _) h1
    | [_, _], _, _, e => cases e
    | [_], _, _, e => cases e
    | [], _, _, e => cases e
  · match rest0, hrt, hf, e with
    | wallet :: dst :: sys :: rest, hrt, hf, e =>
      obtain ⟨a, r, m1, b, hp, _, _, _, _, _, hheld, _, h1, h2⟩ := closeSwigV1_enc hw hd e
      have hown := hu a.role
      have h : Keep swig.key (.solid env.rent) m1 := by
        unfold drainWallet at h1
        split at h1
        · exact hown.signedTransfer h1
        · cases h1; exact hown
      refine ⟨?_, .inr (by rw [h2]; simp), ?_⟩
      · rw [h2, Mem.setData_owner]
        unfold closeLamports
        simpa using h.1
      · have hmin := hr 1 (m swig.key).data.length (by rw [hd]; have := Wallet.encode_length hw; omega)
        rw [h2]
        simp only [Mem.setData_data, Mem.setData_lamports, List.length_cons, List.length_nil, Nat.zero_add]
        unfold closeLamports
        by_cases hdd : dst.key = swig.key
        · rw [hdd, Mem.setLamports_same, Mem.setLamports_same]
          unfold add64
          rw [Nat.mod_eq_of_lt (by omega)]
          omega
        · rw [Mem.setLamports_other _ _ (Ne.symm hdd), Mem.setLamports_same]
          exact Nat.le_refl _
    | [_, _], _, _, e => cases e
    | [_], _, _, e => cases e
    | [], _, _, e => cases e
  · obtain ⟨a, r, t, auth, key, hp, _, _, g1, g2, g3, g4, _, g6, _, h1, h2, h3⟩ := replaceAuthorityV1_enc hw hd e
    refine solid_same hd hx h2 h1 (by rw [h3]; simpa using ho) ?_ (by rw [h3]; simp)
    rw [len_setAuth (Wallet.used_wf hw _) h2, Wallet.used_encode_length hw]
  · match rest0, hrt, hf, e with
    | payer :: sys :: rest, hrt, hf, e =>
      obtain ⟨a, r, _, hp, _, _, _, _, _, _, hn, h1, h2, h3⟩ := setRentClaimerV1_enc hw hd e
      obtain ⟨_, m1, m2, g1, htop, hl⟩ := claimer_topUp hw hd e
      refine solid_of h2 h1 (by rw [(h3 _).1]; exact ho) ?_
      rw [hl]
      exact topUp_min htop (by rw [(g1 _).2]; exact ho)
    | [_], _, _, e => cases e
    | [], _, _, e => cases e
  · match rest0, hrt, hf, e with
    | payer :: state :: sub :: sys :: rest, hrt, hf, e =>
      obtain ⟨r, hr', _, _, hctr2, hne, hso, hsub, _, _, h1, h2, h3, _⟩ := createSubV2_enc hw hd e
      have hw1 := Wallet.drawn_wf (Wallet.used_wf hw (rd ix 4 4)) hctr2
      simp only [createSubV2] at e
      obtain ⟨_, _, e⟩ := bind_ok_iff.mp e
      obtain ⟨_, _, e⟩ := bind_ok_iff.mp e
      obtain ⟨_, _, e⟩ := bind_ok_iff.mp e
      obtain ⟨_, _, e⟩ := bind_ok_iff.mp e
      obtain ⟨_, _, e⟩ := bind_ok_iff.mp e
      obtain ⟨_, _, e⟩ := bind_ok_iff.mp e
      obtain ⟨⟨p, id, granted⟩, hdr, e⟩ := bind_ok_iff.mp e
      obtain ⟨_, _, _, _, _, rfl, _, rfl⟩ := drawSubId_enc hw hd hdr
      simp only [Wallet.parts_bytes] at e
      obtain ⟨_, _, e⟩ := bind_ok_iff.mp e
      obtain ⟨_, _, e⟩ := bind_ok_iff.mp e
      obtain ⟨m1, f1, e⟩ := bind_ok_iff.mp e
      obtain ⟨m2, f2, e⟩ := bind_ok_iff.mp e
      obtain ⟨m3, f3, e⟩ := bind_ok_iff.mp e
      have d1 := fundState_data f1
      have d3 := fundWallet_data (show fundWallet env _ payer sub = .ok m3 from f3)
      have e2 := sysAllocAssign_ok f2
      have q0 : Keep swig.key (.solid env.rent) (m.setData swig.key (w.used (rd ix 4 4)).drawn.encode) :=
        solid_same (m := m) hd hx hw1 (by simp) (by simpa using ho)
          (by rw [← Wallet.used_encode_length hw (rd ix 4 4)]; exact len_of_size (Wallet.used_wf hw _) hw1 rfl rfl) (by simp)
      have q1 := q0.fundState f1
      have q2 : Keep swig.key (.solid env.rent) m2 := by
        unfold Keep; rw [e2, Mem.set_other _ _ hne.symm]; exact q1
      have q3 := (q2.setData hne.symm _).fundEmpty f3
      have g3 : (m3 swig.key).data = (w.used (rd ix 4 4)).drawn.encode := by
        rw [(d3 swig.key).1, Mem.setData_other _ _ hne.symm, e2, Mem.set_other _ _ hne.symm, (d1 swig.key).1]
        simp
      unfold grantAll at e
      split at e
      · cases e; exact q3
      · exact solid_of h2 h1 h3 (append_min hw1 g3 (by simp [allActionBytes]) q3.1 e)
    | [_, _, _], _, _, e => cases e
    | [_, _], _, _, e => cases e
    | [_], _, _, e => cases e
    | [], _, _, e => cases e
  · match rest0, hrt, hf, e with
    | auth :: state :: rest, hrt, hf, e =>
      obtain ⟨r, _, _, hne, _, _, _, _, _, _, _, _, h1⟩ := toggleSubV2_enc hw hd e
      rw [h1]
      exact (hu _).setData (Ne.symm hne) _
    | [_], _, _, e => cases e
    | [], _, _, e => cases e
  · match rest0, hrt, hf, e with
    | state :: sub :: sys :: rest, hrt, hf, e =>
      obtain ⟨a, r, ixs, m1, hp, _, hso, _, _, _, _, _, _, _, h1, h2⟩ := subSignV2_enc hw hd e
      exact Keep.checkRent (Keep.execAll hc hna (hu _) (by simpa using hso) h1) h2
    | [_, _], _, _, e => cases e
    | [_], _, _, e => cases e
    | [], _, _, e => cases e
  · match rest0, hrt, hf, e with
    | auth :: state :: sub :: wallet :: x6 :: x7 :: rest, hrt, hf, e =>
      obtain ⟨r, _, _, _, _, _, _, _, _, _, h1⟩ := withdrawSubV2_enc hw hd e
      unfold withdrawV2 at h1
      split at h1
      · obtain ⟨_, _, h1⟩ := bind_ok_iff.mp h1
        obtain ⟨_, _, h1⟩ := bind_ok_iff.mp h1
        obtain ⟨_, _, h1⟩ := bind_ok_iff.mp h1
        obtain ⟨_, _, h1⟩ := bind_ok_iff.mp h1
        exact Keep.invokeSigned hc (hu _) h1
      · split at h1
        · exact (hu _).withdrawSol h1
        · cases h1
    | [_, _, _, _, _], _, _, e => cases e
    | [_, _, _, _], _, _, e => cases e
    | [_, _, _], _, _, e => cases e
    | [_, _], _, _, e => cases e
    | [_], _, _, e => cases e
    | [], _, _, e => cases e
  · match rest0, hrt, hf, e with
    | payer :: wallet :: sys :: rest, hrt, hf, e =>
      obtain ⟨_, h0, _⟩ := bind_ok_iff.mp e
      unfold createChecks at h0
      obtain ⟨_, h0, _⟩ := bind_ok_iff.mp h0
      have := require_ok_iff.mp h0
      rw [ho] at this
      exact absurd this (by decide)
    | [_, _], _, _, e => cases e
    | [_], _, _, e => cases e
    | [], _, _, e => cases e

/-! ## Together with the state machine -/

/-- Data of an account that was once the wallet `w0`, and its rent minimum. -/
def Upward.hist (mig : Kind → Prop) (w0 : Wallet) (rent : Nat → Nat) : Upward where
  holds d l := Hist mig w0 d ∧ rent d.length ≤ l
  up _ _ _ h h' := ⟨h'.1, Nat.le_trans h'.2 h⟩
  state d _ _ h h' := absurd h (Hist.notState d h'.1)

/-- The numbers of the instructions that call other programs. -/
def CallsOut (n : Nat) : Prop := n = 7 ∨ n = 9 ∨ n = 11 ∨ n = 13 ∨ n = 14 ∨ n = 20 ∨ n = 21

theorem process_noCalls {metas : List Meta} {ix : Bytes} (h : ¬ CallsOut (rd ix 0 2)) (cpi' : Cpi) :
    process env cpi m metas ix = process env cpi' m metas ix := by
  have key : ∀ cls, dispatch env cpi m metas cls ix = dispatch env cpi' m metas cls ix := by
    intro cls
    unfold dispatch
    split
    · rfl
    · unfold CallsOut at h
      generalize rd ix 0 2 = n at h
      split
      all_goals first
        | (exfalso; exact h (by decide))
        | with_reducible rfl
  unfold process
  simp only [key]

/-- No program answers. -/
def noCpi : Cpi := fun _ _ => .error .runtime

theorem Fine.noCallsOut {metas : List Meta} {ix : Bytes} (h : ¬ CallsOut (rd ix 0 2)) (hf : Fine env cpi m metas ix) : Fine env noCpi m metas ix where
  runtime swig rest hm := by
    have := hf.runtime swig rest hm
    exact ⟨this.mem, (by intro _ _ _ h; cases h), this.keys, this.slot, fun _ => by intro _ _ _ h; cases h⟩
  room := hf.room
  noCollision _ _ _ _ _ _ _ h11 := (h (by rw [h11]; unfold CallsOut; omega)).elim

theorem hist_used {mig : Kind → Prop} {w0 w : Wallet} (hw : w.WF) (hd : (m k).data = w.encode) (ho : (m k).owner = swigId)
    (hx : env.rent (m k).data.length ≤ (m k).lamports) {id : Nat} (h : Changes mig w0 (w.used id)) :
    Keep k (.hist mig w0 env.rent) (m.setData k (w.used id).encode) :=
  ⟨by simpa using ho, (own_used hw h ho).2, (solid_used hw hd ho hx id).2.2⟩

theorem process_whole {mig : Kind → Prop} {w0 w : Wallet} {swig : Meta} {rest0 : List Meta} {ix : Bytes} (ho : (m swig.key).owner = swigId) (hw : w.WF)
    (hd : (m swig.key).data = w.encode) (hl : Changes mig w0 w) (hm : ∀ kd, Does ix kd → mig kd)
    (hx : env.rent (m swig.key).data.length ≤ (m swig.key).lamports)
    (hs : Supply m) (hr : ∀ a b, a ≤ b → env.rent a ≤ env.rent b) (hf : Fine env cpi m (swig :: rest0) ix)
    (hc : ∀ a ix b, Keep swig.key (.hist mig w0 env.rent) a → cpi a ix = .ok b → Keep swig.key (.hist mig w0 env.rent) b)
    (hna : ∀ a ix b k, (a k).owner = systemId → cpi a ix = .ok b → (b k).owner = systemId)
    (e : process env cpi m (swig :: rest0) ix = .ok m') : Keep swig.key (.hist mig w0 env.rent) m' := by
  by_cases hcalls : CallsOut (rd ix 0 2)
  · have he := e
    have hrt := hf.runtime _ _ rfl
    have hu : ∀ id, id = actingRole ix → Keep swig.key (.hist mig w0 env.rent) (m.setData swig.key (w.used id).encode) := by
      rintro id rfl
      refine hist_used hw hd ho hx (hl.tail (hm (.used _) ⟨?_, rfl⟩) (.used _))
      unfold CallsOut at hcalls; omega
    unfold process at e
    obtain ⟨_, _, e1⟩ := bind_ok_iff.mp e
    clear e
    obtain ⟨cls, hcls, e⟩ := bind_ok_iff.mp e1
    clear e1
    unfold dispatch at e
    split at e
    · cases e
    split at e
    all_goals rename_i hix
    all_goals try (exfalso; rw [hix] at hcalls; revert hcalls; unfold CallsOut; decide)
    all_goals try (exfalso; unfold CallsOut at hcalls; rcases hcalls with h | h | h | h | h | h | h <;> contradiction)
    · match rest0, hrt, hf, e with
      | auth :: sub :: x3 :: wallet :: x5 :: rest, hrt, hf, e =>
        obtain ⟨r, s, role, bump, b, _, _, _, _, _, _, _, h1⟩ := withdrawSubV1_enc hw hd (hrt.keys sub (by simp)) e
        have h := hu (rd ix 4 4) (by simp [actingRole, hix])
        split at h1
        · exact Keep.withdrawTokenV1 hc h h1
        · exact h.withdrawSol h1
      | [_, _, _, _], _, _, e => cases e
      | [_, _, _], _, _, e => cases e
      | [_, _], _, _, e => cases e
      | [_], _, _, e => cases e
      | [], _, _, e => cases e
    · match rest0, hrt, hf, e with
      | sub :: sys :: rest, hrt, hf, e =>
        obtain ⟨q, r, a, ixs, m1, hp, _, _, hso, _, _, _, _, _, h1, h2⟩ := subSignV1_enc hw hd (hrt.keys sub (by simp)) e
        exact Keep.checkRent (Keep.execAll hc hna (hu _ (by rw [parseSubSign_role hp]; simp [actingRole, hix])) (by simpa using hso) h1) h2
      | [_], _, _, e => cases e
      | [], _, _, e => cases e
    · match rest0, hrt, hf, he, hcls, e with
      | wallet :: x3 :: rest, hrt, hf, he, hcls, e =>
        obtain ⟨a, r, before, after, ixs, h1, h2, h3, h4, h5, h6, h7, h8⟩ := signV2_enc hw hd e
        have hso : (m wallet.key).owner = systemId := by
          obtain ⟨c, cs, rfl, _, h3, h5⟩ := classifyAll_rest hcls
          cases cs with
          | nil => simp at h3
          | cons c1 cs =>
            simp at h4
            subst h4
            have h5 := (h5 (wallet, .wallet) (by simp)).1
            cases h5; assumption
        have hac : rd ix 4 4 = actingRole ix := by simp [actingRole, hix]
        by_cases hres : Restricted r
        · have hr : w.role? (rd ix 4 4) = some r := by
            have := h5.1
            rwa [(parseSign_ok h1).1] at this
          obtain ⟨ixs', m1, g1, g2⟩ := RestrictedSign.out ⟨hw, hd, hix, hr, hres, hrt, he⟩
          rcases g2 with g2 | ⟨x, cls', hs, total, acc, as', g2⟩
          · exact (hf.noCollision _ _ _ _ _ _ rfl hix ⟨ho, hw, hd⟩ g1 g2).elim
          · have hown := Keep.execAll hc hna (hu _ hac) (by simpa using hso) g1.2
            have hu' := Wallet.used_wf hw (rd ix 4 4)
            have hown' : (m' swig.key).owner = swigId := by rw [g2.own]; exact hown.1
            refine ⟨hown', ?_, ?_⟩
            · have hu2 : Changes mig w0 (w.used (rd ix 4 4)) := hl.tail (hm (.used _) ⟨by omega, hac⟩) (.used _)
              exact (own_changed g2.stored.1 (hu2.tail (hm (.charged _) ⟨hix, hac⟩) (.charged _ _ _ (role?_used hr) g2.charged.map_ty))
                g2.stored.2.1 hown').2
            · refine (solid_same (m := m1) g2.config hown.2.2 g2.stored.1 g2.stored.2.1 hown' ?_ (by rw [g2.lam]; exact Nat.le_refl _)).2.2
              refine len_setActions hu' g2.stored.1 (role?_used hr) ?_
              exact g2.charged.size (hw.roles r (role?_mem hr).1).acts (g2.stored.1.roles _ (role?_mem g2.stored.2.2).1).acts
        · rcases signWith_ok h7 (by simp) h8 with ⟨_, g⟩ | ⟨g, _⟩
          · exact Keep.execAll hc hna (hu _ (by rw [(parseSign_ok h1).1]; exact hac)) (by simpa using hso) g
          · exact (hres g).elim
      | [_], _, _, _, _, e => cases e
      | [], _, _, _, _, e => cases e
    · match rest0, hrt, hf, e with
      | wallet :: payer :: sys :: rest, hrt, hf, e =>
        obtain ⟨a, r, hp, _, _, _, _, _, h1⟩ := transferAssetsV1_enc hw hd e
        refine Keep.transferTokensGo hc _ (Nat.le_refl _) ?_ h1
        have hg := hu a.role (by rw [parseRoleIx_role hp]; simp [actingRole, hix])
        have hs1 := hs swig.key
        unfold transferSol
        dsimp only
        split
        · rename_i hgt
          refine ⟨by simpa using ho, ?_⟩
          simp only [Mem.setLamports_data]
          refine ⟨hg.2.1, ?_⟩
          by_cases hww : wallet.key = swig.key
          · rw [hww, Mem.setLamports_same, Mem.setLamports_same]
            simp only [Mem.setData_lamports, Mem.setData_data] at hgt ⊢
            unfold add64
            rw [Nat.mod_eq_of_lt (by omega)]
            omega
          · rw [Mem.setLamports_other _ _ (Ne.symm hww), Mem.setLamports_same]
            exact Nat.le_refl _
        · exact hg
      | [_, _], _, _, e => cases e
      | [_], _, _, e => cases e
      | [], _, _, e => cases e
    · match rest0, hrt, hf, e with
      | wallet :: dst :: prog :: rest, hrt, hf, e =>
        obtain ⟨a, r, b, hp, _, _, _, _, _, h1⟩ := closeTokenV1_enc hw hd e
        exact Keep.closeTokensGo hc (hu _ (by rw [parseRoleIx_role hp]; simp [actingRole, hix])) h1
      | [_, _], _, _, e => cases e
      | [_], _, _, e => cases e
      | [], _, _, e => cases e
    · match rest0, hrt, hf, e with
      | state :: sub :: sys :: rest, hrt, hf, e =>
        obtain ⟨a, r, ixs, m1, hp, _, hso, _, _, _, _, _, _, _, h1, h2⟩ := subSignV2_enc hw hd e
        exact Keep.checkRent (Keep.execAll hc hna (hu _ (by rw [parseSubSignV2_role hp]; simp [actingRole, hix])) (by simpa using hso) h1) h2
      | [_, _], _, _, e => cases e
      | [_], _, _, e => cases e
      | [], _, _, e => cases e
    · match rest0, hrt, hf, e with
      | auth :: state :: sub :: wallet :: x6 :: x7 :: rest, hrt, hf, e =>
        obtain ⟨r, _, _, _, _, _, _, _, _, _, h1⟩ := withdrawSubV2_enc hw hd e
        have h := hu (rd ix 4 4) (by simp [actingRole, hix])
        unfold withdrawV2 at h1
        split at h1
        · obtain ⟨_, _, h1⟩ := bind_ok_iff.mp h1
          obtain ⟨_, _, h1⟩ := bind_ok_iff.mp h1
          obtain ⟨_, _, h1⟩ := bind_ok_iff.mp h1
          obtain ⟨_, _, h1⟩ := bind_ok_iff.mp h1
          exact Keep.invokeSigned hc h h1
        · split at h1
          · exact h.withdrawSol h1
          · cases h1
      | [_, _, _, _, _], _, _, e => cases e
      | [_, _, _, _], _, _, e => cases e
      | [_, _, _], _, _, e => cases e
      | [_, _], _, _, e => cases e
      | [_], _, _, e => cases e
      | [], _, _, e => cases e
  · rw [process_noCalls hcalls noCpi] at e
    have hf' := hf.noCallsOut hcalls
    have h1 := process_own ho hw hd (fun _ => hl) (fun h5 _ => hl.tail (hm (.used _) ⟨h5, rfl⟩) (.used _)) hm hf' (fun _ _ _ _ h => nomatch h) e
    have h2 := process_solid ho hw hd hx hs hr hf' (fun _ _ _ _ h => nomatch h) (fun _ _ _ _ _ h => nomatch h) e
    exact ⟨h1.1, h1.2, h2.2.2⟩

/-- Every history keeps the account on the state machine and at its rent minimum. -/
theorem lives_hist {rent : Nat → Nat} (hpos : ∀ n, 0 < rent n) {ok : Bytes → Prop} {mig : Kind → Prop} {w0 : Wallet}
    (hm : ∀ ix, ok ix → ∀ kd, Does ix kd → mig kd) (h : Lives rent ok k m m') :
    Keep k (.hist mig w0 rent) m → Keep k (.hist mig w0 rent) m' := by
  induction h with
  | refl m => exact id
  | trans _ _ i1 i2 => exact fun h => i2 (i1 h)
  | outside h1 h2 h3 =>
    intro h
    unfold Keep
    rw [h1, h2]
    exact ⟨h.1, (Upward.hist mig w0 rent).up _ _ _ h3 h.2⟩
  | purged m =>
    intro h
    have h1 := h.2.2
    have h2 := hpos (m k).data.length
    refine h.congr ?_
    unfold Mem.purge
    rw [if_neg (by omega)]
    exact ⟨rfl, rfl, rfl⟩
  | @request env cpi m m' metas ix _ hok hf hso e hc =>
    intro h
    have hrent := hso.rent
    subst hrent
    have hna : ∀ a ix b k, (a k).owner = systemId → cpi a ix = .ok b → (b k).owner = systemId := fun a ix b k h1 h2 => hso.noAssign a ix b k h2 h1
    by_cases hk : FirstIs metas k
    · obtain ⟨swig, rest, rfl, rfl⟩ := hk
      rcases h.2.1 with ⟨w, hw, hl, hd⟩ | hd
      · exact process_whole h.1 hw hd hl (hm _ hok) h.2.2 hso.supply hso.mono hf (fun a ix b ha hb => hc a ix b ha.1 hb ha) hna e
      · exact (process_closed ⟨swig, rest, rfl, rfl⟩ h.1 hd.2 e).elim
    · exact process_keep (fun a ix b ha hb => hc a ix b ha.1 hb ha) hna hk h hso.supply hso.mono (fun a rest h => hso.first a rest h) e

end
end Verif
