import Verif.Proofs.Handlers

/-! Refinement of the action updates. -/

namespace Verif

/-- Cancellation: what follows a complete submission is itself a submission. -/
theorem Submits.cancel {d e : Bytes} {as bs : List Act} (h : Submits d bs) : Submits (d ++ e) as →
    ∃ cs, as = bs ++ cs ∧ Submits e cs := by
  induction h generalizing as with
  | nil => intro h'; exact ⟨as, rfl, by simpa using h'⟩
  | cons a next d bs hn ht hl hs ih =>
    intro h'
    obtain ⟨h1, h2, h3, h4, h5⟩ := raw_head next (d ++ e) a hn ht hl
    rw [List.append_assoc] at h'
    cases as with
    | nil =>
      have := h'.length
      simp [h5] at this
    | cons x xs =>
      generalize hb : rawAct next a ++ (d ++ e) = b at *
      cases h' with
      | cons _ next' d' _ hn' ht' hl' hs' =>
        obtain ⟨k1, k2, k3, k4, k5⟩ := raw_head next' d' x hn' ht' hl'
        have hx : x = a := by rw [← k3, h3]
        subst hx
        have hd : d' = d ++ e := by rw [← k4, h4]
        subst hd
        obtain ⟨cs, rfl, hc⟩ := ih hs'
        exact ⟨cs, rfl, hc⟩

theorem keepActs_type (types : Bytes) : ∀ (as : List Act) (i : Nat),
    keepActs (keepType types) i as = as.filter fun a => UInt8.ofNat a.ty ∉ types := by
  intro as
  induction as with
  | nil => intro i; rfl
  | cons a as ih =>
    intro i
    simp only [keepActs, ih, keepType, List.filter_cons]
    by_cases h : UInt8.ofNat a.ty ∈ types <;> simp [h]

theorem keepActs_index (is : List Nat) : ∀ (as : List Act) (i : Nat),
    keepActs (keepIndex is) i as = ((as.zipIdx i).filter fun p => p.2 ∉ is).map Prod.fst := by
  intro as
  induction as with
  | nil => intro i; rfl
  | cons a as ih =>
    intro i
    simp only [keepActs, ih, keepIndex, List.zipIdx_cons, List.filter_cons]
    by_cases h : i ∈ is <;> simp [h]

theorem keepActs_size (keep : Nat → Nat → Bool) : ∀ (as : List Act) (i : Nat), actsSize (keepActs keep i as) ≤ actsSize as := by
  intro as
  induction as with
  | nil => intro i; simp [keepActs]
  | cons a as ih =>
    intro i
    have := ih (i + 1)
    simp only [keepActs, actsSize_append, actsSize_cons]
    split
    · simp; omega
    · simp; omega

/-- The stored actions of the target, read from the role buffer. -/
theorem slice_acts (before after : List Role) (t : Role) (junk : Bytes) :
    slice (encRoles 0 (before ++ t :: after) ++ junk) (rolesSize before + 16 + t.auth.length)
      (rolesSize before + 16 + t.auth.length + actsSize t.actions) = .ok (encActs 0 t.actions) := by
  have e : encRoles 0 (before ++ t :: after) ++ junk =
      (encRoles 0 before ++ encPos t.authType t.auth.length t.actions.length t.id (rolesSize before + t.size) ++ t.auth) ++
        (encActs 0 t.actions ++ (encRoles (rolesSize before + t.size) after ++ junk)) := by
    rw [encRoles_append]
    simp [encRoles, encRole]
  rw [e, slice_ok (by omega) (by simp [encPos]; omega)]
  congr 1
  exact sl_mid _ _ _ (by simp [encPos]; omega) (by simp [encPos]; omega)

theorem filtered_enc {chk : Bool} {keep : Nat → Nat → Bool} {before after : List Role} {t : Role} {junk out : Bytes}
    (ht : t.WF) (h : filteredActions (encRoles 0 (before ++ t :: after) ++ junk) (rolesSize before + 16 + t.auth.length)
      (actsSize t.actions) chk keep = .ok out) : Submits out (keepActs keep 0 t.actions) := by
  unfold filteredActions at h
  rw [slice_acts] at h
  simp only [ok_bind] at h
  have h255 := ht.atMost
  obtain ⟨o, h1, h2⟩ := filterActionsGo_submits chk keep t.actions (encActs 0 t.actions) (encActs 0 t.actions).length 0
    (Submits.encActs ht.acts 0) ht.acts (Nat.le_refl _) (by omega)
  rw [h1] at h
  simp only [ok_bind] at h
  split at h
  · cases h
  · cases h; exact h2

/-- Size of the new action bytes compared with the room reserved. -/
theorem newActions_fit {op : UpdateOp} {before after : List Role} {t : Role} {junk acts : Bytes} (ht : t.WF)
    (h : op.newActions (encRoles 0 (before ++ t :: after) ++ junk) (rolesSize before + 16 + t.auth.length) (actsSize t.actions) =
      .ok acts) : acts.length ≤ actsSize t.actions + op.growth (actsSize t.actions) ∧
      (op.growth (actsSize t.actions) > 0 → acts.length = actsSize t.actions + op.growth (actsSize t.actions)) := by
  cases op with
  | replaceAll a =>
    cases h
    simp only [UpdateOp.growth]
    omega
  | add a =>
    simp only [UpdateOp.newActions, addedActions, slice_acts, ok_bind] at h
    cases h
    simp [UpdateOp.growth]
  | removeTypes ts =>
    have := (filtered_enc ht h).length
    have h2 := keepActs_size (keepType ts) t.actions 0
    simp only [UpdateOp.growth]
    omega
  | removeIndices is =>
    have := (filtered_enc ht h).length
    have h2 := keepActs_size (keepIndex is) t.actions 0
    simp only [UpdateOp.growth]
    omega

theorem newActions_result {op : UpdateOp} {before after : List Role} {t : Role} {junk acts : Bytes} {as : List Act} (ht : t.WF)
    (h : op.newActions (encRoles 0 (before ++ t :: after) ++ junk) (rolesSize before + 16 + t.auth.length) (actsSize t.actions) =
      .ok acts) (hs : Submits acts as) : op.Result t.actions as := by
  cases op with
  | replaceAll a => cases h; exact hs
  | add a =>
    simp only [UpdateOp.newActions, addedActions, slice_acts, ok_bind] at h
    cases h
    obtain ⟨cs, rfl, hc⟩ := Submits.cancel (Submits.encActs ht.acts 0) hs
    exact ⟨cs, hc, rfl⟩
  | removeTypes ts =>
    have := Submits.inj hs (filtered_enc ht h)
    rw [keepActs_type] at this
    exact this
  | removeIndices is =>
    have := Submits.inj hs (filtered_enc ht h)
    rw [keepActs_index] at this
    exact this

theorem Wallet.setActions_wf {w : Wallet} (hw : w.WF) {id : Nat} {as : List Act} (hwf : ∀ x ∈ as, x.WF) (h1 : 1 ≤ as.length)
    (h255 : as.length ≤ 255) (hdup : NoV2Dup as) (hsz : 48 + rolesSize (w.setActions id as).roles + 40 < 2 ^ 31) :
    (w.setActions id as).WF := by
  refine Wallet.mapRole_wf hw id _ (fun _ => rfl) ?_ hsz
  intro r hr _
  exact ⟨(hw.roles r hr).auth, h1, h255, hwf, hdup⟩

theorem setActions_size {w : Wallet} (hw : w.WF) {id : Nat} {t : Role} {as : List Act} (ht : w.role? id = some t) :
    rolesSize (w.setActions id as).roles + actsSize t.actions = rolesSize w.roles + actsSize as := by
  obtain ⟨before, after, g1, g2, g3, g4⟩ := hw.split ht
  have e : (w.setActions id as).roles = before ++ { t with actions := as } :: after := mapRole_split id _ g1 g2 g3 g4
  rw [e, g1, rolesSize_append, rolesSize_append]
  simp only [rolesSize_cons, Role.size]
  omega

/-- The operation part of an update, on an account with `g` bytes of room. -/
theorem updateData_enc {w : Wallet} {target : Nat} {t : Role} {op : UpdateOp} {g n : Nat} {d : Bytes} {before after : List Role}
    (hw : w.WF) (g1 : w.roles = before ++ t :: after) (g2 : t.id = target)
    (hg : op.growth (actsSize t.actions) ≤ g) (hsz : 48 + rolesSize w.roles + 40 + g < 2 ^ 31)
    (h : updateData (w.encode ++ zeros g) (encTail w.claimer) (rolesSize w.roles) (actsSize t.actions) (rolesSize before)
      (rolesSize before + 16 + t.auth.length) target op = .ok (d, n)) :
    ∃ as junk, op.Result t.actions as ∧ (∀ x ∈ as, x.Fresh) ∧ 1 ≤ as.length ∧ as.length ≤ 255 ∧ NoV2Dup as ∧
      n = actsSize as ∧ n ≤ actsSize t.actions + op.growth (actsSize t.actions) ∧
      (op.growth (actsSize t.actions) > 0 → n = actsSize t.actions + op.growth (actsSize t.actions)) ∧
      d = (w.setActions target as).header.encode ++ (encRoles 0 (w.setActions target as).roles ++ (junk ++ encTail w.claimer)) ∧
      junk.length + n = g + actsSize t.actions ∧ (w.setActions target as).WF := by
  have htw : t.WF := hw.roles t (by simp [g1])
  obtain ⟨hb, ha⟩ := hw.others g1
  have h48 := Header.encode_length hw.header
  have hlen := Wallet.encode_length hw
  unfold updateData at h
  -- the tail moved to the end
  have hrest : ∃ junk0 : Bytes, junk0.length = g ∧ restoreTail (encTail w.claimer) (w.encode ++ zeros g) =
      .ok (w.header.encode ++ (encRoles 0 w.roles ++ (junk0 ++ encTail w.claimer))) := by
    refine ⟨(encTail w.claimer ++ zeros g).take g, by simp, ?_⟩
    unfold restoreTail restoreAt
    rw [if_neg (by simp; omega)]
    by_cases hz : (encTail w.claimer).length = 0
    · rw [if_pos hz]
      have : encTail w.claimer = [] := List.length_eq_zero_iff.mp hz
      simp [Wallet.encode, this, zeros]
    · rw [if_neg hz, if_neg (by simp; omega)]
      have e1 : w.encode ++ zeros g = (w.header.encode ++ encRoles 0 w.roles ++ (encTail w.claimer ++ zeros g).take g) ++
          ((encTail w.claimer ++ zeros g).drop g ++ []) := by
        rw [List.append_nil, List.append_assoc _ _ (List.drop _ _), List.take_append_drop]
        simp [Wallet.encode]
      rw [e1, put_mid' _ _ _ _ _ (by simp)]
      · simp
      · simp [h48]; omega
  obtain ⟨junk0, hj0, hrest⟩ := hrest
  rw [hrest] at h
  simp only [ok_bind] at h
  have hdl : (w.header.encode ++ (encRoles 0 w.roles ++ (junk0 ++ encTail w.claimer))).length =
      48 + rolesSize w.roles + g + (encTail w.claimer).length := by
    simp [h48, hj0]; omega
  rw [if_neg (by rw [hdl]; omega), hdl] at h
  have ebuf : sl (w.header.encode ++ (encRoles 0 w.roles ++ (junk0 ++ encTail w.claimer))) 48
      (48 + rolesSize w.roles + g + (encTail w.claimer).length - (encTail w.claimer).length) = encRoles 0 w.roles ++ junk0 := by
    have := sl_mid w.header.encode (encRoles 0 w.roles ++ junk0) (encTail w.claimer) (i := 48)
      (j := 48 + rolesSize w.roles + g + (encTail w.claimer).length - (encTail w.claimer).length) h48.symm (by simp [h48, hj0]; omega)
    rw [← this]; simp
  have edrop : (w.header.encode ++ (encRoles 0 w.roles ++ (junk0 ++ encTail w.claimer))).drop
      (48 + rolesSize w.roles + g + (encTail w.claimer).length - (encTail w.claimer).length) = encTail w.claimer := by
    have e : w.header.encode ++ (encRoles 0 w.roles ++ (junk0 ++ encTail w.claimer)) =
        (w.header.encode ++ (encRoles 0 w.roles ++ junk0)) ++ encTail w.claimer := by simp
    rw [e]
    exact List.drop_left' (by simp [h48, hj0]; omega)
  have ehd : sl (w.header.encode ++ (encRoles 0 w.roles ++ (junk0 ++ encTail w.claimer))) 0 48 = w.header.encode := by
    rw [sl_left _ _ _ _ (by omega), ← h48, sl_full]
  rw [ebuf, edrop, ehd] at h
  obtain ⟨acts, hacts, h⟩ := bind_ok_iff.mp h
  rw [g1] at hacts
  obtain ⟨hfit1, hfit2⟩ := newActions_fit htw hacts
  obtain ⟨buf, hrep, h⟩ := bind_ok_iff.mp h
  have hrs := hw.rolesOk
  rw [g1] at hrs hrep
  have hts : actsSize t.actions ≤ rolesSize w.roles := by
    rw [g1, rolesSize_append]; simp [Role.size]; omega
  rw [← g2] at hrep
  have hsz2 : rolesSize (before ++ t :: after) + acts.length < 2 ^ 32 := by rw [← g1]; omega
  obtain ⟨as, k1, k2, k3, k4, k5⟩ := replaceAll_ok hrs hb (by omega) hsz2 hrep
  obtain ⟨junk, k6, k7⟩ := replaceAll_enc hrs hb ha k1 k2 k3 k4 k5 (junk := junk0) (by omega) hsz2
  rw [k7] at hrep
  cases hrep
  have hd := congrArg Prod.fst (Except.ok.inj h)
  have hn := congrArg Prod.snd (Except.ok.inj h)
  simp only at hd hn
  have hlen2 := k1.length
  have htgt : w.role? target = some t := role?_split g1 g2 (g2 ▸ hb)
  have hss := setActions_size hw htgt (as := as)
  have er : (w.setActions target as).roles = before ++ { t with actions := as } :: after :=
    mapRole_split target _ g1 g2 (g2 ▸ hb) (g2 ▸ ha)
  refine ⟨as, junk, newActions_result htw hacts k1, k2, k3, k4, k5, by omega, by omega, by omega, ?_, by omega, ?_⟩
  · rw [← hd, er]
    have : (w.setActions target as).header = w.header := by
      simp [Wallet.setActions, Wallet.mapRole, Wallet.header]
    rw [this]
    simp
  · exact Wallet.setActions_wf hw (fun x hx => (k2 x hx).1) k3 k4 k5 (by omega)

theorem growFor_ok {env : Env} {m m' : Mem} {payer swig : Meta} {n : Nat} (h : growFor env m payer swig n = .ok m') :
    OnlyData m m' swig.key ∧
    ((n = 0 ∧ m' = m) ∨ (0 < n ∧ align8 ((m swig.key).data.length + n) ≤ maxAccountLen ∧
      (m' swig.key).data = (m swig.key).data ++ zeros (align8 ((m swig.key).data.length + n) - (m swig.key).data.length))) := by
  unfold growFor at h
  split at h
  · obtain ⟨m1, h1, h2⟩ := bind_ok_iff.mp h
    obtain ⟨hmax, rfl⟩ := realloc_ok h1
    have ht := topUp_data h2
    refine ⟨?_, Or.inr ⟨by omega, hmax, ?_⟩⟩
    · intro x
      refine ⟨by rw [(ht x).2]; simp, fun hx => ?_⟩
      rw [(ht x).1, Mem.setData_other _ _ hx]
    · rw [(ht _).1, Mem.setData_data]
      unfold resize
      rw [List.take_of_length_le]
      unfold align8; omega
  · cases h
    exact ⟨fun x => ⟨rfl, fun _ => rfl⟩, Or.inl ⟨by omega, rfl⟩⟩

theorem shrinkBy_ok {env : Env} {m m' : Mem} {payer swig : Key} {n : Nat} (h : shrinkBy env m payer swig n = .ok m') :
    OnlyData m m' swig ∧
    (m' swig).data = if n = 0 then (m swig).data else resize (m swig).data (align8 ((m swig).data.length - n)) := by
  unfold shrinkBy at h
  split at h
  · rename_i hn
    obtain ⟨m1, h1, h2⟩ := bind_ok_iff.mp h
    obtain ⟨_, rfl⟩ := realloc_ok h1
    rw [if_neg (by omega)]
    simp only at h2
    split at h2
    · cases h2
      refine ⟨fun x => ⟨by simp, fun hx => ?_⟩, by simp⟩
      simp [Mem.setData_other _ _ hx]
    · cases h2
      refine ⟨fun x => ⟨by simp, fun hx => ?_⟩, by simp⟩
      simp [Mem.setData_other _ _ hx]
  · cases h
    refine ⟨fun x => ⟨rfl, fun _ => rfl⟩, ?_⟩
    rw [if_pos (by omega)]

theorem OnlyData.trans {m1 m2 m3 : Mem} {k : Key} (h1 : OnlyData m1 m2 k) (h2 : OnlyData m2 m3 k) : OnlyData m1 m3 k :=
  fun x => ⟨(h2 x).1.trans (h1 x).1, fun hx => ((h2 x).2 hx).trans ((h1 x).2 hx)⟩

theorem OnlyData.setData (m : Mem) (k : Key) (d : Bytes) : OnlyData m (m.setData k d) k :=
  fun x => ⟨by simp, fun hx => by rw [Mem.setData_other _ _ hx]⟩

theorem align8_sub {n l k : Nat} (h : n = align8 (l + k)) (hl : l % 8 = 0) (hk : k % 8 = 0) : n - l = k := by
  unfold align8 at h; omega

/-- The account after the operation, cut to its new length and with the tail settled. -/
theorem settle_shrunk {w : Wallet} (hw : w.WF) (junk : Bytes) :
    settleTail (if junk.length = 0 then w.header.encode ++ (encRoles 0 w.roles ++ (junk ++ encTail w.claimer))
      else resize (w.header.encode ++ (encRoles 0 w.roles ++ (junk ++ encTail w.claimer)))
        (w.encode.length)) (encTail w.claimer) = .ok w.encode := by
  have h48 := Header.encode_length hw.header
  have hlen := Wallet.encode_length hw
  split
  · rename_i hj
    have : junk = [] := List.length_eq_zero_iff.mp hj
    subst this
    exact settleTail_enc hw _ (by simp)
  · unfold resize
    have e : w.header.encode ++ (encRoles 0 w.roles ++ (junk ++ encTail w.claimer)) =
        (w.header.encode ++ encRoles 0 w.roles) ++ (junk ++ encTail w.claimer) := by simp
    have hn : w.encode.length = (w.header.encode ++ encRoles 0 w.roles).length + (encTail w.claimer).length := by
      simp only [List.length_append, h48, encRoles_length]; omega
    have h0 : w.encode.length - ((w.header.encode ++ encRoles 0 w.roles) ++ (junk ++ encTail w.claimer)).length = 0 := by
      simp only [List.length_append, h48, encRoles_length]; omega
    rw [e, h0, hn, List.take_length_add_append]
    have := settleTail_enc hw ((junk ++ encTail w.claimer).take (encTail w.claimer).length) (by simp)
    simpa [zeros] using this

/-- Where lamports go when the configuration account is resized by an update. -/
structure Resized (env : Env) (m m' : Mem) (swig payer : Key) : Prop where
  grown : (m swig).data.length < (m' swig).data.length → payer ≠ swig →
    (m' swig).lamports = (m swig).lamports + (env.rent (m' swig).data.length - (m swig).lamports) ∧
    (m' payer).lamports + (env.rent (m' swig).data.length - (m swig).lamports) = (m payer).lamports ∧
    ∀ k, k ≠ swig → k ≠ payer → (m' k).lamports = (m k).lamports
  same : (m' swig).data.length = (m swig).data.length → ∀ k, (m' k).lamports = (m k).lamports
  shrunk : (m' swig).data.length < (m swig).data.length → payer ≠ swig → (m payer).lamports + (m swig).lamports < 2 ^ 64 →
    (m' swig).lamports + ((m swig).lamports - env.rent (m' swig).data.length) = (m swig).lamports ∧
    (m' payer).lamports = (m payer).lamports + ((m swig).lamports - env.rent (m' swig).data.length) ∧
    ∀ k, k ≠ swig → k ≠ payer → (m' k).lamports = (m k).lamports
  grownMin : (m swig).data.length < (m' swig).data.length → (m swig).owner = swigId → env.rent (m' swig).data.length ≤ (m' swig).lamports
  shrunkSelf : (m' swig).data.length < (m swig).data.length → payer = swig → (m swig).lamports < 2 ^ 64 →
    (m' swig).lamports = (m swig).lamports

/-- A top-up leaves the account with the rent minimum, whoever pays: an account of the wallet program cannot pay itself. -/
theorem topUp_min {env : Env} {m m' : Mem} {payer swig : Meta} {n : Nat} (h : topUp env m payer swig n = .ok m')
    (ho : (m swig.key).owner = swigId) : env.rent n ≤ (m' swig.key).lamports := by
  unfold topUp at h
  simp only at h
  split at h
  · obtain ⟨_, hp, _, _, e⟩ := sysTransfer_ok h
    have hne : swig.key ≠ payer.key := by
      intro e; rw [← e, ho] at hp; exact absurd hp (by decide)
    subst e
    rw [Mem.setLamports_same, Mem.setLamports_other _ _ hne]; omega
  · cases h; omega

theorem growFor_min {env : Env} {m m' : Mem} {payer swig : Meta} {n : Nat} (h : growFor env m payer swig n = .ok m') (hn : 0 < n)
    (ho : (m swig.key).owner = swigId) : env.rent (align8 ((m swig.key).data.length + n)) ≤ (m' swig.key).lamports := by
  unfold growFor at h
  rw [if_pos hn] at h
  obtain ⟨m1, h1, h2⟩ := bind_ok_iff.mp h
  obtain ⟨_, rfl⟩ := realloc_ok h1
  exact topUp_min h2 (by simpa using ho)

theorem growFor_lamports {env : Env} {m m' : Mem} {payer swig : Meta} {n : Nat} (h : growFor env m payer swig n = .ok m') (hn : 0 < n)
    (hne : payer.key ≠ swig.key) :
    (m' swig.key).lamports = (m swig.key).lamports + (env.rent (align8 ((m swig.key).data.length + n)) - (m swig.key).lamports) ∧
    (m' payer.key).lamports + (env.rent (align8 ((m swig.key).data.length + n)) - (m swig.key).lamports) = (m payer.key).lamports ∧
    ∀ k, k ≠ swig.key → k ≠ payer.key → (m' k).lamports = (m k).lamports := by
  unfold growFor at h
  rw [if_pos hn] at h
  obtain ⟨m1, h1, h2⟩ := bind_ok_iff.mp h
  obtain ⟨_, rfl⟩ := realloc_ok h1
  unfold topUp at h2
  simp only [Mem.setData_lamports] at h2
  split at h2
  · obtain ⟨_, _, _, hle, e⟩ := sysTransfer_ok h2
    simp only [Mem.setData_lamports] at hle e
    subst e
    refine ⟨?_, ?_, ?_⟩
    · rw [Mem.setLamports_same, Mem.setLamports_other _ _ (Ne.symm hne)]; simp
    · rw [Mem.setLamports_other _ _ hne, Mem.setLamports_same]; omega
    · intro k h1 h2
      rw [Mem.setLamports_other _ _ h1, Mem.setLamports_other _ _ h2]; simp
  · cases h2
    simp only [Mem.setData_lamports]
    refine ⟨by omega, by omega, fun _ _ _ => trivial⟩

theorem shrinkBy_lamports {env : Env} {m m' : Mem} {payer swig : Key} {n : Nat} (h : shrinkBy env m payer swig n = .ok m') (hn : 0 < n)
    (hne : payer ≠ swig) (hp : (m payer).lamports + (m swig).lamports < 2 ^ 64) :
    (m' swig).lamports + ((m swig).lamports - env.rent (align8 ((m swig).data.length - n))) = (m swig).lamports ∧
    (m' payer).lamports = (m payer).lamports + ((m swig).lamports - env.rent (align8 ((m swig).data.length - n))) ∧
    ∀ k, k ≠ swig → k ≠ payer → (m' k).lamports = (m k).lamports := by
  unfold shrinkBy at h
  rw [if_pos hn] at h
  obtain ⟨m1, h1, h2⟩ := bind_ok_iff.mp h
  obtain ⟨_, rfl⟩ := realloc_ok h1
  simp only [Mem.setData_lamports] at h2
  split at h2
  · cases h2
    refine ⟨?_, ?_, ?_⟩
    · rw [Mem.setLamports_other _ _ (Ne.symm hne), Mem.setLamports_same]; omega
    · rw [Mem.setLamports_same, Mem.setLamports_other _ _ hne]
      unfold add64
      simp only [Mem.setData_lamports]
      exact Nat.mod_eq_of_lt (by omega)
    · intro k h1 h2
      rw [Mem.setLamports_other _ _ h2, Mem.setLamports_other _ _ h1]; simp
  · cases h2
    have e : (m swig).lamports - env.rent (align8 ((m swig).data.length - n)) = 0 := by omega
    rw [e]
    simp only [Mem.setData_lamports]
    exact ⟨by omega, by omega, fun _ _ _ => trivial⟩

theorem shrinkBy_self {env : Env} {m m' : Mem} {swig : Key} {n : Nat} (h : shrinkBy env m swig swig n = .ok m')
    (hp : (m swig).lamports < 2 ^ 64) : (m' swig).lamports = (m swig).lamports := by
  unfold shrinkBy at h
  split at h
  · obtain ⟨m1, h1, h2⟩ := bind_ok_iff.mp h
    obtain ⟨_, rfl⟩ := realloc_ok h1
    simp only [Mem.setData_lamports] at h2
    split at h2
    · cases h2
      rw [Mem.setLamports_same, Mem.setLamports_same]
      unfold add64
      rw [Nat.mod_eq_of_lt (by omega)]
      omega
    · cases h2; simp
  · cases h; rfl

theorem updateAuthorityV1_full {env : Env} {m m' : Mem} {swig payer sys : Meta} {rest : List Meta} {ix : Bytes} {w : Wallet}
    (hw : w.WF) (hd : (m swig.key).data = w.encode)
    (h : updateAuthorityV1 env m (swig :: payer :: sys :: rest) ix = .ok m') :
    ∃ a r t as, parseUpdate ix = .ok a ∧
      ActsAs env m (swig :: payer :: sys :: rest) w a.acting a.authPayload a.dataPayload r ∧
      (r.holds P.all ∨ r.holds P.manageAuthority) ∧ w.role? a.target = some t ∧
      a.op.Result t.actions as ∧ (∀ x ∈ as, x.Fresh) ∧ 1 ≤ as.length ∧ as.length ≤ 255 ∧ NoV2Dup as ∧
      (m' swig.key).data = ((w.used a.acting).setActions a.target as).encode ∧
      ((w.used a.acting).setActions a.target as).WF ∧ OnlyData m m' swig.key ∧ Resized env m m' swig.key payer.key := by
  simp only [updateAuthorityV1] at h
  obtain ⟨_, _, h⟩ := bind_ok_iff.mp h
  obtain ⟨_, _, h⟩ := bind_ok_iff.mp h
  obtain ⟨a, ha, h⟩ := bind_ok_iff.mp h
  rw [hd, openSwig_enc hw] at h
  simp only [ok_bind] at h
  obtain ⟨tail, ht, h⟩ := bind_ok_iff.mp h
  have htail : tail = encTail w.claimer := by
    have := savedTailTake_enc hw
    rw [show w.parts.tail = encTail w.claimer from rfl, this] at ht
    exact (Except.ok.inj ht).symm
  subst htail
  obtain ⟨⟨p, v⟩, hact, h⟩ := bind_ok_iff.mp h
  obtain ⟨r, hr1, hr2, rfl, hr4, hr5⟩ := actAs_enc hw hact
  simp only at h
  rw [hr4, hasManage_enc hw (role?_mem hr1).1] at h
  simp only [ok_bind] at h
  obtain ⟨_, hperm, h⟩ := bind_ok_iff.mp h
  have hperm := decide_eq_true_iff.mp (require_ok_iff.mp hperm)
  obtain ⟨⟨cur, authOff, actsOff⟩, hoff, h⟩ := bind_ok_iff.mp h
  have hw1 := Wallet.used_wf hw a.acting
  have hcl : (w.used a.acting).claimer = w.claimer := rfl
  generalize hw1e : w.used a.acting = w1 at *
  have eh : w1.parts.header.roles = w1.roles.length := rfl
  have er : w1.parts.roles = encRoles 0 w1.roles := rfl
  rw [eh, er] at hoff
  -- the target
  rcases getMutRole_enc a.target w1.roles hw1.rolesOk with ⟨t, before, after, g1, g2, g3, _⟩ | ⟨g1, _⟩
  · have hok := hw1.rolesOk
    have hfo := findOffsetsGo_enc a.target t after g2 before [] (by rw [← g1]; exact hok) g3
    simp only [List.nil_append, List.length_nil, Nat.zero_add, ← g1] at hfo
    rw [hfo] at hoff
    have hoff := Except.ok.inj hoff
    simp only [Prod.mk.injEq] at hoff
    obtain ⟨rfl, rfl, rfl⟩ := hoff
    obtain ⟨m1', hgrow, h⟩ := bind_ok_iff.mp h
    dsimp only at hgrow h
    obtain ⟨hod1, hgr⟩ := growFor_ok hgrow
    obtain ⟨⟨d, n⟩, hupd, h⟩ := bind_ok_iff.mp h
    obtain ⟨m2', hshr, h⟩ := bind_ok_iff.mp h
    obtain ⟨hod2, hshd⟩ := shrinkBy_ok hshr
    obtain ⟨d', hset, h⟩ := bind_ok_iff.mp h
    cases h
    have ht1 : w1.role? a.target = some t := role?_split g1 g2 g3
    have htw : t.WF := hw1.roles t (by simp [g1])
    have hmod1 := Wallet.encode_mod hw1
    have hlen1 := Wallet.encode_length hw1
    have hsz1 := hw1.size
    -- room
    have hroom : ∃ g, (m1' swig.key).data = w1.encode ++ zeros g ∧ a.op.growth (actsSize t.actions) ≤ g ∧
        48 + rolesSize w1.roles + 40 + g < 2 ^ 31 ∧
        (a.op.growth (actsSize t.actions) = 0 → g = 0) ∧
        (a.op.growth (actsSize t.actions) % 8 = 0 → g = a.op.growth (actsSize t.actions)) := by
      rcases hgr with ⟨h0, rfl⟩ | ⟨hpos, hmax, hdat⟩
      · refine ⟨0, by simp [zeros, Wallet.parts_bytes], by omega, by omega, by omega, by omega⟩
      · simp only [Mem.setData_data, Wallet.parts_bytes] at hdat hmax
        refine ⟨_, hdat, ?_, ?_, by omega, ?_⟩
        · unfold align8; omega
        · unfold maxAccountLen at hmax; omega
        · intro hm; exact align8_sub rfl hmod1 hm
    obtain ⟨g, hdat, hg1, hg2, hg3, hg4⟩ := hroom
    rw [hdat, show w1.parts.roles.length = rolesSize w1.roles by simp [Wallet.parts], ← hcl] at hupd
    obtain ⟨as, junk, k1, k2, k3, k4, k5, k6, k7, k8, k9, k10, k11⟩ := updateData_enc hw1 g1 g2 hg1 hg2 hupd
    simp only [Mem.setData_data] at hshd
    have hcl2 : (w1.setActions a.target as).claimer = w1.claimer := rfl
    have hss := setActions_size hw1 ht1 (as := as)
    have m1 := actsSize_mod htw.acts
    have m2 := actsSize_mod (fun x hx => (k2 x hx).1 : ∀ x ∈ as, x.WF)
    have h48 := Header.encode_length k11.header
    have hlenw2 := Wallet.encode_length k11
    have hmodw2 := Wallet.encode_mod k11
    have hjz : (actsSize t.actions - n = 0 ↔ junk.length = 0) := by
      by_cases hgz : a.op.growth (actsSize t.actions) = 0
      · have := hg3 hgz; omega
      · have e1 := k8 (by omega)
        have e2 := hg4 (by omega)
        omega
    have hlen2 : (if actsSize t.actions - n = 0 then d else resize d (align8 (d.length - (actsSize t.actions - n)))) =
        (if junk.length = 0 then (w1.setActions a.target as).header.encode ++ (encRoles 0 (w1.setActions a.target as).roles ++ (junk ++ encTail (w1.setActions a.target as).claimer))
      else resize ((w1.setActions a.target as).header.encode ++ (encRoles 0 (w1.setActions a.target as).roles ++ (junk ++ encTail (w1.setActions a.target as).claimer)))
        ((w1.setActions a.target as).encode.length)) := by
      rw [hcl2, ← k9]
      by_cases hz : actsSize t.actions - n = 0
      · rw [if_pos hz, if_pos (hjz.mp hz)]
      · rw [if_neg hz, if_neg (fun c => hz (hjz.mpr c))]
        congr 1
        have hg0 : g = 0 := by
          by_cases hgz : a.op.growth (actsSize t.actions) = 0
          · exact hg3 hgz
          · have := k8 (by omega); omega
        have hdl : d.length = 48 + rolesSize (w1.setActions a.target as).roles + junk.length + (encTail w1.claimer).length := by
          rw [k9]; simp only [List.length_append, h48, encRoles_length]; omega
        rw [hcl2] at hlenw2
        have : d.length - (actsSize t.actions - n) = (w1.setActions a.target as).encode.length := by omega
        rw [this, align8_of_mod hmodw2]
    rw [hshd, hlen2] at hset
    have hst := settle_shrunk k11 junk
    rw [hcl2, hcl] at hst
    rw [hcl2, hcl] at hset
    rw [hst] at hset
    cases hset
    have hw1e' := hw1e
    subst hw1e
    obtain ⟨t', ht', _, _, hta, _⟩ := Wallet.used_role_inv hw ht1
    refine ⟨a, r, t', as, ha, ⟨hr1, hr2⟩, hperm, ht', by rw [hta]; exact k1, k2, k3, k4, k5, by simp, k11, ?_, ?_⟩
    · exact (((OnlyData.setData m _ _).trans hod1).trans (OnlyData.setData _ _ _)).trans (hod2.trans (OnlyData.setData _ _ _))
    · have hL : (m swig.key).data.length = (w.used a.acting).encode.length := by rw [hd, Wallet.used_encode_length hw]
      have hl1 : ∀ k, ((m.setData swig.key (w.used a.acting).parts.bytes) k).lamports = (m k).lamports := by intro k; simp
      have hl3 : ∀ k, ((m2'.setData swig.key ((w.used a.acting).setActions a.target as).encode) k).lamports = (m2' k).lamports := by intro k; simp
      have hLs : ((m.setData swig.key (w.used a.acting).parts.bytes) swig.key).data.length = (w.used a.acting).encode.length := by
        rw [Mem.setData_data, Wallet.parts_bytes]
      have hL' : ((m2'.setData swig.key ((w.used a.acting).setActions a.target as).encode) swig.key).data.length =
          ((w.used a.acting).setActions a.target as).encode.length := by rw [Mem.setData_data]
      rw [hcl2] at hlenw2
      by_cases hgz : 0 < a.op.growth (actsSize t.actions)
      · have e1 := k8 hgz
        have e2 : actsSize t.actions - n = 0 := by omega
        have e3 : m2' = m1'.setData swig.key d := by
          unfold shrinkBy at hshr
          rw [if_neg (by omega)] at hshr
          exact (Except.ok.inj hshr).symm
        have hl2 : ∀ k, (m2' k).lamports = (m1' k).lamports := by intro k; rw [e3]; simp
        have e4 : align8 ((w.used a.acting).encode.length + a.op.growth (actsSize t.actions)) = ((w.used a.acting).setActions a.target as).encode.length := by
          rw [align8_of_mod (by omega)]; omega
        refine ⟨fun _ hne => ?_, fun h => ?_, fun h => ?_, fun _ hown => ?_, fun h => ?_⟩
        · have := growFor_lamports hgrow hgz hne
          rw [hLs, e4] at this
          rw [hL']
          simp only [hl3, hl2, hl1] at this ⊢
          exact this
        · omega
        · omega
        · have := growFor_min hgrow hgz (by simpa using hown)
          rw [hLs, e4] at this
          rw [hL']
          simp only [hl3, hl2] at this ⊢
          exact this
        · omega
      · have e1 : m1' = m.setData swig.key (w.used a.acting).parts.bytes := by
          unfold growFor at hgrow
          rw [if_neg hgz] at hgrow
          exact (Except.ok.inj hgrow).symm
        have hl2 : ∀ k, (m1' k).lamports = (m k).lamports := by intro k; rw [e1]; simp
        by_cases hz : actsSize t.actions - n = 0
        · have e3 : m2' = m1'.setData swig.key d := by
            unfold shrinkBy at hshr
            rw [if_neg (by omega)] at hshr
            exact (Except.ok.inj hshr).symm
          refine ⟨fun h => ?_, fun _ k => ?_, fun h => ?_, fun h => ?_, fun h => ?_⟩
          · omega
          · rw [hl3, e3]; simp [hl2]
          · omega
          · omega
          · omega
        · have hg0 : g = 0 := hg3 (by omega)
          have hdl : d.length = 48 + rolesSize ((w.used a.acting).setActions a.target as).roles + junk.length + (encTail (w.used a.acting).claimer).length := by
            rw [k9]; simp only [List.length_append, h48, encRoles_length]; omega
          have e4 : align8 (d.length - (actsSize t.actions - n)) = ((w.used a.acting).setActions a.target as).encode.length := by
            rw [← align8_of_mod hmodw2]; congr 1; omega
          refine ⟨fun h => ?_, fun h => ?_, fun _ hne hp => ?_, fun h => ?_, fun _ hpe hp => ?_⟩
          · omega
          · omega
          · have := shrinkBy_lamports hshr (by omega) hne (by simp [hl2]; exact hp)
            rw [Mem.setData_data, e4] at this
            rw [hL']
            simp only [hl3, hl2, Mem.setData_lamports] at this ⊢
            exact this
          · omega
          · rw [hpe] at hshr
            have := shrinkBy_self hshr (by simp [hl2]; exact hp)
            rw [hl3, this]; simp [hl2]
  · have := findOffsetsGo_absent a.target w1.roles [] hw1.rolesOk g1
    simp only [List.nil_append, List.length_nil] at this
    rw [this] at hoff
    cases hoff

theorem updateAuthorityV1_enc {env : Env} {m m' : Mem} {swig payer sys : Meta} {rest : List Meta} {ix : Bytes} {w : Wallet}
    (hw : w.WF) (hd : (m swig.key).data = w.encode)
    (h : updateAuthorityV1 env m (swig :: payer :: sys :: rest) ix = .ok m') :
    ∃ a r t as, parseUpdate ix = .ok a ∧
      ActsAs env m (swig :: payer :: sys :: rest) w a.acting a.authPayload a.dataPayload r ∧
      (r.holds P.all ∨ r.holds P.manageAuthority) ∧ w.role? a.target = some t ∧
      a.op.Result t.actions as ∧ (∀ x ∈ as, x.Fresh) ∧ 1 ≤ as.length ∧ as.length ≤ 255 ∧ NoV2Dup as ∧
      (m' swig.key).data = ((w.used a.acting).setActions a.target as).encode ∧
      ((w.used a.acting).setActions a.target as).WF ∧ OnlyData m m' swig.key := by
  obtain ⟨a, r, t, as, h1, h2, h3, h4, h5, h6, h7, h8, h9, h10, h11, h12, _⟩ := updateAuthorityV1_full hw hd h
  exact ⟨a, r, t, as, h1, h2, h3, h4, h5, h6, h7, h8, h9, h10, h11, h12⟩

end Verif
