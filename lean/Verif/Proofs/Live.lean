import Verif.Spec.Accept
import Verif.Spec.Client
import Verif.Proofs.UpdateHandler
import Verif.Proofs.CredHandlers
import Verif.Proofs.ReplaceHandler
import Verif.Proofs.ClientActions

/-! When the managing handlers succeed: every step of a well-formed, authorised and paid request is accepted. -/

namespace Verif

/-- The payer can bring the wallet account to the rent minimum of `n` bytes: an ordinary account that signed and holds what is
missing. -/
structure CanPay (env : Env) (m : Mem) (payer swig : Meta) (n : Nat) : Prop where
  other : payer.key ≠ swig.key
  signer : payer.signer = true
  writable : payer.writable = true
  target : swig.writable = true
  owner : (m payer.key).owner = systemId
  empty : (m payer.key).data = []
  funds : env.rent n ≤ (m swig.key).lamports + (m payer.key).lamports

theorem CanPay.setData {env : Env} {m : Mem} {payer swig : Meta} {n : Nat} (h : CanPay env m payer swig n) (d : Bytes) :
    CanPay env (m.setData swig.key d) payer swig n :=
  ⟨h.other, h.signer, h.writable, h.target, by simpa using h.owner, by rw [Mem.setData_other _ _ h.other]; exact h.empty,
    by simpa using h.funds⟩

theorem sysTransfer_of {m : Mem} {src dst : Meta} {n : Nat} (h1 : src.signer = true) (h2 : src.writable = true) (h3 : dst.writable = true)
    (h4 : (m src.key).owner = systemId) (h5 : (m src.key).data = []) (h6 : n ≤ (m src.key).lamports) :
    ∃ m', sysTransfer m src dst n = .ok m' := by
  unfold sysTransfer
  rw [if_neg (by simp [h1, h2, h3]), if_neg (by simp [h4, h5]), if_neg (by omega)]
  exact ⟨_, rfl⟩

theorem Topped.setData {env : Env} {m : Mem} {payer swig : Meta} {n : Nat} (h : Topped env m payer swig n)
    (ho : (m swig.key).owner = swigId) (d : Bytes) : Topped env (m.setData swig.key d) payer swig n := by
  rcases h with h | ⟨h1, h2, h3, h4, h5, h6⟩
  · exact .inl (by simpa using h)
  · have hne : payer.key ≠ swig.key := fun h => by rw [h, ho] at h4; revert h4; decide
    exact .inr ⟨h1, h2, h3, by simpa using h4, by rw [Mem.setData_other _ _ hne]; exact h5, by simpa using h6⟩

theorem CanPay.topped {env : Env} {m : Mem} {payer swig : Meta} {n : Nat} (h : CanPay env m payer swig n) : Topped env m payer swig n :=
  .inr ⟨h.signer, h.writable, h.target, h.owner, h.empty, h.funds⟩

theorem topUp_of {env : Env} {m : Mem} {payer swig : Meta} {n : Nat} (h : Topped env m payer swig n) :
    ∃ m', topUp env m payer swig n = .ok m' := by
  unfold topUp
  dsimp only
  split
  · rcases h with h | ⟨h1, h2, h3, h4, h5, h6⟩
    · omega
    · exact sysTransfer_of h1 h2 h3 h4 h5 (by omega)
  · exact ⟨_, rfl⟩

theorem realloc_of {m : Mem} {k : Key} {n : Nat} (h : n ≤ maxAccountLen) (hg : n ≤ (m k).data.length + maxGrowth) :
    realloc m k n = .ok (m.setData k (resize (m k).data n)) := by
  unfold realloc
  rw [if_neg (by omega)]

theorem actAs_of {env : Env} {m : Mem} {metas : List Meta} {w : Wallet} {id : Nat} {payload dp : Bytes} {r : Role} (hw : w.WF)
    (h : ActsAs env m metas w id payload dp r) :
    ∃ v, actAs env m metas w.parts id payload dp = .ok ((w.used id).parts, v) ∧ v.actions = encActs 0 r.actions ∧
      v.authType = r.authType := by
  obtain ⟨hr, ha⟩ := h
  have hs : ∃ x, actAs env m metas w.parts id payload dp = .ok x := by
    unfold actAs
    simp only [Wallet.parts]
    rcases getMutRole_enc id w.roles hw.rolesOk with ⟨r', before, after, g1, g2, g3, g4⟩ | ⟨g1, g2⟩
    · have : r' = r := by have := role?_split g1 g2 g3; rw [hr] at this; exact (Option.some.inj this).symm
      subst this
      rw [g4]
      simp only [ok_bind, viewOf]
      rw [ha]
      exact ⟨_, rfl⟩
    · exact absurd (role?_mem hr).2 (g1 r (role?_mem hr).1)
  obtain ⟨⟨p, v⟩, hx⟩ := hs
  obtain ⟨r', h1, h2, h3, h4, h5⟩ := actAs_enc hw hx
  rw [hr] at h1
  cases h1
  exact ⟨v, by rw [hx, h3], h4, h5⟩

theorem initialAuth_ty {ty : Nat} {c : Bytes} {a : Auth} (h : initialAuth ty c = some a) : authTypeOf ty = .ok ty := by
  unfold authTypeOf
  rw [if_pos]
  unfold initialAuth at h
  by_cases h1 : ty = 1; · omega
  by_cases h2 : ty = 2; · omega
  by_cases h3 : ty = 3; · omega
  by_cases h4 : ty = 4; · omega
  by_cases h5 : ty = 5; · omega
  by_cases h6 : ty = 6; · omega
  by_cases h7 : ty = 7; · omega
  by_cases h8 : ty = 8; · omega
  simp [h1, h2, h3, h4, h5, h6, h7, h8] at h

/-- The role-writing part of `add_authority_v1` succeeds. -/
theorem addData_of {w : Wallet} {ty al : Nat} {create acts : Bytes} {a : Auth} {as : List Act} (hw : w.WF) (hal : authLen ty = some al)
    (hcount : w.roles.length + 1 < 2 ^ 16) (hctr : w.roleCounter + 1 < 2 ^ 32)
    (hsize : align8 (w.encode.length + (16 + al + acts.length)) ≤ maxAccountLen)
    (ha : initialAuth ty create = some a) (hs : Submits acts as) (hfr : ∀ x ∈ as, x.Fresh) (h1 : 1 ≤ as.length) (h255 : as.length ≤ 255)
    (hdup : NoV2Dup as) :
    ∃ d, addData (resize w.encode (align8 (w.encode.length + (16 + al + acts.length)))) (encTail w.claimer) ty create acts = .ok d := by
  have h48 := Header.encode_length hw.header
  have hlen := Wallet.encode_length hw
  have hsize0 : w.encode.length + (16 + al + acts.length) ≤ align8 (w.encode.length + (16 + al + acts.length)) := by
    unfold align8; omega
  generalize hn : align8 (w.encode.length + (16 + al + acts.length)) = n at *
  have hmod := Wallet.encode_mod hw
  have halm := authLen_mod hal
  have hal' := authLen_lt hal
  generalize hk : n - w.encode.length = k at *
  have ed : resize w.encode n = w.header.encode ++ (encRoles 0 w.roles ++ (encTail w.claimer ++ zeros k)) := by
    unfold resize
    rw [List.take_of_length_le (by omega), hk]
    simp [Wallet.encode]
  have edl : (resize w.encode n).length = n := by rw [ed]; simp [h48]; omega
  have ejl : ((encTail w.claimer ++ zeros k).take k).length = k := by simp
  have ebuf : sl (resize w.encode n) 48 ((resize w.encode n).length - (encTail w.claimer).length) =
      encRoles 0 w.roles ++ (encTail w.claimer ++ zeros k).take k := by
    rw [edl, ed]
    have := sl_right w.header.encode (encRoles 0 w.roles ++ (encTail w.claimer ++ zeros k)) 48 (n - (encTail w.claimer).length)
      (by omega)
    rw [this, h48]
    unfold sl
    simp only [Nat.sub_self, List.drop_zero, Nat.sub_zero]
    have e : n - (encTail w.claimer).length - 48 = (encRoles 0 w.roles).length + k := by simp; omega
    rw [e, List.take_length_add_append]
  have edrop : (resize w.encode n).drop ((resize w.encode n).length - (encTail w.claimer).length) =
      (encTail w.claimer ++ zeros k).drop k := by
    rw [edl, ed]
    have e : n - (encTail w.claimer).length = (w.header.encode ++ encRoles 0 w.roles).length + k := by
      simp [h48]; omega
    rw [← List.append_assoc, e, List.drop_length_add_append]
  unfold addData
  rw [if_neg (by omega), ebuf, edrop]
  have ehd : Header.decode (resize w.encode n) = w.header := by rw [ed]; exact Header.decode_encode hw.header _
  rw [ehd]
  have hacts := hs.length
  have hamod := actsSize_mod (fun a ha => (hfr a ha).1 : ∀ a ∈ as, a.WF)
  have hnk : k = 16 + al + acts.length := by
    have : n = w.encode.length + (16 + al + acts.length) := by rw [← hn]; exact align8_of_mod (by omega)
    omega
  obtain ⟨z1, z2⟩ := tail_region hw.claimer k al (by omega) (by omega)
  have g7 := (setAuthority_initial hal (by rw [sl_length_of_le (by omega)]; omega) z2 a.encode).mpr ⟨a, ha, rfl⟩
  rw [addRole_enc hw.rolesOk rfl hal hs hfr h1 h255 hdup z1 (by omega) g7, ok_bind]
  have hsz : rolesSize (w.addRole ty a.encode as).roles = rolesSize w.roles + k := by
    have := initialAuth_length ha
    rw [hal] at this; cases this
    simp only [Wallet.addRole, rolesSize_append, rolesSize_cons, rolesSize_nil, Role.size]
    omega
  have hwf' : (w.addRole ty a.encode as).WF :=
    Wallet.addRole_wf hw ha (fun x hx => (hfr x hx).1) h1 h255 hdup hcount hctr (by unfold maxAccountLen at hsize; omega)
  have est := settleTail_enc hwf' ((encTail w.claimer ++ zeros k).drop k) (by simp [Wallet.addRole])
  have ehdr : (w.addRole ty a.encode as).header =
      { w.header with roles := (w.roles.length + 1) % 2 ^ 16, roleCounter := (w.header.roleCounter + 1) % 2 ^ 32 } := by
    simp only [Wallet.addRole, Wallet.header, List.length_append, List.length_singleton]
    congr 1 <;> omega
  have ejd : ((encTail w.claimer ++ zeros k).take k).drop (16 + al + acts.length) = [] :=
    List.drop_eq_nil_of_le (by omega)
  rw [ejd]
  simp only [Builder.bytes, List.append_nil, List.append_assoc]
  rw [ehdr] at est
  exact ⟨_, est⟩

theorem addAuthorityV1_of {env : Env} {m : Mem} {swig payer sys : Meta} {rest : List Meta} {ix : Bytes} {w : Wallet} {a : AddIx} {r : Role}
    {cred : Auth} {as : List Act}
    (hw : w.WF) (hd : (m swig.key).data = w.encode) (ho : (m swig.key).owner = swigId) (hsys : sys.key = systemId)
    (hcount : w.roles.length + 1 < 2 ^ 16) (hctr : w.roleCounter + 1 < 2 ^ 32)
    (hp : parseAdd ix = .ok a) (hact : ActsAs env m (swig :: payer :: sys :: rest) w a.acting a.authPayload a.dataPayload r)
    (hperm : r.holds P.all ∨ r.holds P.manageAuthority) (hcred : initialAuth a.newType a.authData = some cred)
    (hs : Submits a.actions as) (hfr : ∀ x ∈ as, x.Fresh) (h1 : 1 ≤ as.length) (h255 : as.length ≤ 255) (hdup : NoV2Dup as)
    (hsize : MayGrow w.encode.length (16 + cred.encode.length + a.actions.length))
    (hpay : Topped env m payer swig (w.encode.length + (16 + cred.encode.length + a.actions.length))) :
    ∃ m', addAuthorityV1 env m (swig :: payer :: sys :: rest) ix = .ok m' := by
  have hal := initialAuth_length hcred
  have hmod := Wallet.encode_mod hw
  have halm := authLen_mod hal
  have hacts := hs.length
  have hamod := actsSize_mod (fun a ha => (hfr a ha).1 : ∀ a ∈ as, a.WF)
  have hal8 : align8 (w.encode.length + (16 + cred.encode.length + a.actions.length)) =
      w.encode.length + (16 + cred.encode.length + a.actions.length) := align8_of_mod (by omega)
  obtain ⟨v, e1, e2, e3⟩ := actAs_of hw hact
  have hul := Wallet.used_encode_length hw a.acting
  have hw1 := Wallet.used_wf hw a.acting
  have htail := savedTailTake_enc hw
  simp only [addAuthorityV1]
  rw [require_of ho, ok_bind, require_of hsys, ok_bind, hp, ok_bind, initialAuth_ty hcred, ok_bind, hd, openSwig_enc hw, ok_bind,
    show w.parts.tail = encTail w.claimer from rfl, htail, ok_bind, e1, ok_bind]
  simp only
  rw [e2, hasManage_enc hw (role?_mem hact.1).1, ok_bind, require_of (by simpa using hperm), ok_bind, hal]
  simp only [orErr, ok_bind]
  rw [hal8, realloc_of hsize.1 (by
    have := hsize.2
    rw [Mem.setData_data, Wallet.parts_bytes, hul]; unfold maxGrowth; omega), ok_bind]
  obtain ⟨m2, e4⟩ := topUp_of ((hpay.setData ho (w.used a.acting).parts.bytes).setData (by simpa using ho)
    (resize ((m.setData swig.key (w.used a.acting).parts.bytes) swig.key).data
      (w.encode.length + (16 + cred.encode.length + a.actions.length))))
  rw [e4, ok_bind]
  have ht2 := topUp_data e4
  rw [(ht2 swig.key).1]
  simp only [Mem.setData_data]
  rw [Wallet.parts_bytes]
  obtain ⟨d, e5⟩ := addData_of hw1 hal (by simpa [Wallet.used, Wallet.mapRole] using hcount) hctr (by rw [hul, hal8]; exact hsize.1) hcred hs
    hfr h1 h255 hdup
  rw [hul, hal8] at e5
  rw [show encTail w.claimer = encTail (w.used a.acting).claimer from rfl, e5, ok_bind]
  exact ⟨_, rfl⟩

theorem removeAuthorityV1_of {env : Env} {m : Mem} {swig payer sys : Meta} {rest : List Meta} {ix : Bytes} {w : Wallet} {a : RemoveIx}
    {r t : Role}
    (hw : w.WF) (hd : (m swig.key).data = w.encode) (ho : (m swig.key).owner = swigId) (hsys : sys.key = systemId)
    (hmax : w.encode.length ≤ maxAccountLen)
    (hp : parseRemove ix = .ok a) (h0 : a.target ≠ 0)
    (hact : ActsAs env m (swig :: payer :: sys :: rest) w a.acting a.authPayload a.dataPayload r)
    (hperm : (r.holds P.all ∨ r.holds P.manageAuthority) ∨ a.acting = a.target) (ht : w.role? a.target = some t) :
    ∃ m', removeAuthorityV1 env m (swig :: payer :: sys :: rest) ix = .ok m' := by
  obtain ⟨v, e1, e2, e3⟩ := actAs_of hw hact
  have hul := Wallet.used_encode_length hw a.acting
  have hw1 := Wallet.used_wf hw a.acting
  have htail := savedTailTake_enc hw
  simp only [removeAuthorityV1]
  rw [require_of ho, ok_bind, require_of hsys, ok_bind, hp, ok_bind, require_of h0, ok_bind, hd, openSwig_enc hw, ok_bind,
    show w.parts.tail = encTail w.claimer from rfl, htail, ok_bind, e1, ok_bind]
  simp only
  rw [e2, hasManage_enc hw (role?_mem hact.1).1, ok_bind, require_of (by simpa using hperm), ok_bind]
  have ht1 : ∃ t1, (w.used a.acting).role? a.target = some t1 := by rw [Wallet.used_find, ht]; exact ⟨_, rfl⟩
  obtain ⟨t1, ht1⟩ := ht1
  rcases getMutRole_enc a.target (w.used a.acting).roles hw1.rolesOk with ⟨t2, before, after, g1, g2, g3, g4⟩ | ⟨g1, _⟩
  · rw [show (w.used a.acting).parts.roles = encRoles 0 (w.used a.acting).roles from rfl, g4, ok_bind,
      require_of (show ((some (viewOf (rolesSize before) t2)).isSome = true) from rfl), ok_bind]
    rw [show (⟨(w.used a.acting).parts.header, encRoles 0 (w.used a.acting).roles⟩ : Builder) =
      ⟨(w.used a.acting).header, encRoles 0 (w.used a.acting).roles⟩ from rfl, (removeRole_wallet hw1 ht1).1]
    simp only [ok_bind]
    rw [realloc_of (by omega) (by
      have hs := (removeRole_wallet hw1 ht1).2
      have h48 := Header.encode_length (Wallet.removeRole_wf hw1 a.target).header
      have hl := Wallet.encode_length hw1
      rw [show ∀ (m : Mem) (d : Bytes) (n n' : Nat), ((removeRefund env (m.setData swig.key d) swig.key payer.key n n') swig.key).data = d from by
        intro m d n n'; simp [removeRefund], show (w.used a.acting).parts.tail = encTail (w.used a.acting).claimer from rfl]
      simp only [Builder.bytes, List.length_append, encRoles_length, h48, zeros_length]
      omega), ok_bind]
    have hres := resize_removed hw1 ht1
    rw [Wallet.used_encode_length hw, show (w.used a.acting).claimer = w.claimer from rfl] at hres
    have hwf' := Wallet.removeRole_wf hw1 a.target
    have hdat : ∀ (m : Mem) (d : Bytes) (n n' : Nat), ((removeRefund env (m.setData swig.key d) swig.key payer.key n n') swig.key).data = d := by
      intro m d n n'; simp [removeRefund]
    simp only [Mem.setData_data]
    rw [hdat, show (w.used a.acting).parts.tail = encTail w.claimer from rfl, hres]
    have hst := settleTail_enc hwf' ((zeros t1.size ++ encTail w.claimer).take (encTail w.claimer).length)
      (by simp [Wallet.removeRole, Wallet.used, Wallet.mapRole])
    rw [show ((w.used a.acting).removeRole a.target).claimer = w.claimer from rfl] at hst
    rw [hst, ok_bind]
    exact ⟨_, rfl⟩
  · exact absurd (role?_mem ht1).2 (g1 t1 (role?_mem ht1).1)

theorem setRentClaimerV1_of {env : Env} {m : Mem} {swig payer sys : Meta} {rest : List Meta} {ix : Bytes} {w : Wallet} {a : ClaimerIx}
    {r : Role} {wallet : Key}
    (hw : w.WF) (hd : (m swig.key).data = w.encode) (ho : (m swig.key).owner = swigId) (hsys : sys.key = systemId)
    (hsize : MayGrow w.encode.length 40)
    (hp : parseClaimer ix = .ok a) (c1 : a.claimer ≠ zeros 32) (c2 : a.claimer ≠ swig.key)
    (hwal : env.pda (walletSeeds swig.key ++ [[w.walletBump]]) = some wallet) (c3 : a.claimer ≠ wallet)
    (hact : ActsAs env m (swig :: payer :: sys :: rest) w a.role a.authPayload a.dataPayload r)
    (hperm : r.holds P.all ∨ r.holds P.closeSwigAuthority) (hnone : w.claimer = none)
    (hpay : Topped env m payer swig (w.encode.length + 40)) :
    ∃ m', setRentClaimerV1 env m (swig :: payer :: sys :: rest) ix = .ok m' := by
  obtain ⟨v, e1, e2, e3⟩ := actAs_of hw hact
  have hul := Wallet.used_encode_length hw a.role
  have hw1 := Wallet.used_wf hw a.role
  have hclen := claimer_parse_length hp
  simp only [setRentClaimerV1]
  rw [require_of ho, ok_bind, require_of hsys, ok_bind, hp, ok_bind, require_of c1, ok_bind, require_of c2, ok_bind, hd, openSwig_enc hw,
    ok_bind, show w.parts.header.walletBump = w.walletBump from rfl, hwal]
  simp only [orErr, ok_bind]
  rw [require_of c3, ok_bind, e1, ok_bind]
  simp only
  rw [e2, hasMarker_enc hw (role?_mem hact.1).1 (by decide), ok_bind, hasMarker_enc hw (role?_mem hact.1).1 (by decide), ok_bind,
    require_of (by simpa using hperm), ok_bind]
  have e := claimerReadStrict_enc hw.claimer
  rw [show (w.used a.role).parts.tail = encTail w.claimer from rfl, e, ok_bind, require_of hnone, ok_bind, realloc_of hsize.1 (by
    have := hsize.2
    rw [Mem.setData_data, Wallet.parts_bytes, hul]; unfold maxGrowth; omega), ok_bind]
  obtain ⟨m2, e4⟩ := topUp_of ((hpay.setData ho (w.used a.role).parts.bytes).setData (by simpa using ho)
    (resize ((m.setData swig.key (w.used a.role).parts.bytes) swig.key).data (w.encode.length + 40)))
  rw [e4, ok_bind]
  have ht2 := topUp_data e4
  rw [(ht2 swig.key).1]
  simp only [Mem.setData_data]
  unfold write
  rw [if_pos (by
    have : (resize (w.used a.role).parts.bytes (w.encode.length + 40)).length = w.encode.length + 40 := by
      rw [Wallet.parts_bytes]; unfold resize; simp; omega
    rw [this]; simp [claimerEntry, hclen]), ok_bind]
  exact ⟨_, rfl⟩

/-- A role with sessions opens one: the main credential authenticates and the length is within the maximum. -/
theorem createSessionV1_of {env : Env} {m : Mem} {swig payer sys : Meta} {rest : List Meta} {ix : Bytes} {w : Wallet} {a : SessionIx}
    {r : Role} {auth : Auth} {s : Session}
    (hw : w.WF) (hd : (m swig.key).data = w.encode) (ho : (m swig.key).owner = swigId)
    (hp : parseSession ix = .ok a) (hr : w.role? a.role = some r) (k1 : auth.WF) (k2 : auth.ty = r.authType) (k3 : auth.encode = r.auth)
    (hss : auth.session = some s) {u : Bytes}
    (hau : authenticate env r.authType r.auth (swig :: payer :: sys :: rest) (m instructionsSysvarId).data a.authPayload a.dataPayload =
        .ok u) (hdur : a.duration ≤ s.max) :
    ∃ m', createSessionV1 env m (swig :: payer :: sys :: rest) ix = .ok m' := by
  simp only [createSessionV1]
  rw [require_of ho, ok_bind, hp, ok_bind, hd, openSwigU_enc hw, ok_bind]
  rcases getMutRole_enc a.role w.roles hw.rolesOk with ⟨r', before, after, g1, g2, g3, g4⟩ | ⟨g1, _⟩
  · have : r' = r := by have := role?_split g1 g2 g3; rw [hr] at this; exact (Option.some.inj this).symm
    subst this
    rw [show w.parts.roles = encRoles 0 w.roles from rfl, g4, ok_bind]
    simp only [orErr, ok_bind]
    unfold sessionAuth
    rw [require_of (show sessionBased (viewOf (rolesSize before) r').authType = true by
      show sessionBased r'.authType = true
      rw [← k2, Auth.sessionBased_iff, hss]; rfl), ok_bind]
    simp only [viewOf]
    rw [hau, ok_bind]
    have hau2 := hau
    rw [← k2, ← k3] at hau2
    have := authenticate_used k1 hau2
    subst this
    have k1' : (⟨auth.cred.used, auth.session⟩ : Auth).WF := ⟨Cred.used_wf k1.cred, k1.session⟩
    have kty : (⟨auth.cred.used, auth.session⟩ : Auth).ty = auth.ty := by
      cases auth with | mk c s => cases c <;> rfl
    have hmax := (Auth.session_fields k1' hss).2.1
    unfold startSession
    rw [← k2, ← kty, if_neg (by rw [Auth.sessionBased_iff]; simp [hss]), hmax, if_neg (by omega), ok_bind]
    exact ⟨_, rfl⟩
  · exact absurd (role?_mem hr).2 (g1 r (role?_mem hr).1)

/-! ## Updates -/

theorem newActions_of {op : UpdateOp} {before after : List Role} {t : Role} {junk : Bytes} {as : List Act} (ht : t.WF)
    (h : op.Result t.actions as) (h1 : 1 ≤ as.length) :
    ∃ acts, op.newActions (encRoles 0 (before ++ t :: after) ++ junk) (rolesSize before + 16 + t.auth.length) (actsSize t.actions) =
      .ok acts ∧ Submits acts as := by
  have hne : ∀ {out : Bytes}, Submits out as → out ≠ [] := by
    intro out ho he
    subst he
    have := ho.length
    have := length_le_actsSize as
    simp at *
    omega
  have h255 := ht.atMost
  have hfil : ∀ (chk : Bool) (keep : Nat → Nat → Bool), as = keepActs keep 0 t.actions →
      ∃ acts, filteredActions (encRoles 0 (before ++ t :: after) ++ junk) (rolesSize before + 16 + t.auth.length) (actsSize t.actions)
        chk keep = .ok acts ∧ Submits acts as := by
    intro chk keep hk
    obtain ⟨o, q1, q2⟩ := filterActionsGo_submits chk keep t.actions (encActs 0 t.actions) (encActs 0 t.actions).length 0
      (Submits.encActs ht.acts 0) ht.acts (Nat.le_refl _) (by omega)
    rw [← hk] at q2
    refine ⟨o, ?_, q2⟩
    unfold filteredActions
    rw [slice_acts]
    simp only [ok_bind]
    rw [q1]
    simp only [ok_bind]
    rw [if_neg (hne q2)]
  cases op with
  | replaceAll a => exact ⟨a, rfl, h⟩
  | add a =>
    obtain ⟨extra, h2, rfl⟩ := h
    refine ⟨_, ?_, (Submits.encActs ht.acts 0).append h2⟩
    simp only [UpdateOp.newActions, addedActions, slice_acts, ok_bind]
  | removeTypes ts => exact hfil _ _ (by rw [keepActs_type]; exact h)
  | removeIndices is => exact hfil _ _ (by rw [keepActs_index]; exact h)

/-- The operation part of an update succeeds on an account with `g` bytes of room. -/
theorem updateData_of {w : Wallet} {target : Nat} {t : Role} {op : UpdateOp} {g : Nat} {before after : List Role} {as : List Act}
    (hw : w.WF) (g1 : w.roles = before ++ t :: after) (g2 : t.id = target)
    (hg : op.growth (actsSize t.actions) ≤ g) (hsz : 48 + rolesSize w.roles + 40 + g < 2 ^ 31)
    (hres : op.Result t.actions as) (hfr : ∀ x ∈ as, x.Fresh) (h1 : 1 ≤ as.length) (h255 : as.length ≤ 255) (hdup : NoV2Dup as) :
    ∃ d, updateData (w.encode ++ zeros g) (encTail w.claimer) (rolesSize w.roles) (actsSize t.actions) (rolesSize before)
      (rolesSize before + 16 + t.auth.length) target op = .ok (d, actsSize as) := by
  have htw : t.WF := hw.roles t (by simp [g1])
  obtain ⟨hb, ha⟩ := hw.others g1
  have h48 := Header.encode_length hw.header
  have hlen := Wallet.encode_length hw
  unfold updateData
  have hrest : ∃ junk0 : Bytes, junk0.length = g ∧ restoreTail (encTail w.claimer) (w.encode ++ zeros g) =
      .ok (w.header.encode ++ (encRoles 0 w.roles ++ (junk0 ++ encTail w.claimer))) := by
    refine ⟨(encTail w.claimer ++ zeros g).take g, by simp, ?_⟩
    unfold restoreTail restoreAt
    rw [if_neg (by simp; omega)]
    by_cases hz : (encTail w.claimer).length = 0
    · rw [if_pos hz]
      have : encTail w.claimer = [] := List.length_eq_zero_iff.mp hz
      simp [Wallet.encode, this, zeros]
    · rw [if_neg hz, if_neg (by simp; omega)]
      have e1 : w.encode ++ zeros g = (w.header.encode ++ encRoles 0 w.roles ++ (encTail w.claimer ++ zeros g).take g) ++
          ((encTail w.claimer ++ zeros g).drop g ++ []) := by
        rw [List.append_nil, List.append_assoc _ _ (List.drop _ _), List.take_append_drop]
        simp [Wallet.encode]
      rw [e1, put_mid' _ _ _ _ _ (by simp)]
      · simp
      · simp [h48]; omega
  obtain ⟨junk0, hj0, hrest⟩ := hrest
  rw [hrest]
  simp only [ok_bind]
  have hdl : (w.header.encode ++ (encRoles 0 w.roles ++ (junk0 ++ encTail w.claimer))).length =
      48 + rolesSize w.roles + g + (encTail w.claimer).length := by
    simp [h48, hj0]; omega
  rw [if_neg (by rw [hdl]; omega), hdl]
  have ebuf : sl (w.header.encode ++ (encRoles 0 w.roles ++ (junk0 ++ encTail w.claimer))) 48
      (48 + rolesSize w.roles + g + (encTail w.claimer).length - (encTail w.claimer).length) = encRoles 0 w.roles ++ junk0 := by
    have := sl_mid w.header.encode (encRoles 0 w.roles ++ junk0) (encTail w.claimer) (i := 48)
      (j := 48 + rolesSize w.roles + g + (encTail w.claimer).length - (encTail w.claimer).length) h48.symm (by simp [h48, hj0]; omega)
    rw [← this]; simp
  rw [ebuf]
  obtain ⟨acts, e1, e2⟩ := newActions_of (op := op) (before := before) (after := after) (junk := junk0) htw hres h1
  rw [← g1] at e1
  rw [e1, ok_bind]
  rw [g1] at e1
  obtain ⟨hfit1, hfit2⟩ := newActions_fit htw e1
  have hrs := hw.rolesOk
  rw [g1] at hrs
  have hts : actsSize t.actions ≤ rolesSize w.roles := by
    rw [g1, rolesSize_append]; simp [Role.size]; omega
  have hsz2 : rolesSize (before ++ t :: after) + acts.length < 2 ^ 32 := by rw [← g1]; omega
  obtain ⟨junk, k6, k7⟩ := replaceAll_enc hrs hb ha e2 hfr h1 h255 hdup (junk := junk0) (by omega) hsz2
  rw [← g1, g2] at k7
  rw [k7, ok_bind, e2.length]
  exact ⟨_, rfl⟩

theorem growFor_of {env : Env} {m : Mem} {payer swig : Meta} {n : Nat} (hmod : (m swig.key).data.length % 8 = 0) (hn : n % 8 = 0)
    (h : n > 0 → MayGrow (m swig.key).data.length n ∧
      ∀ d, Topped env (m.setData swig.key d) payer swig ((m swig.key).data.length + n)) :
    ∃ m', growFor env m payer swig n = .ok m' := by
  unfold growFor
  split
  · rename_i hpos
    obtain ⟨h1, h2⟩ := h hpos
    dsimp only
    rw [align8_of_mod (by omega), realloc_of h1.1 (by have := h1.2; unfold maxGrowth; omega), ok_bind]
    exact topUp_of (h2 _)
  · exact ⟨_, rfl⟩

theorem shrinkBy_of {env : Env} {m : Mem} {payer swig : Key} {n : Nat} (hmod : (m swig).data.length % 8 = 0) (hn : n % 8 = 0)
    (h : (m swig).data.length ≤ maxAccountLen) : ∃ m', shrinkBy env m payer swig n = .ok m' := by
  unfold shrinkBy
  split
  · dsimp only
    rw [align8_of_mod (by omega), realloc_of (by omega) (by omega), ok_bind]
    split
    · exact ⟨_, rfl⟩
    · exact ⟨_, rfl⟩
  · exact ⟨_, rfl⟩

theorem growth_mod {op : UpdateOp} {old as : List Act} (h : op.Result old as) (ho : ∀ x ∈ old, x.WF) (hn : ∀ x ∈ as, x.WF) :
    op.growth (actsSize old) % 8 = 0 := by
  have m1 := actsSize_mod ho
  have m2 := actsSize_mod hn
  cases op with
  | replaceAll a =>
    have := Submits.length h
    simp only [UpdateOp.growth]
    omega
  | add a =>
    obtain ⟨extra, h2, rfl⟩ := h
    have h3 := h2.length
    have m3 := actsSize_mod (fun x hx => hn x (by simp [hx]) : ∀ x ∈ extra, x.WF)
    simp only [UpdateOp.growth]
    omega
  | removeTypes ts => rfl
  | removeIndices is => rfl

theorem updateAuthorityV1_of {env : Env} {m : Mem} {swig payer sys : Meta} {rest : List Meta} {ix : Bytes} {w : Wallet} {a : UpdateIx}
    {r t : Role} {as : List Act}
    (hw : w.WF) (hd : (m swig.key).data = w.encode) (ho : (m swig.key).owner = swigId) (hsys : sys.key = systemId)
    (hmax : w.encode.length ≤ maxAccountLen)
    (hp : parseUpdate ix = .ok a)
    (hact : ActsAs env m (swig :: payer :: sys :: rest) w a.acting a.authPayload a.dataPayload r)
    (hperm : r.holds P.all ∨ r.holds P.manageAuthority) (ht : w.role? a.target = some t)
    (hres : a.op.Result t.actions as) (hfr : ∀ x ∈ as, x.Fresh) (h1 : 1 ≤ as.length) (h255 : as.length ≤ 255) (hdup : NoV2Dup as)
    (hgrow : a.op.growth (actsSize t.actions) > 0 → MayGrow w.encode.length (a.op.growth (actsSize t.actions)) ∧
      Topped env m payer swig (w.encode.length + a.op.growth (actsSize t.actions))) :
    ∃ m', updateAuthorityV1 env m (swig :: payer :: sys :: rest) ix = .ok m' := by
  obtain ⟨v, e1, e2, e3⟩ := actAs_of hw hact
  have hul := Wallet.used_encode_length hw a.acting
  have hw1 := Wallet.used_wf hw a.acting
  have htail := savedTailTake_enc hw
  simp only [updateAuthorityV1]
  rw [require_of ho, ok_bind, require_of hsys, ok_bind, hp, ok_bind, hd, openSwig_enc hw, ok_bind,
    show w.parts.tail = encTail w.claimer from rfl, htail, ok_bind, e1, ok_bind]
  simp only
  rw [e2, hasManage_enc hw (role?_mem hact.1).1, ok_bind, require_of (by simpa using hperm), ok_bind]
  have ht1 : ∃ t1, (w.used a.acting).role? a.target = some t1 := by rw [Wallet.used_find, ht]; exact ⟨_, rfl⟩
  obtain ⟨t1, ht1⟩ := ht1
  obtain ⟨t', ht', _, _, hta, _⟩ := Wallet.used_role_inv hw ht1
  rw [ht] at ht'
  cases ht'
  rw [hta] at hres hgrow
  have hcl : (w.used a.acting).claimer = w.claimer := rfl
  generalize w.used a.acting = w1 at *
  rw [show w1.parts.header.roles = w1.roles.length from rfl, show w1.parts.roles = encRoles 0 w1.roles from rfl]
  rcases getMutRole_enc a.target w1.roles hw1.rolesOk with ⟨t2, before, after, g1, g2, g3, _⟩ | ⟨g1, _⟩
  · have ht2 : w1.role? a.target = some t2 := role?_split g1 g2 g3
    rw [ht1] at ht2
    cases ht2
    have hok := hw1.rolesOk
    have hfo := findOffsetsGo_enc a.target t1 after g2 before [] (by rw [← g1]; exact hok) g3
    simp only [List.nil_append, List.length_nil, Nat.zero_add, ← g1] at hfo
    rw [hfo, ok_bind]
    dsimp only
    have htw : t1.WF := hw1.roles t1 (by simp [g1])
    have hmod1 := Wallet.encode_mod hw1
    have hlen1 := Wallet.encode_length hw1
    have hgm := growth_mod hres htw.acts (fun x hx => (hfr x hx).1)
    obtain ⟨m1, e4⟩ := growFor_of (env := env) (m := m.setData swig.key w1.parts.bytes) (payer := payer) (swig := swig)
      (n := a.op.growth (actsSize t1.actions))
      (by rw [Mem.setData_data, Wallet.parts_bytes]; exact hmod1) hgm
      (fun hpos => by
        rw [Mem.setData_data, Wallet.parts_bytes, hul]
        exact ⟨(hgrow hpos).1, fun d => ((hgrow hpos).2.setData ho _).setData (by simpa using ho) d⟩)
    rw [e4, ok_bind]
    obtain ⟨hod1, hgr⟩ := growFor_ok e4
    have hroom : (m1 swig.key).data = w1.encode ++ zeros (a.op.growth (actsSize t1.actions)) ∧
        w1.encode.length + a.op.growth (actsSize t1.actions) ≤ maxAccountLen := by
      rcases hgr with ⟨h0, rfl⟩ | ⟨hpos, hmx, hdat⟩
      · refine ⟨by rw [h0]; simp [zeros, Wallet.parts_bytes], by omega⟩
      · simp only [Mem.setData_data, Wallet.parts_bytes] at hdat hmx
        rw [align8_of_mod (by omega)] at hdat hmx
        rw [Nat.add_sub_cancel_left] at hdat
        exact ⟨hdat, hmx⟩
    obtain ⟨hdat, hmx⟩ := hroom
    have hsz1 : 48 + rolesSize w1.roles + 40 + a.op.growth (actsSize t1.actions) < 2 ^ 31 := by
      unfold maxAccountLen at hmx; omega
    obtain ⟨d, e5⟩ := updateData_of hw1 g1 g2 (Nat.le_refl _) hsz1 hres hfr h1 h255 hdup
    rw [hcl] at e5
    rw [hdat, show (encRoles 0 w1.roles).length = rolesSize w1.roles by simp, e5, ok_bind]
    dsimp only
    rw [← hcl] at e5
    obtain ⟨as', junk, k1, k2, k3, k4, k5, k6, k7, k8, k9, k10, k11⟩ := updateData_enc hw1 g1 g2 (Nat.le_refl _) hsz1 e5
    have hsame : as' = as := by
      clear e4 hgr e5
      revert k1 hres
      cases a.op with
      | replaceAll x => intro a1 a2; exact Submits.inj a2 a1
      | add x =>
        rintro ⟨x1, a1, rfl⟩ ⟨x2, a2, rfl⟩
        rw [Submits.inj a1 a2]
      | removeTypes x => intro a1 a2; exact a2.trans a1.symm
      | removeIndices x => intro a1 a2; exact a2.trans a1.symm
    subst hsame
    have hcl2 : (w1.setActions a.target as').claimer = w1.claimer := rfl
    have hss := setActions_size hw1 ht1 (as := as')
    have q1 := actsSize_mod htw.acts
    have q2 := actsSize_mod (fun x hx => (k2 x hx).1 : ∀ x ∈ as', x.WF)
    have h48 := Header.encode_length k11.header
    have hlenw2 := Wallet.encode_length k11
    have hmodw2 := Wallet.encode_mod k11
    rw [hcl2] at hlenw2
    have hdl : d.length = 48 + rolesSize (w1.setActions a.target as').roles + junk.length + (encTail w1.claimer).length := by
      rw [k9]; simp only [List.length_append, h48, encRoles_length]; omega
    have hdle : d.length = w1.encode.length + a.op.growth (actsSize t1.actions) := by omega
    obtain ⟨m2, e6⟩ := shrinkBy_of (env := env) (m := m1.setData swig.key d) (payer := payer.key) (swig := swig.key)
      (n := actsSize t1.actions - actsSize as') (by rw [Mem.setData_data]; omega) (by omega) (by rw [Mem.setData_data]; omega)
    rw [e6, ok_bind]
    obtain ⟨hod2, hshd⟩ := shrinkBy_ok e6
    simp only [Mem.setData_data] at hshd
    have hjz : (actsSize t1.actions - actsSize as' = 0 ↔ junk.length = 0) := by omega
    have hlen2 : (if actsSize t1.actions - actsSize as' = 0 then d else resize d (align8 (d.length - (actsSize t1.actions - actsSize as')))) =
        (if junk.length = 0 then (w1.setActions a.target as').header.encode ++ (encRoles 0 (w1.setActions a.target as').roles ++ (junk ++ encTail (w1.setActions a.target as').claimer))
      else resize ((w1.setActions a.target as').header.encode ++ (encRoles 0 (w1.setActions a.target as').roles ++ (junk ++ encTail (w1.setActions a.target as').claimer)))
        ((w1.setActions a.target as').encode.length)) := by
      rw [hcl2, ← k9]
      by_cases hz : actsSize t1.actions - actsSize as' = 0
      · rw [if_pos hz, if_pos (hjz.mp hz)]
      · rw [if_neg hz, if_neg (fun c => hz (hjz.mpr c))]
        congr 1
        have : d.length - (actsSize t1.actions - actsSize as') = (w1.setActions a.target as').encode.length := by omega
        rw [this, align8_of_mod hmodw2]
    have hst := settle_shrunk k11 junk
    rw [← hlen2, hcl2, hcl] at hst
    rw [hshd, hst, ok_bind]
    exact ⟨_, rfl⟩
  · exact absurd (role?_mem ht1).2 (g1 t1 (role?_mem ht1).1)

theorem mayReplace_of {w : Wallet} (hw : w.WF) {r : Role} (hr : r ∈ w.roles) {target : Nat}
    (h : r.holds P.all ∨ r.holds P.manageAuthority ∨ r.holdsFor P.replaceAuthority (natLE 4 target)) :
    mayReplace (encActs 0 r.actions) target = .ok true := by
  unfold mayReplace
  rw [hasMarker_enc hw hr (by decide), hasMarker_enc hw hr (by decide),
    hasKeyed_enc hw hr (by decide) (by simp [keyLen, P.replaceAuthority, P.tokenDestinationLimit, P.tokenRecurringDestinationLimit])]
  simp only [ok_bind, decide_eq_true_iff]
  by_cases h1 : r.holds P.all
  · rw [if_pos h1]
  · rw [if_neg h1]
    by_cases h2 : r.holds P.manageAuthority
    · rw [if_pos h2]
    · rw [if_neg h2]
      congr 1
      exact decide_eq_true (h.resolve_left h1 |>.resolve_left h2)

/-- Signer replacement, with the proof a role of type ProgramExec needs. -/
theorem replaceAuthorityV1_with {env : Env} {m : Mem} {swig : Meta} {rest : List Meta} {ix : Bytes} {w : Wallet} {a : ReplaceIx} {r t : Role}
    {auth : Auth} {key : Bytes} {proof : Option (Key × Bytes)}
    (hw : w.WF) (hd : (m swig.key).data = w.encode) (ho : (m swig.key).owner = swigId)
    (hp : parseReplace ix = .ok a) (hact : ActsAs env m (swig :: rest) w a.acting a.authPayload a.dataPayload r)
    (hperm : r.holds P.all ∨ r.holds P.manageAuthority ∨ r.holdsFor P.replaceAuthority (natLE 4 a.target))
    (hx : requiredProof env m swig (swig :: rest) r.authType a.authPayload = .ok proof)
    (hpf : ∀ wk h, proof = some (wk, h) → env.sha256 (proofPreimage swig.key wk a.acting a.target t.authType auth.cred.key key) = h)
    (ht : w.role? a.target = some t) (k1 : auth.WF) (k2 : auth.ty = t.authType) (k3 : auth.encode = t.auth)
    (hnk : auth.cred.newKey a.newAuth = some key) (hne : auth.cred.key ≠ key) :
    ∃ m', replaceAuthorityV1 env m (swig :: rest) ix = .ok m' := by
  obtain ⟨v, e1, e2, e3⟩ := actAs_of hw hact
  have hw1 := Wallet.used_wf hw a.acting
  simp only [replaceAuthorityV1]
  rw [require_of ho, ok_bind, hp, ok_bind, hd, openSwig_enc hw, ok_bind, e1, ok_bind]
  simp only
  rw [e2, e3, mayReplace_of hw (role?_mem hact.1).1 hperm, ok_bind, require_of rfl, ok_bind]
  rw [hx, ok_bind]
  rw [show (w.used a.acting).parts.header.roles = (w.used a.acting).roles.length from rfl,
    show (w.used a.acting).parts.roles = encRoles 0 (w.used a.acting).roles from rfl]
  have ht1 : ∃ t1, (w.used a.acting).role? a.target = some t1 := by rw [Wallet.used_find, ht]; exact ⟨_, rfl⟩
  obtain ⟨t1, ht1⟩ := ht1
  obtain ⟨t', ht', hsz, hty, hacts, hauth⟩ := Wallet.used_role_inv hw ht1
  rw [ht] at ht'
  cases ht'
  rcases getMutRole_enc a.target (w.used a.acting).roles hw1.rolesOk with ⟨t2, before, after, g1, g2, g3, _⟩ | ⟨g1, _⟩
  · have ht2 : (w.used a.acting).role? a.target = some t2 := role?_split g1 g2 g3
    rw [ht1] at ht2
    cases ht2
    have hgo := replaceTargetGo_enc env swig.key a.acting a.target a.newAuth proof t1 after g2 before []
      (by rw [← g1]; exact hw1.rolesOk) g3
    simp only [List.nil_append, List.length_nil, Nat.zero_add, ← g1] at hgo
    rw [hgo]
    have hau : ∃ auth1 : Auth, auth1.WF ∧ auth1.ty = t.authType ∧ auth1.encode = t1.auth ∧ auth1.cred.key = auth.cred.key ∧
        (∀ n, auth1.cred.newKey n = auth.cred.newKey n) := by
      rw [hauth]
      by_cases hid : a.target = a.acting
      · rw [if_pos hid, ← k2, ← k3, usedCred_enc k1]
        by_cases hs : auth.session = none
        · refine ⟨⟨auth.cred.used, none⟩, ⟨Cred.used_wf k1.cred, by simp⟩, ?_, by rw [if_pos hs], Cred.used_key _,
            Cred.used_newKey _⟩
          cases auth with | mk c s => cases hs; cases c <;> rfl
        · exact ⟨auth, k1, rfl, by rw [if_neg hs], rfl, fun _ => rfl⟩
      · rw [if_neg hid]
        exact ⟨auth, k1, k2, k3, rfl, fun _ => rfl⟩
    obtain ⟨auth1, q1, q2, q3, q4, q5⟩ := hau
    have hnk1 : auth1.cred.newKey a.newAuth = some key := by rw [q5]; exact hnk
    rw [← hty, ← q2, (normalizeSigner_enc auth1 a.newAuth key).mpr hnk1, ok_bind, ← q3, signer_enc q1 hnk1]
    have hck : replaceChecks env swig.key a.acting a.target auth1.ty auth1.cred.key key proof = .ok () := by
      unfold replaceChecks
      cases proof with
      | none =>
        simp only
        rw [require_of trivial, ok_bind, require_of (by rw [q4]; exact hne)]
      | some wh =>
        have := hpf wh.1 wh.2 rfl
        simp only
        rw [require_of (by rw [q2, q4, this]; exact beq_self_eq_true _), ok_bind, require_of (by rw [q4]; exact hne)]
    rw [hck]
    simp only [ok_bind]
    exact ⟨_, rfl⟩
  · exact absurd (role?_mem ht1).2 (g1 t1 (role?_mem ht1).1)

/-- Signer replacement by a role that is not of type ProgramExec (which needs a proof of the replacement). -/
theorem replaceAuthorityV1_of {env : Env} {m : Mem} {swig : Meta} {rest : List Meta} {ix : Bytes} {w : Wallet} {a : ReplaceIx} {r t : Role}
    {auth : Auth} {key : Bytes}
    (hw : w.WF) (hd : (m swig.key).data = w.encode) (ho : (m swig.key).owner = swigId)
    (hp : parseReplace ix = .ok a) (hact : ActsAs env m (swig :: rest) w a.acting a.authPayload a.dataPayload r)
    (hperm : r.holds P.all ∨ r.holds P.manageAuthority ∨ r.holdsFor P.replaceAuthority (natLE 4 a.target))
    (hx : r.authType ≠ T.programExec)
    (ht : w.role? a.target = some t) (k1 : auth.WF) (k2 : auth.ty = t.authType) (k3 : auth.encode = t.auth)
    (hnk : auth.cred.newKey a.newAuth = some key) (hne : auth.cred.key ≠ key) :
    ∃ m', replaceAuthorityV1 env m (swig :: rest) ix = .ok m' :=
  replaceAuthorityV1_with (proof := none) hw hd ho hp hact hperm (by unfold requiredProof; rw [if_neg hx]) (fun _ _ h => nomatch h) ht k1 k2 k3 hnk hne

end Verif
