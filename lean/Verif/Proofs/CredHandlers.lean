import Verif.Proofs.UpdateHandler

/-! Refinement of the handlers that change a credential, and of the rent-claimer registration. -/

namespace Verif

theorem Cred.used_wf {c : Cred} (h : c.WF) : c.used.WF := by
  cases c <;> simp only [Cred.used, Cred.WF] at * <;> try exact h
  · exact ⟨h.1, h.2.1, Nat.mod_lt _ (by decide)⟩
  · exact ⟨h.1, h.2.1, Nat.mod_lt _ (by decide)⟩

/-- The record stored by a successful authentication with the main credential. -/
theorem authenticate_used {env : Env} {a : Auth} {metas : List Meta} {sysvar payload d b : Bytes} (hw : a.WF)
    (h : authenticate env a.ty a.encode metas sysvar payload d = .ok b) : b = (⟨a.cred.used, a.session⟩ : Auth).encode := by
  cases hc : a.cred with
  | ed25519 pk =>
    rw [authenticate_ed25519 hc] at h
    split at h
    · cases h
    · obtain ⟨_, _, h⟩ := bind_ok_iff.mp h
      cases h
      cases a; simp_all [Cred.used]
  | exec p n pad buf =>
    rw [authenticate_exec hc] at h
    obtain ⟨_, _, h⟩ := bind_ok_iff.mp h
    cases h
    cases a; simp_all [Cred.used]
  | secp256k1 pk pad n =>
    rw [authenticate_secp256k1 hc] at h
    obtain ⟨_, ho, hp⟩ := Cred.secp_fields hw.cred (pk := pk) (n := n) (by rw [hc]; rfl)
      (match a.session with | none => [] | some s => s.encode) ((n + 1) % 2 ^ 32)
    change odometer a.encode = n at ho
    change put a.encode 36 _ = _ at hp
    unfold k1Authenticate at h
    split at h
    · cases h
    · simp only [ho] at h
      split at h
      · cases h
      · rename_i hcc
        obtain ⟨_, _, h⟩ := bind_ok_iff.mp h
        cases h
        rw [Decidable.of_not_not hcc, hp, hc]
        rfl
  | secp256r1 pk pad n =>
    rw [authenticate_secp256r1 hc] at h
    obtain ⟨_, ho, hp⟩ := Cred.secp_fields hw.cred (pk := pk) (n := n) (by rw [hc]; rfl)
      (match a.session with | none => [] | some s => s.encode) ((n + 1) % 2 ^ 32)
    change odometer a.encode = n at ho
    change put a.encode 36 _ = _ at hp
    unfold r1Authenticate at h
    split at h
    · cases h
    · simp only [ho] at h
      split at h
      · cases h
      · rename_i hcc
        obtain ⟨_, _, h⟩ := bind_ok_iff.mp h
        cases h
        rw [Decidable.of_not_not hcc, hp, hc]
        rfl

/-- `Wallet.setAuth` on the encoding. -/
theorem setAuth_parts {w : Wallet} {id : Nat} {r : Role} {before after : List Role} {auth : Bytes}
    (g1 : w.roles = before ++ r :: after) (g2 : r.id = id) (g3 : ∀ x ∈ before, x.id ≠ id) (g4 : ∀ x ∈ after, x.id ≠ id)
    (hl : auth.length = r.auth.length) :
    ({ w.parts with roles := put (encRoles 0 w.roles) (rolesSize before + 16) auth } : Parts) = (w.setAuth id auth).parts := by
  have hh : (w.setAuth id auth).header = w.header := by simp [Wallet.setAuth, Wallet.mapRole, Wallet.header]
  unfold Wallet.parts
  rw [hh]
  have es : (w.setAuth id auth).roles = _ := mapRole_split id _ g1 g2 g3 g4
  rw [es, g1, put_encRoles_auth before after r auth hl]
  rfl

theorem createSessionV1_enc {env : Env} {m m' : Mem} {swig payer sys : Meta} {rest : List Meta} {ix : Bytes} {w : Wallet}
    (hw : w.WF) (hd : (m swig.key).data = w.encode)
    (h : createSessionV1 env m (swig :: payer :: sys :: rest) ix = .ok m') :
    ∃ (a : SessionIx) (r : Role) (auth : Auth) (s : Session), parseSession ix = .ok a ∧ w.role? a.role = some r ∧ auth.WF ∧ auth.ty = r.authType ∧ auth.encode = r.auth ∧
      auth.session = some s ∧
      authenticate env r.authType r.auth (swig :: payer :: sys :: rest) (m instructionsSysvarId).data a.authPayload a.dataPayload =
        .ok (⟨auth.cred.used, auth.session⟩ : Auth).encode ∧
      a.duration ≤ s.max ∧
      (m' swig.key).data = (w.setAuth a.role
        (⟨auth.cred.used, some ⟨a.key, s.max, (env.slot + a.duration) % 2 ^ 64⟩⟩ : Auth).encode).encode ∧
      (w.setAuth a.role (⟨auth.cred.used, some ⟨a.key, s.max, (env.slot + a.duration) % 2 ^ 64⟩⟩ : Auth).encode).WF ∧
      m' = m.setData swig.key (m' swig.key).data := by
  simp only [createSessionV1] at h
  obtain ⟨_, _, h⟩ := bind_ok_iff.mp h
  obtain ⟨a, ha, h⟩ := bind_ok_iff.mp h
  rw [hd, openSwigU_enc hw] at h
  simp only [ok_bind] at h
  obtain ⟨ro, hro, h⟩ := bind_ok_iff.mp h
  obtain ⟨v, hv, h⟩ := bind_ok_iff.mp h
  have hv := orErr_ok hv
  rw [hv] at hro
  have hkey : a.key.length = 32 := by
    unfold parseSession at ha
    split at ha
    · cases ha
    · cases ha; rw [sl_length_of_le (by omega)]
  rcases getMutRole_enc a.role w.roles hw.rolesOk with ⟨r, before, after, g1, g2, g3, g4⟩ | ⟨g1, g2⟩
  · rw [show w.parts.roles = encRoles 0 w.roles from rfl, g4] at hro
    have hro := Option.some.inj (Except.ok.inj hro)
    obtain ⟨b, hb, h⟩ := bind_ok_iff.mp h
    rw [← hro] at hb h
    have h := Except.ok.inj h
    subst h
    have hr : w.role? a.role = some r := role?_split g1 g2 g3
    have hrw := hw.roles r (role?_mem hr).1
    obtain ⟨auth, k1, k2, k3⟩ := Auth.decode r.authType r.auth hrw.auth
    unfold sessionAuth at hb
    obtain ⟨_, hs, hb⟩ := bind_ok_iff.mp hb
    have hs := require_ok_iff.mp hs
    obtain ⟨b1, hauth, hb⟩ := bind_ok_iff.mp hb
    simp only [viewOf] at hs hauth hb
    rw [← k2, Auth.sessionBased_iff] at hs
    obtain ⟨s, hss⟩ := Option.isSome_iff_exists.mp hs
    have hauth2 := hauth
    rw [← k2, ← k3] at hauth2
    have := authenticate_used k1 hauth2
    subst this
    have k1' : (⟨auth.cred.used, auth.session⟩ : Auth).WF := ⟨Cred.used_wf k1.cred, k1.session⟩
    have kty : (⟨auth.cred.used, auth.session⟩ : Auth).ty = auth.ty := by
      cases auth with | mk c s => cases c <;> rfl
    have hmax := (Auth.session_fields k1' hss).2.1
    unfold startSession at hb
    rw [← k2, ← kty] at hb
    rw [if_neg (by rw [Auth.sessionBased_iff]; simp [hss]), hmax] at hb
    split at hb
    · cases hb
    · rename_i hle
      have hb := Except.ok.inj hb
      have hput := Auth.put_session k1' hss ⟨a.key, s.max, (env.slot + a.duration) % 2 ^ 64⟩ (by simp [Session.encode, hkey])
      rw [Session.encode] at hput
      rw [hput] at hb
      simp only at hb
      obtain ⟨_, g5⟩ := hw.others g1
      have hlen : b.length = r.auth.length := by
        have hwf2 : (⟨auth.cred.used, some ⟨a.key, s.max, (env.slot + a.duration) % 2 ^ 64⟩⟩ : Auth).WF :=
          ⟨Cred.used_wf k1.cred, by
            intro t ht; cases ht; exact ⟨hkey, (k1.session s hss).max, Nat.mod_lt _ (by decide)⟩⟩
        have e1 := Auth.encode_length hwf2
        have e2 : (⟨auth.cred.used, some ⟨a.key, s.max, (env.slot + a.duration) % 2 ^ 64⟩⟩ : Auth).ty = auth.ty := by
          rw [← kty, hss]; rfl
        rw [e2, k2, hrw.auth, hb] at e1
        exact (Option.some.inj e1).symm
      have hparts := setAuth_parts g1 g2 g3 (g2 ▸ g5) hlen
      refine ⟨a, r, auth, s, ha, hr, k1, k2, k3, hss, hauth, by omega, ?_, ?_, ?_⟩
      · rw [hb, Mem.setData_data]
        show ({ w.parts with roles := put (encRoles 0 w.roles) (rolesSize before + 16) b } : Parts).bytes = _
        rw [hparts, Wallet.parts_bytes]
      · rw [hb]
        refine Wallet.setAuth_wf hw _ _ ?_
        intro x hx hxid
        have : w.role? a.role = some x := hw.role?_iff.mpr ⟨hx, hxid⟩
        rw [hr] at this
        cases this
        exact hlen
      · rw [Mem.setData_data]
  · rw [show w.parts.roles = encRoles 0 w.roles from rfl, g2] at hro
    cases hro

theorem claimer_parse_length {ix : Bytes} {a : ClaimerIx} (h : parseClaimer ix = .ok a) : a.claimer.length = 32 := by
  unfold parseClaimer at h
  split at h
  · cases h
  · cases h; rw [sl_length_of_le (by omega)]

theorem setRentClaimerV1_enc {env : Env} {m m' : Mem} {swig payer sys : Meta} {rest : List Meta} {ix : Bytes} {w : Wallet}
    (hw : w.WF) (hd : (m swig.key).data = w.encode)
    (h : setRentClaimerV1 env m (swig :: payer :: sys :: rest) ix = .ok m') :
    ∃ a r wallet, parseClaimer ix = .ok a ∧
      ActsAs env m (swig :: payer :: sys :: rest) w a.role a.authPayload a.dataPayload r ∧
      (r.holds P.all ∨ r.holds P.closeSwigAuthority) ∧ a.claimer ≠ zeros 32 ∧ a.claimer ≠ swig.key ∧
      env.pda (walletSeeds swig.key ++ [[w.walletBump]]) = some wallet ∧ a.claimer ≠ wallet ∧ w.claimer = none ∧
      (m' swig.key).data = ((w.used a.role).setClaimer a.claimer).encode ∧
      ((w.used a.role).setClaimer a.claimer).WF ∧ OnlyData m m' swig.key := by
  simp only [setRentClaimerV1] at h
  obtain ⟨_, _, h⟩ := bind_ok_iff.mp h
  obtain ⟨_, _, h⟩ := bind_ok_iff.mp h
  obtain ⟨a, ha, h⟩ := bind_ok_iff.mp h
  obtain ⟨_, c1, h⟩ := bind_ok_iff.mp h
  obtain ⟨_, c2, h⟩ := bind_ok_iff.mp h
  rw [hd, openSwig_enc hw] at h
  simp only [ok_bind] at h
  obtain ⟨wallet, hwal, h⟩ := bind_ok_iff.mp h
  obtain ⟨_, c3, h⟩ := bind_ok_iff.mp h
  obtain ⟨⟨p, v⟩, hact, h⟩ := bind_ok_iff.mp h
  obtain ⟨r, hr1, hr2, rfl, hr4, hr5⟩ := actAs_enc hw hact
  simp only at h
  rw [hr4, hasMarker_enc hw (role?_mem hr1).1 (by decide), hasMarker_enc hw (role?_mem hr1).1 (by decide)] at h
  simp only [ok_bind] at h
  obtain ⟨_, hperm, h⟩ := bind_ok_iff.mp h
  have hperm := require_ok_iff.mp hperm
  rw [decide_eq_true_iff, decide_eq_true_iff] at hperm
  obtain ⟨old, hold, h⟩ := bind_ok_iff.mp h
  obtain ⟨_, hnone, h⟩ := bind_ok_iff.mp h
  have hnone := require_ok_iff.mp hnone
  rw [hnone] at hold
  have hw1 := Wallet.used_wf hw a.role
  have hcl : w.claimer = none := by
    have e := claimerReadStrict_enc hw.claimer
    rw [show (w.used a.role).parts.tail = encTail w.claimer from rfl, e] at hold
    exact Except.ok.inj hold
  have hlen := Wallet.used_encode_length hw a.role
  rw [← hlen, Wallet.parts_bytes] at h
  obtain ⟨m1, hre, h⟩ := bind_ok_iff.mp h
  obtain ⟨hmax, rfl⟩ := realloc_ok hre
  obtain ⟨m2, htop, h⟩ := bind_ok_iff.mp h
  obtain ⟨d, hwr, h⟩ := bind_ok_iff.mp h
  cases h
  have ht2 := topUp_data htop
  rw [(ht2 swig.key).1] at hwr
  simp only [Mem.setData_data] at hwr
  obtain ⟨_, rfl⟩ := write_eq_ok hwr
  have hclen := claimer_parse_length ha
  have hres : resize (w.used a.role).encode ((w.used a.role).encode.length + 40) = (w.used a.role).encode ++ (zeros 40 ++ []) := by
    unfold resize
    rw [List.take_of_length_le (by omega)]
    simp
  have hcl' : (w.used a.role).claimer = none := hcl
  have hput : put (resize (w.used a.role).encode ((w.used a.role).encode.length + 40)) (w.used a.role).encode.length
      (claimerEntry a.claimer) = ((w.used a.role).setClaimer a.claimer).encode := by
    rw [hres, put_mid _ _ _ _ (by simp [claimerEntry, hclen])]
    rw [show ((w.used a.role).setClaimer a.claimer).encode =
      (w.used a.role).header.encode ++ (encRoles 0 (w.used a.role).roles ++ encTail (some a.claimer)) from rfl]
    unfold Wallet.encode
    rw [hcl']
    have he : claimerEntry a.claimer = encTail (some a.claimer) := rfl
    simp [he, encTail]
  refine ⟨a, r, wallet, ha, ⟨hr1, hr2⟩, hperm, require_ok_iff.mp c1, require_ok_iff.mp c2, orErr_ok hwal, require_ok_iff.mp c3, hcl,
    ?_, ?_, ?_⟩
  · rw [Mem.setData_data, hput]
  · exact ⟨hw1.idLen, hw1.padLen, hw1.counter, hw1.subCounter, hw1.count, hw1.roles, hw1.idsNodup, hw1.idsLt,
      fun k hk => by cases hk; exact hclen, hw1.size⟩
  · intro x
    have := ht2 x
    constructor
    · simp [this.2]
    · intro hx
      rw [Mem.setData_other _ _ hx, this.1, Mem.setData_other _ _ hx, Mem.setData_other _ _ hx]

/-! ## Signer replacement -/

theorem replaceTargetGo_enc (env : Env) (swig : Key) (acting target : Nat) (newAuth : Bytes) (proof : Option (Key × Bytes))
    (r : Role) (after : List Role) (hrid : r.id = target) :
    ∀ (before : List Role) (pre : Bytes), RolesOk pre.length (before ++ r :: after) → (∀ x ∈ before, x.id ≠ target) →
    replaceTargetGo env swig acting target newAuth proof (pre ++ encRoles pre.length (before ++ r :: after))
      (before ++ r :: after).length pre.length =
      (do
        let new ← normalizeSigner r.authType newAuth
        replaceChecks env swig acting target r.authType (sl r.auth 0 (signerLen r.authType)) new proof
        .ok (put (pre ++ encRoles pre.length (before ++ r :: after)) (pre.length + rolesSize before + 16)
          (replacedAuth r.authType r.auth new))) := by
  intro before
  induction before with
  | nil =>
    intro pre h _
    simp only [List.nil_append] at h ⊢
    obtain ⟨h1, h2, h3, h4⟩ := h.head
    obtain ⟨f1, f2, _, f4, f5⟩ := encRole_fields pre (encRoles (pre.length + r.size) after ++ []) r h1 h2 h3
    rw [← roles_step', List.append_nil] at f1 f2 f4 f5
    have hlen : (pre ++ encRoles pre.length (r :: after)).length = pre.length + (r.size + rolesSize after) := by simp
    have hs : r.size = 16 + r.auth.length + actsSize r.actions := rfl
    have hsl : slice (pre ++ encRoles pre.length (r :: after)) (pre.length + 16) (pre.length + 16 + r.auth.length) = .ok r.auth := by
      rw [slice_ok (by omega) (by rw [hlen]; omega)]
      congr 1
      have e : pre ++ encRoles pre.length (r :: after) =
          (pre ++ encPos r.authType r.auth.length r.actions.length r.id (pre.length + r.size)) ++
            (r.auth ++ (encActs 0 r.actions ++ encRoles (pre.length + r.size) after)) := by
        simp [encRoles, encRole]
      rw [e]
      exact sl_mid _ _ _ (by simp [encPos]) (by simp [encPos])
    simp only [List.length_cons, replaceTargetGo, f1, f4, hlen]
    rw [if_neg (by omega), if_pos hrid, authTypeOf_ok h1.auth]
    simp only [ok_bind, h1.auth, orErr, hsl, rolesSize_nil, Nat.add_zero]
  | cons b before ih =>
    intro pre h hid
    simp only [List.cons_append] at h ⊢
    obtain ⟨h1, h2, h3, h4⟩ := h.head
    obtain ⟨_, f2, _, f4, f5⟩ := encRole_fields pre (encRoles (pre.length + b.size) (before ++ r :: after) ++ []) b h1 h2 h3
    rw [← roles_step', List.append_nil] at f2 f4 f5
    have hlen : (pre ++ encRoles pre.length (b :: (before ++ r :: after))).length =
        pre.length + (b.size + rolesSize (before ++ r :: after)) := by simp
    have hs : b.size = 16 + b.auth.length + actsSize b.actions := rfl
    simp only [List.length_cons, replaceTargetGo, f4, f5, hlen]
    rw [if_neg (by omega), if_neg (hid b (by simp))]
    have e : (pre ++ encRole pre.length b).length = pre.length + b.size := by simp
    have hstep : pre ++ encRoles pre.length (b :: (before ++ r :: after)) =
        (pre ++ encRole pre.length b) ++ encRoles (pre ++ encRole pre.length b).length (before ++ r :: after) := by
      have := roles_step pre [] b (before ++ r :: after)
      simpa using this
    have := ih (pre ++ encRole pre.length b) (by simpa using h4) (fun x hx => hid x (by simp [hx]))
    rw [← hstep, e] at this
    rw [this]
    simp [Nat.add_assoc]

theorem replaceTargetGo_absent (env : Env) (swig : Key) (acting target : Nat) (newAuth : Bytes) (proof : Option (Key × Bytes)) :
    ∀ (rs : List Role) (pre : Bytes), RolesOk pre.length rs → (∀ x ∈ rs, x.id ≠ target) →
    replaceTargetGo env swig acting target newAuth proof (pre ++ encRoles pre.length rs) rs.length pre.length =
      .error E.invalidAuthorityNotFoundByRoleId := by
  intro rs
  induction rs with
  | nil => intro pre _ _; simp [replaceTargetGo]
  | cons b rs ih =>
    intro pre h hid
    obtain ⟨h1, h2, h3, h4⟩ := h.head
    obtain ⟨_, f2, _, f4, f5⟩ := encRole_fields pre (encRoles (pre.length + b.size) rs ++ []) b h1 h2 h3
    rw [← roles_step', List.append_nil] at f2 f4 f5
    have hlen : (pre ++ encRoles pre.length (b :: rs)).length = pre.length + (b.size + rolesSize rs) := by simp
    have hs : b.size = 16 + b.auth.length + actsSize b.actions := rfl
    simp only [List.length_cons, replaceTargetGo, f4, f5, hlen]
    rw [if_neg (by omega), if_neg (hid b (by simp))]
    have e : (pre ++ encRole pre.length b).length = pre.length + b.size := by simp
    have hstep : pre ++ encRoles pre.length (b :: rs) =
        (pre ++ encRole pre.length b) ++ encRoles (pre ++ encRole pre.length b).length rs := by
      have := roles_step pre [] b rs
      simpa using this
    have := ih (pre ++ encRole pre.length b) (by simpa using h4) (fun x hx => hid x (by simp [hx]))
    rw [← hstep, e] at this
    exact this

/-- The key to store, in terms of the decoded credential. -/
theorem normalizeSigner_enc (a : Auth) (new k : Bytes) : normalizeSigner a.ty new = .ok k ↔ a.cred.newKey new = some k := by
  cases a with
  | mk c s =>
    cases c <;> cases s <;>
    simp only [normalizeSigner, Auth.ty, Cred.newKey, Option.isSome_none, Option.isSome_some, T.ed25519, T.ed25519Session,
      T.secp256k1, T.secp256k1Session, T.secp256r1, T.secp256r1Session] <;> simp <;> (try split) <;> (try split) <;> simp_all

theorem newKey_length {c : Cred} {new k : Bytes} (h : c.newKey new = some k) (hw : c.WF) : k.length = c.key.length := by
  cases c with
  | ed25519 pk =>
    simp only [Cred.newKey] at h
    split at h <;> cases h
    simp only [Cred.WF] at hw
    simp [Cred.key, *]
  | secp256k1 pk pad n =>
    simp only [Cred.newKey, Cred.WF] at h hw
    split at h
    · cases h; simp [Cred.key, *]
    · split at h <;> cases h
      rw [compressKey_length _ (by omega)]
      simp [Cred.key, *]
  | secp256r1 pk pad n =>
    simp only [Cred.newKey, Cred.WF] at h hw
    split at h <;> cases h
    simp [Cred.key, *]
  | exec => cases h

theorem signer_enc {a : Auth} (hw : a.WF) {new k : Bytes} (h : a.cred.newKey new = some k) :
    sl a.encode 0 (signerLen a.ty) = a.cred.key := by
  cases a with
  | mk c s =>
    have hc := hw.cred
    cases c with
    | exec => cases h
    | ed25519 pk =>
      have e : signerLen (Auth.ty ⟨.ed25519 pk, s⟩) = 32 := by cases s <;> rfl
      simp only [Cred.WF] at hc
      rw [e]
      unfold Auth.encode Cred.encode Cred.key
      simp only
      rw [sl_left _ _ _ _ (by omega), ← hc, sl_full]
    | secp256k1 pk pad n =>
      have e : signerLen (Auth.ty ⟨.secp256k1 pk pad n, s⟩) = 33 := by cases s <;> rfl
      simp only [Cred.WF] at hc
      rw [e]
      unfold Auth.encode Cred.encode Cred.key
      simp only [List.append_assoc]
      rw [sl_left _ _ _ _ (by omega), ← hc.1, sl_full]
    | secp256r1 pk pad n =>
      have e : signerLen (Auth.ty ⟨.secp256r1 pk pad n, s⟩) = 33 := by cases s <;> rfl
      simp only [Cred.WF] at hc
      rw [e]
      unfold Auth.encode Cred.encode Cred.key
      simp only [List.append_assoc]
      rw [sl_left _ _ _ _ (by omega), ← hc.1, sl_full]

theorem Auth.withKey_ty (a : Auth) (k : Bytes) : (a.withKey k).ty = a.ty := by
  cases a with | mk c s => cases c <;> cases s <;> rfl

theorem Auth.withKey_wf {a : Auth} (hw : a.WF) {new k : Bytes} (h : a.cred.newKey new = some k) : (a.withKey k).WF := by
  have hl := newKey_length h hw.cred
  cases a with
  | mk c s =>
    have hc := hw.cred
    refine ⟨?_, ?_⟩
    · cases c <;> simp only [Cred.WF, Auth.withKey, Cred.withKey, Cred.key] at * <;> first | omega | exact ⟨by omega, hc.2.1, by decide⟩ | exact hc
    · intro t ht
      cases s with
      | none => cases ht
      | some s =>
        cases ht
        exact ⟨by simp, (hw.session s rfl).max, by show (0 : Nat) < 2 ^ 64; decide⟩

theorem session_clear (pre : Bytes) (s : Session) (hs : s.WF) :
    put (put (pre ++ s.encode) pre.length (zeros 32)) (pre.length + 40) (zeros 8) =
      pre ++ (⟨zeros 32, s.max, 0⟩ : Session).encode := by
  unfold Session.encode
  have e1 : pre ++ (s.key ++ natLE 8 s.max ++ natLE 8 s.expiry) = pre ++ (s.key ++ (natLE 8 s.max ++ natLE 8 s.expiry)) := by simp
  rw [e1, put_mid _ _ _ _ (by simp [hs.key])]
  have e2 : pre ++ (zeros 32 ++ (natLE 8 s.max ++ natLE 8 s.expiry)) = (pre ++ zeros 32 ++ natLE 8 s.max) ++ (natLE 8 s.expiry ++ []) := by
    simp
  rw [e2, put_mid' _ _ _ _ (by simp) (by simp)]
  simp [natLE8_zero]

def Session.bytes? : Option Session → Bytes
  | none => []
  | some s => s.encode

theorem Auth.encode_bytes? (a : Auth) : a.encode = a.cred.encode ++ Session.bytes? a.session := by
  unfold Auth.encode Session.bytes?
  cases a.session <;> rfl

theorem Cred.withKey_length {c : Cred} (hc : c.WF) {k : Bytes} (hk : (c.withKey k).WF) :
    (c.withKey k).encode.length = c.encode.length := by
  rw [Cred.encode_length hc, Cred.encode_length hk]
  cases c <;> rfl

theorem replacedAuth_enc {a : Auth} (hw : a.WF) {new k : Bytes} (h : a.cred.newKey new = some k) :
    replacedAuth a.ty a.encode k = (a.withKey k).encode := by
  have hl := newKey_length h hw.cred
  have hcl := Cred.encode_length hw.cred
  -- the main credential
  have hmain : (if a.ty = T.ed25519 ∨ a.ty = T.ed25519Session then put a.encode 0 k else put (put a.encode 0 k) 36 (zeros 4)) =
      (a.cred.withKey k).encode ++ Session.bytes? a.session := by
    cases a with
    | mk c s =>
      have hc := hw.cred
      cases c with
      | exec => cases h
      | ed25519 pk =>
        rw [if_pos (by cases s <;> simp [Auth.ty, T.ed25519, T.ed25519Session])]
        rw [Auth.encode_bytes?]
        simp only [Cred.encode, Cred.withKey]
        exact put_mid' [] pk _ k rfl hl
      | secp256k1 pk pad n =>
        rw [if_neg (by cases s <;> simp [Auth.ty, T.ed25519, T.ed25519Session])]
        simp only [Cred.WF] at hc
        simp only [Cred.key] at hl
        rw [Auth.encode_bytes?]
        simp only [Cred.encode, Cred.withKey, List.append_assoc]
        have e := put_mid' [] pk (pad ++ (natLE 4 n ++ (Session.bytes? s))) k (i := 0) rfl hl
        simp only [List.nil_append] at e
        rw [e]
        have e2 := put_mid' (k ++ pad) (natLE 4 n) (Session.bytes? s) (zeros 4) (i := 36)
          (by simp; omega) (by simp)
        simp only [List.append_assoc] at e2
        rw [e2, natLE4_zero]
      | secp256r1 pk pad n =>
        rw [if_neg (by cases s <;> simp [Auth.ty, T.ed25519, T.ed25519Session])]
        simp only [Cred.WF] at hc
        simp only [Cred.key] at hl
        rw [Auth.encode_bytes?]
        simp only [Cred.encode, Cred.withKey, List.append_assoc]
        have e := put_mid' [] pk (pad ++ (natLE 4 n ++ (Session.bytes? s))) k (i := 0) rfl hl
        simp only [List.nil_append] at e
        rw [e]
        have e2 := put_mid' (k ++ pad) (natLE 4 n) (Session.bytes? s) (zeros 4) (i := 36)
          (by simp; omega) (by simp)
        simp only [List.append_assoc] at e2
        rw [e2, natLE4_zero]
  unfold replacedAuth
  simp only
  rw [hmain, Auth.sessionBased_iff]
  cases hs : a.session with
  | none => simp [Auth.encode_bytes?, Session.bytes?, Auth.withKey, hs]
  | some s =>
    have ho := Auth.sessionOff_eq hw hs
    have hwk := Auth.withKey_wf hw h
    have ho2 : (a.cred.withKey k).encode.length = a.cred.encode.length := Cred.withKey_length hw.cred hwk.cred
    simp only [Option.isSome_some, if_true]
    rw [ho, ← ho2, show Session.bytes? (some s) = s.encode from rfl, session_clear _ _ (hw.session s hs)]
    simp [Auth.encode_bytes?, Session.bytes?, Auth.withKey, hs]

end Verif
