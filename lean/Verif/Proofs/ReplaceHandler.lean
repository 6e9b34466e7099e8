import Verif.Proofs.CredHandlers

/-! Refinement of signer replacement, of creation and of the grant made to a sub-account creator. -/

namespace Verif

/-- The role holds a permission of the type for exactly this key. -/
def Role.holdsFor (r : Role) (ty : Nat) (key : Bytes) : Prop := ∃ a ∈ r.actions, a.ty = ty ∧ keyOf ty a.data = key

instance (r : Role) (ty : Nat) (key : Bytes) : Decidable (r.holdsFor ty key) := inferInstanceAs (Decidable (∃ _ ∈ _, _))

theorem grant?_keyed {r : Role} {ty : Nat} (hn : repeatable ty = true) (key : Bytes) :
    (r.grant? ty key).isSome = decide (r.holdsFor ty key) := by
  rw [Bool.eq_iff_iff, decide_eq_true_iff]
  unfold Role.grant? Role.holdsFor
  simp [Act.grants, hn]

theorem hasKeyed_enc {w : Wallet} (hw : w.WF) {r : Role} (hr : r ∈ w.roles) {ty : Nat} {key : Bytes} (hn : repeatable ty = true)
    (hk : key.length = keyLen ty) : hasAction ty key (encActs 0 r.actions) = .ok (decide (r.holdsFor ty key)) := by
  rw [hasAction_enc (hw.roles r hr) (fun _ => hk) (hw.actsSize_lt hr).2, grant?_keyed hn]

theorem mayReplace_enc {w : Wallet} (hw : w.WF) {r : Role} (hr : r ∈ w.roles) {target : Nat}
    (h : mayReplace (encActs 0 r.actions) target = .ok true) :
    r.holds P.all ∨ r.holds P.manageAuthority ∨ r.holdsFor P.replaceAuthority (natLE 4 target) := by
  unfold mayReplace at h
  rw [hasMarker_enc hw hr (by decide), hasMarker_enc hw hr (by decide),
    hasKeyed_enc hw hr (by decide) (by simp [keyLen, P.replaceAuthority, P.tokenDestinationLimit, P.tokenRecurringDestinationLimit])] at h
  simp only [ok_bind, decide_eq_true_iff] at h
  by_cases h1 : r.holds P.all
  · exact Or.inl h1
  · rw [if_neg h1] at h
    by_cases h2 : r.holds P.manageAuthority
    · exact Or.inr (Or.inl h2)
    · rw [if_neg h2] at h
      exact Or.inr (Or.inr (of_decide_eq_true (Except.ok.inj h)))

/-- The used record, in terms of the decoded credential: the counter moves on for roles without a session. -/
theorem usedCred_enc {a : Auth} (hw : a.WF) :
    usedCred a.ty a.encode = (if a.session = none then (⟨a.cred.used, none⟩ : Auth) else a).encode := by
  have hsecp : ∀ (pk pad : Bytes) (n : Nat), pk.length = 33 → pad.length = 3 → n < 2 ^ 32 →
      (pk ++ pad ++ natLE 4 n).take 36 ++ natLE 4 (leNat ((pk ++ pad ++ natLE 4 n).drop 36) + 1) =
        pk ++ pad ++ natLE 4 ((n + 1) % 2 ^ 32) := by
    intro pk pad n h1 h2 h3
    rw [List.take_left' (by simp; omega), List.drop_left' (by simp; omega), leNat_natLE_of_lt (by simpa using h3)]
    congr 1
    apply leNat_inj (by simp)
    rw [leNat_natLE, leNat_natLE]
    simp
  cases a with
  | mk c s =>
    have hc := hw.cred
    cases s with
    | some s =>
      have : ¬ ((⟨c, some s⟩ : Auth).ty = 3 ∨ (⟨c, some s⟩ : Auth).ty = 5) := by cases c <;> simp [Auth.ty]
      unfold usedCred
      rw [if_neg this]
      simp
    | none =>
      cases c with
      | ed25519 => rfl
      | exec => rfl
      | secp256k1 pk pad n =>
        simp only [Cred.WF] at hc
        have := hsecp pk pad n hc.1 hc.2.1 hc.2.2
        simpa [usedCred, Auth.ty, Auth.encode, Cred.encode, Cred.used] using this
      | secp256r1 pk pad n =>
        simp only [Cred.WF] at hc
        have := hsecp pk pad n hc.1 hc.2.1 hc.2.2
        simpa [usedCred, Auth.ty, Auth.encode, Cred.encode, Cred.used] using this

theorem Cred.used_key (c : Cred) : c.used.key = c.key := by cases c <;> rfl
theorem Cred.used_newKey (c : Cred) (n : Bytes) : c.used.newKey n = c.newKey n := by cases c <;> rfl
theorem Cred.used_withKey (c : Cred) (n : Bytes) : c.used.withKey n = c.withKey n := by cases c <;> rfl

/-- What the proof of a program-execution role must be. -/
def ProofOk (env : Env) (m : Mem) (metas : List Meta) (swig : Key) (a : ReplaceIx) (ty : Nat) (current new : Bytes) : Prop :=
  ∃ wallet hash, (metas[1]?.map (·.key)) = some wallet ∧
    loadProof env m ⟨swig, (metas.headD ⟨[], false, false⟩).signer, (metas.headD ⟨[], false, false⟩).writable⟩
      (metas.getD 1 ⟨[], false, false⟩) metas a.authPayload = .ok (wallet, hash) ∧
    env.sha256 (proofPreimage swig wallet a.acting a.target ty current new) = hash

theorem loadProof_wallet {env : Env} {m : Mem} {swig wallet : Meta} {metas : List Meta} {payload : Bytes} {k : Key} {hash : Bytes}
    (h : loadProof env m swig wallet metas payload = .ok (k, hash)) : k = wallet.key := by
  unfold loadProof at h
  obtain ⟨_, _, h⟩ := bind_ok_iff.mp h
  obtain ⟨_, _, h⟩ := bind_ok_iff.mp h
  obtain ⟨_, _, h⟩ := bind_ok_iff.mp h
  obtain ⟨_, _, h⟩ := bind_ok_iff.mp h
  obtain ⟨_, _, h⟩ := bind_ok_iff.mp h
  obtain ⟨_, _, h⟩ := bind_ok_iff.mp h
  obtain ⟨_, _, h⟩ := bind_ok_iff.mp h
  obtain ⟨_, _, h⟩ := bind_ok_iff.mp h
  obtain ⟨_, _, h⟩ := bind_ok_iff.mp h
  obtain ⟨_, _, h⟩ := bind_ok_iff.mp h
  obtain ⟨_, _, h⟩ := bind_ok_iff.mp h
  obtain ⟨_, _, h⟩ := bind_ok_iff.mp h
  obtain ⟨_, _, h⟩ := bind_ok_iff.mp h
  obtain ⟨_, _, h⟩ := bind_ok_iff.mp h
  obtain ⟨_, _, h⟩ := bind_ok_iff.mp h
  obtain ⟨_, _, h⟩ := bind_ok_iff.mp h
  obtain ⟨_, _, h⟩ := bind_ok_iff.mp h
  cases h
  rfl

theorem getOr_ok {α : Type} {l : List α} {i : Nat} {e : Err} {a : α} (h : getOr l i e = .ok a) : l[i]? = some a := by
  unfold getOr at h
  cases hl : l[i]? with
  | none => rw [hl] at h; cases h
  | some b => rw [hl] at h; cases h; rfl

theorem replaceAuthorityV1_enc {env : Env} {m m' : Mem} {swig : Meta} {rest : List Meta} {ix : Bytes} {w : Wallet}
    (hw : w.WF) (hd : (m swig.key).data = w.encode)
    (h : replaceAuthorityV1 env m (swig :: rest) ix = .ok m') :
    ∃ (a : ReplaceIx) (r t : Role) (auth : Auth) (key : Bytes), parseReplace ix = .ok a ∧
      ActsAs env m (swig :: rest) w a.acting a.authPayload a.dataPayload r ∧
      (r.holds P.all ∨ r.holds P.manageAuthority ∨ r.holdsFor P.replaceAuthority (natLE 4 a.target)) ∧
      w.role? a.target = some t ∧ auth.WF ∧ auth.ty = t.authType ∧ auth.encode = t.auth ∧
      auth.cred.newKey a.newAuth = some key ∧ auth.cred.key ≠ key ∧
      (r.authType = T.programExec → ProofOk env m (swig :: rest) swig.key a t.authType auth.cred.key key) ∧
      (m' swig.key).data = ((w.used a.acting).setAuth a.target (auth.withKey key).encode).encode ∧
      ((w.used a.acting).setAuth a.target (auth.withKey key).encode).WF ∧
      m' = m.setData swig.key (m' swig.key).data := by
  simp only [replaceAuthorityV1] at h
  obtain ⟨_, _, h⟩ := bind_ok_iff.mp h
  obtain ⟨a, ha, h⟩ := bind_ok_iff.mp h
  rw [hd, openSwig_enc hw] at h
  simp only [ok_bind] at h
  obtain ⟨⟨p, v⟩, hact, h⟩ := bind_ok_iff.mp h
  obtain ⟨r, hr1, hr2, hp, hr4, hr5⟩ := actAs_enc hw hact
  simp only at h
  rw [hp, hr4, hr5] at h
  obtain ⟨ok, hok, h⟩ := bind_ok_iff.mp h
  obtain ⟨_, hperm, h⟩ := bind_ok_iff.mp h
  have hperm := require_ok_iff.mp hperm
  rw [hperm] at hok
  have hmay := mayReplace_enc hw (role?_mem hr1).1 hok
  obtain ⟨proof, hproof, h⟩ := bind_ok_iff.mp h
  obtain ⟨roles, hrep, h⟩ := bind_ok_iff.mp h
  have h := (Except.ok.inj h).symm
  have hw1 := Wallet.used_wf hw a.acting
  rw [show (w.used a.acting).parts.header.roles = (w.used a.acting).roles.length from rfl,
    show (w.used a.acting).parts.roles = encRoles 0 (w.used a.acting).roles from rfl] at hrep
  rcases getMutRole_enc a.target (w.used a.acting).roles hw1.rolesOk with ⟨t1, before, after, g1, g2, g3, _⟩ | ⟨g1, _⟩
  · have hgo := replaceTargetGo_enc env swig.key a.acting a.target a.newAuth proof t1 after g2 before []
      (by rw [← g1]; exact hw1.rolesOk) g3
    simp only [List.nil_append, List.length_nil, Nat.zero_add, ← g1] at hgo
    rw [hgo] at hrep
    obtain ⟨key, hkey, hrep⟩ := bind_ok_iff.mp hrep
    obtain ⟨_, hchk, hrep⟩ := bind_ok_iff.mp hrep
    have hrep := (Except.ok.inj hrep).symm
    have ht1 : (w.used a.acting).role? a.target = some t1 := role?_split g1 g2 g3
    obtain ⟨t, ht, hsz, hty, hacts, hauth⟩ := Wallet.used_role_inv hw ht1
    have htw := hw.roles t (role?_mem ht).1
    obtain ⟨auth, k1, k2, k3⟩ := Auth.decode t.authType t.auth htw.auth
    -- the credential as found after the acting role was authenticated
    have hau : ∃ auth1 : Auth, auth1.WF ∧ auth1.ty = t.authType ∧ auth1.encode = t1.auth ∧ auth1.cred.key = auth.cred.key ∧
        (∀ n, auth1.cred.newKey n = auth.cred.newKey n) ∧ (∀ n, auth1.withKey n = auth.withKey n) := by
      rw [hauth]
      by_cases hid : a.target = a.acting
      · rw [if_pos hid, ← k2, ← k3, usedCred_enc k1]
        by_cases hs : auth.session = none
        · refine ⟨⟨auth.cred.used, none⟩, ⟨Cred.used_wf k1.cred, by simp⟩, ?_, by rw [if_pos hs], Cred.used_key _,
            Cred.used_newKey _, ?_⟩
          · cases auth with | mk c s => cases hs; cases c <;> rfl
          · intro n; unfold Auth.withKey; rw [Cred.used_withKey, hs]
        · exact ⟨auth, k1, rfl, by rw [if_neg hs], rfl, fun _ => rfl, fun _ => rfl⟩
      · rw [if_neg hid]
        exact ⟨auth, k1, k2, k3, rfl, fun _ => rfl, fun _ => rfl⟩
    obtain ⟨auth1, q1, q2, q3, q4, q5, q6⟩ := hau
    rw [← hty, ← q2] at hkey
    have hnk := (normalizeSigner_enc auth1 a.newAuth key).mp hkey
    rw [← hty, ← q2, ← q3, signer_enc q1 hnk] at hchk
    rw [← hty, ← q2, ← q3, replacedAuth_enc q1 hnk, q6] at hrep
    unfold replaceChecks at hchk
    obtain ⟨_, hpr, hchk⟩ := bind_ok_iff.mp hchk
    have hpr := require_ok_iff.mp hpr
    have hne := require_ok_iff.mp hchk
    obtain ⟨_, g5⟩ := hw1.others g1
    have hnk' := hnk
    rw [q5] at hnk'
    have hlen : (auth.withKey key).encode.length = t1.auth.length := by
      have e1 := Auth.encode_length (Auth.withKey_wf k1 hnk')
      rw [Auth.withKey_ty, k2, htw.auth] at e1
      have e3 := Option.some.inj e1
      have e2 := Auth.encode_length q1
      rw [q2, htw.auth, q3] at e2
      have e4 := Option.some.inj e2
      omega
    have hparts := setAuth_parts g1 g2 g3 (g2 ▸ g5) hlen
    refine ⟨a, r, t, auth, key, ha, ⟨hr1, hr2⟩, hmay, ht, k1, k2, k3, hnk', ?_, ?_, ?_, ?_, ?_⟩
    · rw [← q4]; exact hne
    · intro hexec
      unfold requiredProof at hproof
      rw [if_pos hexec] at hproof
      obtain ⟨wal, hwal, hproof⟩ := bind_ok_iff.mp hproof
      obtain ⟨⟨wk, hash⟩, hload, hproof⟩ := bind_ok_iff.mp hproof
      have hproof := (Except.ok.inj hproof).symm
      rw [hproof] at hpr
      have hwal' := getOr_ok hwal
      have hwk := loadProof_wallet hload
      refine ⟨wk, hash, ?_, ?_, ?_⟩
      · rw [hwal', hwk]; rfl
      · have : (swig :: rest).getD 1 ⟨[], false, false⟩ = wal := by
          rw [List.getD_eq_getElem?_getD, hwal']; rfl
        rw [this]
        exact hload
      · simp only at hpr
        rw [q2, q4] at hpr
        exact eq_of_beq hpr
    · rw [h, Mem.setData_data, hrep]
      show ({ (w.used a.acting).parts with roles := put (encRoles 0 (w.used a.acting).roles) (rolesSize before + 16) (auth.withKey key).encode } : Parts).bytes = _
      rw [hparts, Wallet.parts_bytes]
    · refine Wallet.setAuth_wf hw1 _ _ ?_
      intro x hx hxid
      have : (w.used a.acting).role? a.target = some x := hw1.role?_iff.mpr ⟨hx, hxid⟩
      rw [ht1] at this
      cases this
      exact hlen
    · rw [h, Mem.setData_data]
  · have := replaceTargetGo_absent env swig.key a.acting a.target a.newAuth proof (w.used a.acting).roles [] hw1.rolesOk g1
    simp only [List.nil_append, List.length_nil] at this
    rw [this] at hrep
    cases hrep

/-! ## Creation -/

/-- The wallet before its first role. -/
def Wallet.blank (id : Key) (bump walletBump : UInt8) : Wallet := ⟨bump, id, 0, walletBump, zeros 3, 0, [], none⟩

theorem Wallet.blank_wf {id : Key} (h : id.length = 32) (b wb : UInt8) : (Wallet.blank id b wb).WF where
  idLen := h
  padLen := by simp [Wallet.blank]
  counter := by show (0 : Nat) < 2 ^ 32; decide
  subCounter := by show (0 : Nat) < 2 ^ 32; decide
  count := by show (0 : Nat) < 2 ^ 16; decide
  roles := by simp [Wallet.blank]
  idsNodup := by simp [Wallet.blank]
  idsLt := by simp [Wallet.blank]
  claimer := by simp [Wallet.blank]
  size := by simp [Wallet.blank, rolesSize]

theorem parseCreate_id {ix : Bytes} {c : CreateIx} (h : parseCreate ix = .ok c) : c.id.length = 32 := by
  unfold parseCreate at h
  split at h
  · cases h
  · simp only at h
    split at h
    · cases h
    · cases h; rw [sl_length_of_le (by omega)]

/-- The first role of a new account. -/
theorem createData_enc {c : CreateIx} {al n : Nat} {d : Bytes} (hid : c.id.length = 32) (hal : authLen c.authType = some al)
    (hn : n = align8 (48 + 16 + al + c.actions.length)) (hmax : n ≤ maxGrowth) (h : createData (zeros n) c = .ok d) :
    ∃ a as, initialAuth c.authType c.authData = some a ∧ Submits c.actions as ∧ (∀ x ∈ as, x.Fresh) ∧ 1 ≤ as.length ∧
      as.length ≤ 255 ∧ NoV2Dup as ∧
      d = ((Wallet.blank c.id c.bump c.walletBump).addRole c.authType a.encode as).encode ∧
      ((Wallet.blank c.id c.bump c.walletBump).addRole c.authType a.encode as).WF := by
  have hw := Wallet.blank_wf hid c.bump c.walletBump
  have hge : 48 + 16 + al + c.actions.length ≤ n := by rw [hn]; unfold align8; omega
  have halm := authLen_mod hal
  have hal' := authLen_lt hal
  unfold createData at h
  rw [if_neg (by simp; omega)] at h
  obtain ⟨s, h1, h2⟩ := bind_ok_iff.mp h
  have ez : (zeros n).drop 48 = encRoles 0 (Wallet.blank c.id c.bump c.walletBump).roles ++ zeros (n - 48) := by
    simp [zeros, Wallet.blank, encRoles]
  have eh : Header.new c.id c.bump c.walletBump = (Wallet.blank c.id c.bump c.walletBump).header := rfl
  rw [ez, eh] at h1
  obtain ⟨as, al', auth, g1, g2, g3, g4, g5, g6, g7, g8⟩ := addRole_ok hw.rolesOk rfl h1
  rw [hal] at g1; cases g1
  have hacts := g2.length
  have hamod := actsSize_mod (fun a ha => (g3 a ha).1 : ∀ a ∈ as, a.WF)
  have hnk : n - 48 = 16 + al + c.actions.length := by
    rw [align8_of_mod (by omega)] at hn
    omega
  have z1 : sl (zeros (n - 48)) 6 8 = zeros 2 := sl_zeros _ _ _ (by omega)
  have z2 : sl (sl (zeros (n - 48)) 16 (16 + al)) 24 al = zeros (al - 24) := by
    rw [sl_zeros _ _ _ (by omega), sl_zeros _ _ _ (by omega)]
  obtain ⟨a, ha1, ha2⟩ := (setAuthority_initial hal (by rw [sl_length_of_le (by simp; omega)]; omega) z2 auth).mp g7
  subst ha2
  rw [addRole_enc hw.rolesOk rfl hal g2 g3 g4 g5 g6 z1 (by simp; omega) g7] at h1
  have h1 := (Except.ok.inj h1).symm
  have hsz : rolesSize ((Wallet.blank c.id c.bump c.walletBump).addRole c.authType a.encode as).roles = n - 48 := by
    have := initialAuth_length ha1
    rw [hal] at this; cases this
    simp only [Wallet.addRole, Wallet.blank, rolesSize_append, rolesSize_cons, rolesSize_nil, Role.size]
    omega
  have hwf' := Wallet.addRole_wf hw ha1 (fun x hx => (g3 x hx).1) g4 g5 g6 (by simp [Wallet.blank]) (by simp [Wallet.blank])
    (by unfold maxGrowth at hmax; omega)
  refine ⟨a, as, ha1, g2, g3, g4, g5, g6, ?_, hwf'⟩
  have h2 := (Except.ok.inj h2).symm
  rw [h2, h1]
  have ejd : (zeros (n - 48)).drop (16 + al + c.actions.length) = [] := List.drop_eq_nil_of_le (by simp; omega)
  simp only [Builder.bytes, ejd]
  simp [Wallet.encode, Wallet.addRole, Wallet.blank, encTail, Wallet.header]

theorem createChecks_ok {env : Env} {m : Mem} {swig wallet : Meta} {ix : Bytes} {c : CreateIx} {al : Nat}
    (h : createChecks env m swig wallet ix = .ok (c, al)) :
    (m swig.key).owner = systemId ∧ (m swig.key).data = [] ∧ parseCreate ix = .ok c ∧
    env.pda (swigSeeds c.id ++ [[c.bump]]) = some swig.key ∧ (m wallet.key).owner = systemId ∧ (m wallet.key).data = [] ∧
    env.pda (walletSeeds swig.key ++ [[c.walletBump]]) = some wallet.key ∧
    (findActionGo P.manageAuthority 0 c.actions c.actions.length 0 = .ok true ∨
      findActionGo P.all 0 c.actions c.actions.length 0 = .ok true) ∧ authLen c.authType = some al := by
  have hpda : ∀ {seeds : List Bytes} {b : UInt8} {t : Key} {e : Err} {x : UInt8}, checkSelfPda env seeds b t e = .ok x →
      env.pda (seeds ++ [[b]]) = some t := by
    intro seeds b t e x hx
    unfold checkSelfPda at hx
    split at hx
    · cases hx
    · split at hx
      · rename_i hk he; rw [hk, he]
      · cases hx
  unfold createChecks at h
  obtain ⟨_, h1, h⟩ := bind_ok_iff.mp h
  obtain ⟨_, h2, h⟩ := bind_ok_iff.mp h
  obtain ⟨c', h3, h⟩ := bind_ok_iff.mp h
  obtain ⟨_, h4, h⟩ := bind_ok_iff.mp h
  obtain ⟨_, h5, h⟩ := bind_ok_iff.mp h
  obtain ⟨_, h6, h⟩ := bind_ok_iff.mp h
  obtain ⟨_, h7, h⟩ := bind_ok_iff.mp h
  obtain ⟨man, h8, h⟩ := bind_ok_iff.mp h
  obtain ⟨all, h9, h⟩ := bind_ok_iff.mp h
  obtain ⟨_, h10, h⟩ := bind_ok_iff.mp h
  obtain ⟨ty, h11, h⟩ := bind_ok_iff.mp h
  obtain ⟨al', h12, h⟩ := bind_ok_iff.mp h
  have h := Except.ok.inj h
  simp only [Prod.mk.injEq] at h
  obtain ⟨rfl, rfl⟩ := h
  have := authTypeOf_eq h11
  rw [this] at h12
  refine ⟨require_ok_iff.mp h1, List.length_eq_zero_iff.mp (require_ok_iff.mp h2), h3, hpda h4, require_ok_iff.mp h5,
    List.length_eq_zero_iff.mp (require_ok_iff.mp h6), hpda h7, ?_, orErr_ok h12⟩
  rcases require_ok_iff.mp h10 with e | e
  · rw [e] at h8; exact Or.inl h8
  · rw [e] at h9; exact Or.inr h9

theorem sysCreate_ok {m m' : Mem} {src dst : Meta} {l n : Nat} {o : Key} (h : sysCreate m src dst l n o = .ok m') :
    (m dst.key).lamports = 0 ∧ n ≤ maxGrowth ∧
    sysTransfer (m.set dst.key { owner := o, lamports := (m dst.key).lamports, data := zeros n }) src dst l = .ok m' := by
  unfold sysCreate at h
  split at h
  · cases h
  · split at h
    · cases h
    · rename_i hc
      split at h
      · cases h
      · exact ⟨by omega, by omega, h⟩

theorem createV1_enc {env : Env} {m m' : Mem} {swig payer wallet sys : Meta} {rest : List Meta} {ix : Bytes}
    (h : createV1 env m (swig :: payer :: wallet :: sys :: rest) ix = .ok m') :
    ∃ (c : CreateIx) (al : Nat) (a : Auth) (as : List Act), createChecks env m swig wallet ix = .ok (c, al) ∧
      initialAuth c.authType c.authData = some a ∧ Submits c.actions as ∧
      (∀ x ∈ as, x.Fresh) ∧ 1 ≤ as.length ∧ as.length ≤ 255 ∧ NoV2Dup as ∧
      (m' swig.key).data = ((Wallet.blank c.id c.bump c.walletBump).addRole c.authType a.encode as).encode ∧
      ((Wallet.blank c.id c.bump c.walletBump).addRole c.authType a.encode as).WF ∧
      (m' swig.key).owner = swigId ∧ (m swig.key).lamports = 0 ∧
      (∀ x, x ≠ swig.key → (m' x).data = (m x).data ∧ (m' x).owner = (m x).owner) := by
  simp only [createV1] at h
  obtain ⟨⟨c, al⟩, hchk, h⟩ := bind_ok_iff.mp h
  obtain ⟨_, _, hpc, _, _, _, _, _, hal⟩ := createChecks_ok hchk
  obtain ⟨m1, hcre, h⟩ := bind_ok_iff.mp h
  obtain ⟨hl0, hmax, htr⟩ := sysCreate_ok hcre
  obtain ⟨m2, hfund, h⟩ := bind_ok_iff.mp h
  obtain ⟨d, hdat, h⟩ := bind_ok_iff.mp h
  have h := (Except.ok.inj h).symm
  have e1 := sysTransfer_data htr
  have e2 : ∀ x, (m2 x).data = (m1 x).data ∧ (m2 x).owner = (m1 x).owner := by
    intro x
    unfold fundWallet at hfund
    simp only at hfund
    split at hfund
    · exact sysTransfer_data hfund x
    · cases hfund; simp
  have hz : (m2 swig.key).data = zeros (align8 (48 + 16 + al + c.actions.length)) := by
    rw [(e2 _).1, (e1 _).1, Mem.set_same]
  rw [hz] at hdat
  obtain ⟨a, as, g1, g2, g3, g4, g5, g6, g7, g8⟩ := createData_enc (parseCreate_id hpc) hal rfl hmax hdat
  refine ⟨c, al, a, as, hchk, g1, g2, g3, g4, g5, g6, ?_, g8, ?_, hl0, ?_⟩
  · rw [h, Mem.setData_data, g7]
  · rw [h, Mem.setData_owner, (e2 _).2, (e1 _).2, Mem.set_same]
  · intro x hx
    rw [h, Mem.setData_other _ _ hx]
    rw [(e2 _).1, (e1 _).1, (e2 _).2, (e1 _).2, Mem.set_other _ _ hx]
    simp

/-! ## Appending a grant -/

theorem appendActions_enc {env : Env} {m m' : Mem} {swig payer : Meta} {id : Nat} {acts : Bytes} {w : Wallet}
    (hw : w.WF) (hd : (m swig.key).data = w.encode) (h : appendActions env m swig payer id acts = .ok m') :
    ∃ t extra, w.role? id = some t ∧ Submits acts extra ∧ (∀ x ∈ t.actions ++ extra, x.Fresh) ∧
      (t.actions ++ extra).length ≤ 255 ∧ NoV2Dup (t.actions ++ extra) ∧
      (m' swig.key).data = (w.setActions id (t.actions ++ extra)).encode ∧
      (w.setActions id (t.actions ++ extra)).WF ∧ OnlyData m m' swig.key := by
  unfold appendActions at h
  rw [hd, openSwig_enc hw] at h
  simp only [ok_bind] at h
  obtain ⟨tail, ht, h⟩ := bind_ok_iff.mp h
  have htail : tail = encTail w.claimer := by
    have := savedTailTake_enc hw
    rw [show w.parts.tail = encTail w.claimer from rfl, this] at ht
    exact (Except.ok.inj ht).symm
  rw [htail] at h
  obtain ⟨⟨cur, authOff, actsOff⟩, hoff, h⟩ := bind_ok_iff.mp h
  have eh : w.parts.header.roles = w.roles.length := rfl
  have er : w.parts.roles = encRoles 0 w.roles := rfl
  rw [eh, er] at hoff
  rcases getMutRole_enc id w.roles hw.rolesOk with ⟨t, before, after, g1, g2, g3, _⟩ | ⟨g1, _⟩
  · have hok := hw.rolesOk
    have hfo := findOffsetsGo_enc id t after g2 before [] (by rw [← g1]; exact hok) g3
    simp only [List.nil_append, List.length_nil, Nat.zero_add, ← g1] at hfo
    rw [hfo] at hoff
    have hoff := Except.ok.inj hoff
    simp only [Prod.mk.injEq] at hoff
    obtain ⟨hc1, hc2, hc3⟩ := hoff
    dsimp only at h
    rw [← hc1, ← hc2, ← hc3] at h
    obtain ⟨m1, hgrow, h⟩ := bind_ok_iff.mp h
    obtain ⟨hod1, hgr⟩ := growFor_ok hgrow
    obtain ⟨⟨d, n⟩, hupd, h⟩ := bind_ok_iff.mp h
    have h := (Except.ok.inj h).symm
    have ht1 : w.role? id = some t := role?_split g1 g2 g3
    have htw : t.WF := hw.roles t (by simp [g1])
    have hmod1 := Wallet.encode_mod hw
    have hlen1 := Wallet.encode_length hw
    have hsz1 := hw.size
    have hroom : ∃ g, (m1 swig.key).data = w.encode ++ zeros g ∧ acts.length ≤ g ∧
        48 + rolesSize w.roles + 40 + g < 2 ^ 31 ∧ (acts.length % 8 = 0 → g = acts.length) := by
      rcases hgr with ⟨h0, rfl⟩ | ⟨hpos, hmax, hdat⟩
      · exact ⟨0, by simp [zeros, hd], by omega, by omega, by omega⟩
      · rw [hd] at hdat hmax
        refine ⟨_, hdat, ?_, ?_, ?_⟩
        · unfold align8; omega
        · unfold maxAccountLen at hmax; omega
        · intro hm; exact align8_sub rfl hmod1 hm
    obtain ⟨g, hdat, hg1, hg2, hg4⟩ := hroom
    rw [hdat, show w.parts.roles.length = rolesSize w.roles by simp [Wallet.parts]] at hupd
    obtain ⟨as, junk, k1, k2, k3, k4, k5, k6, k7, k8, k9, k10, k11⟩ := updateData_enc (op := .add acts) hw g1 g2 hg1 hg2 hupd
    obtain ⟨extra, hx1, hx2⟩ := k1
    subst hx2
    have hxl := hx1.length
    have hxm := actsSize_mod (fun x hx => (k2 x (by simp [hx])).1 : ∀ x ∈ extra, x.WF)
    have hgg := hg4 (by omega)
    have hss : actsSize (t.actions ++ extra) = actsSize t.actions + actsSize extra := actsSize_append _ _
    have hj : junk = [] := List.length_eq_zero_iff.mp (by omega)
    refine ⟨t, extra, ht1, hx1, k2, k4, k5, ?_, k11, ?_⟩
    · rw [h, Mem.setData_data, k9, hj]
      rfl
    · rw [h]
      exact hod1.trans (OnlyData.setData _ _ _)
  · have := findOffsetsGo_absent id w.roles [] hw.rolesOk g1
    simp only [List.nil_append, List.length_nil] at this
    rw [this] at hoff
    cases hoff

end Verif
