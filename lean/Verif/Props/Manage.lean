import Verif.Props.Roles
import Verif.Props.Auth

/-!
# Properties C12, C16, C26, C39 - C42: creation, rent claimer, sessions, signer replacement, rent

Same conventions as Verif/Props/Roles.lean.
-/

namespace Verif

/-! ## C12: the root role of a new wallet -/

theorem findActionGo_enc (ty len : Nat) : ∀ (as : List Act) (pre : Bytes) (fuel : Nat), (∀ a ∈ as, a.WF) →
    pre.length + actsSize as < 2 ^ 32 → findActionGo ty len (pre ++ encActs pre.length as) fuel pre.length = .ok true →
    ∃ a ∈ as, a.ty = ty := by
  intro as
  induction as with
  | nil =>
    intro pre fuel _ _ h
    cases fuel <;> simp [findActionGo, encActs] at h
  | cons a as ih =>
    intro pre fuel hwf hs h
    have hsz : actsSize (a :: as) = a.size + actsSize as := rfl
    obtain ⟨f1, f2, f3, _⟩ := act_fields pre a as (hwf a (by simp)) (by omega)
    by_cases ht : a.ty = ty
    · exact ⟨a, by simp, ht⟩
    · have hc : pre.length < (pre ++ encActs pre.length (a :: as)).length := by
        simp [encActs, Act.size]; omega
      have h8 : ¬ pre.length + 8 > (pre ++ encActs pre.length (a :: as)).length := by
        simp [encActs, Act.size]; omega
      cases fuel with
      | zero => unfold findActionGo at h; rw [if_pos hc] at h; cases h
      | succ fuel =>
        unfold findActionGo at h
        rw [if_pos hc, if_neg h8, f1, if_neg ht, f3] at h
        have hstep := acts_step pre [] a as
        simp only [List.append_nil] at hstep
        have e : pre.length + a.size = (pre ++ encAct (pre.length + a.size) a).length := by simp
        rw [hstep, e] at h
        have e2 : (pre ++ encAct (pre ++ encAct (pre.length + a.size) a).length a) = pre ++ encAct (pre.length + a.size) a := by
          rw [← e]
        rw [e2] at h
        obtain ⟨x, hx, hx2⟩ := ih _ fuel (fun y hy => hwf y (by simp [hy])) (by simp; omega) h
        exact ⟨x, by simp [hx], hx2⟩

/-- If the client serialises the root role's actions as the program itself does (each header naming the end of its own
action, as the client library in interface/ builds them), a wallet is created only when one of them is All or ManageAuthority; the root
role of the new wallet is the only role, has id 0 and stores exactly these actions.  Missing for the full claim:
requests with other boundary fields, see `C12_refuted`. -/
theorem C12_root_manages_partial {env : Env} {m m' : Mem} {swig payer wallet sys : Meta} {rest : List Meta} {ix : Bytes}
    {c : CreateIx} {as : List Act} (h : createV1 env m (swig :: payer :: wallet :: sys :: rest) ix = .ok m')
    (hc : parseCreate ix = .ok c) (hb : c.actions = encActs 0 as) (hwf : ∀ a ∈ as, a.WF) :
    ∃ (w : Wallet) (r : Role), w.WF ∧ (m' swig.key).data = w.encode ∧ w.roles = [r] ∧ r.id = 0 ∧ r.actions = as ∧
      ((∃ a ∈ r.actions, a.ty = P.all) ∨ ∃ a ∈ r.actions, a.ty = P.manageAuthority) := by
  obtain ⟨c', al, a, as', h1, h2, h3, h4, h5, h6, h7, h8, h9, _⟩ := createV1_enc h
  obtain ⟨_, _, k3, _, _, _, _, k8, k9⟩ := createChecks_ok h1
  rw [hc] at k3; cases k3
  have e : as' = as := h3.inj (hb ▸ Submits.encActs hwf 0)
  subst e
  refine ⟨_, _, h9, h8, rfl, rfl, rfl, ?_⟩
  have hsz : actsSize as' < 2 ^ 32 := by
    have := h9.size
    simp [Wallet.addRole, Wallet.blank, rolesSize, Role.size] at this
    omega
  rw [hb] at k8
  rcases k8 with k8 | k8
  · exact Or.inr (findActionGo_enc _ _ as' [] _ hwf (by simpa using hsz) (by simpa using k8))
  · exact Or.inl (findActionGo_enc _ _ as' [] _ hwf (by simpa using hsz) (by simpa using k8))

section
open Sample

/-- A creation request with a single Program permission.  Its header names as its end the offset 8, that is its own
payload, where the client has put the header of an All permission. -/
def trickIx : Bytes :=
  natLE 2 0 ++ natLE 2 1 ++ natLE 2 32 ++ [255, 254] ++ K 70 ++ K 10 ++
    (natLE 2 3 ++ natLE 2 32 ++ natLE 4 8 ++ (natLE 2 7 ++ natLE 2 0 ++ natLE 4 40 ++ zeros 24))

/-- The full claim is false: this request creates a wallet whose only role holds neither All nor ManageAuthority. -/
theorem C12_refuted : ∃ m' v, createV1 env mem0 createMetas trickIx = .ok m' ∧
    rd (m' (K 1)).data 34 2 = 1 ∧ getRole (m' (K 1)).data 0 = .ok (some v) ∧
    getAction P.all [] v.actions = .ok none ∧ getAction P.manageAuthority [] v.actions = .ok none := by
  have key : (match createV1 env mem0 createMetas trickIx with
    | .ok m' => (match getRole (m' (K 1)).data 0 with
      | .ok (some v) => decide (rd (m' (K 1)).data 34 2 = 1 ∧ getAction P.all [] v.actions = .ok none ∧
          getAction P.manageAuthority [] v.actions = .ok none)
      | _ => false)
    | _ => false) = true := by decide +kernel
  split at key
  · rename_i m' hm
    split at key
    · rename_i v hv
      have := of_decide_eq_true key
      exact ⟨m', v, hm, this.1, hv, this.2⟩
    · cases key
  · cases key

/-- A plain creation request meets the hypotheses of `C12_root_manages_partial`. -/
example : ∃ m' c, createV1 env mem0 createMetas createIx = .ok m' ∧ parseCreate createIx = .ok c ∧ c.actions = encActs 0 [⟨7, []⟩] := by
  obtain ⟨m', h⟩ := exists_of_ok (x := createV1 env mem0 createMetas createIx) (by decide +kernel)
  exact ⟨m', ⟨1, 255, 254, K 70, K 10, encActs 0 [⟨7, []⟩]⟩, h, by decide +kernel, rfl⟩
end

/-! ## C16: registering a rent claimer -/

section
variable {env : Env} {m m' : Mem} {swig payer sys : Meta} {rest : List Meta} {ix : Bytes} {w : Wallet}

theorem C16_claimer_guarded (hw : w.WF) (hd : (m swig.key).data = w.encode)
    (h : setRentClaimerV1 env m (swig :: payer :: sys :: rest) ix = .ok m') :
    ∃ (a : ClaimerIx) (r : Role) (wallet : Key), parseClaimer ix = .ok a ∧ w.role? a.role = some r ∧
      Sample.ok (authRole env r.authType r.auth (swig :: payer :: sys :: rest) (m instructionsSysvarId).data a.authPayload a.dataPayload) = true ∧
      ((∃ x ∈ r.actions, x.ty = P.all) ∨ ∃ x ∈ r.actions, x.ty = P.closeSwigAuthority) ∧
      a.claimer ≠ zeros 32 ∧ a.claimer ≠ swig.key ∧
      env.pda (walletSeeds swig.key ++ [[w.walletBump]]) = some wallet ∧ a.claimer ≠ wallet ∧
      w.claimer = none ∧
      (m' swig.key).data = ({ w with roles := afterUse a.role w.roles, claimer := some a.claimer } : Wallet).encode := by
  obtain ⟨a, r, wallet, h1, h2, h3, h4, h5, h6, h7, h8, h9, _⟩ := setRentClaimerV1_enc hw hd h
  exact ⟨a, r, wallet, h1, h2.1, by rw [h2.2]; rfl, h3, h4, h5, h6, h7, h8, h9⟩

/-! ## C26: starting a session -/

theorem C26_session_needs_main_credential (hw : w.WF) (hd : (m swig.key).data = w.encode)
    (h : createSessionV1 env m (swig :: payer :: sys :: rest) ix = .ok m') :
    ∃ (a : SessionIx) (r : Role) (auth : Auth) (s : Session), parseSession ix = .ok a ∧ w.role? a.role = some r ∧
      auth.WF ∧ auth.ty = r.authType ∧ auth.encode = r.auth ∧ auth.session = some s ∧
      Sample.ok (authenticate env r.authType r.auth (swig :: payer :: sys :: rest) (m instructionsSysvarId).data a.authPayload a.dataPayload) = true ∧
      a.duration ≤ s.max ∧
      (m' swig.key).data = ({ w with roles := w.roles.map fun r => if r.id = a.role then
        { r with auth := (⟨auth.cred.used, some ⟨a.key, s.max, (env.slot + a.duration) % 2 ^ 64⟩⟩ : Auth).encode } else r } : Wallet).encode ∧
      ∀ k, k ≠ swig.key → m' k = m k := by
  obtain ⟨a, r, auth, s, h1, h2, h3, h4, h5, h6, h7, h8, h9, _, h11⟩ := createSessionV1_enc hw hd h
  refine ⟨a, r, auth, s, h1, h2, h3, h4, h5, h6, by rw [h7]; rfl, h8, h9, fun k hk => ?_⟩
  rw [h11, Mem.setData_other _ _ hk]

/-- For an Ed25519 session role: the role's own key signed the transaction. -/
theorem C26_session_needs_main_signature (hw : w.WF) (hd : (m swig.key).data = w.encode)
    (h : createSessionV1 env m (swig :: payer :: sys :: rest) ix = .ok m') {a : SessionIx} {r : Role} {pk : Key} {s : Session}
    (ha : parseSession ix = .ok a) (hr : w.role? a.role = some r) (hpk : pk.length = 32)
    (hty : r.authType = 2) (hauth : r.auth = (⟨.ed25519 pk, some s⟩ : Auth).encode) :
    ∃ i, SignedBy (swig :: payer :: sys :: rest) i pk := by
  obtain ⟨a', r', auth, s', h1, h2, h3, h4, h5, h6, h7, _⟩ := createSessionV1_enc hw hd h
  rw [ha] at h1; cases h1
  rw [hr] at h2; cases h2
  rw [show r.authType = (⟨.ed25519 pk, some s⟩ : Auth).ty from hty, authenticate_ed25519 (pk := pk) rfl] at h7
  split at h7
  · cases h7
  · obtain ⟨_, k1, _⟩ := bind_ok_iff.mp h7
    have e : sl r.auth 0 32 = pk := by
      rw [hauth]
      simp only [Auth.encode, Cred.encode]
      rw [sl_left _ _ _ _ (by omega), ← hpk, sl_full]
    rw [e] at k1
    exact ⟨_, (ed25519Auth_iff _ _ _).mp k1⟩

end

/-- The main-credential authentication does not look at the session: whatever session key is stored, running or not, the same
requests are accepted. -/
theorem C26_session_key_irrelevant (env : Env) (c : Cred) (s s' : Session) (metas : List Meta) (sysvar payload data : Bytes)
    (hc : c.WF) :
    Sample.ok (authenticate env (⟨c, some s⟩ : Auth).ty (⟨c, some s⟩ : Auth).encode metas sysvar payload data) =
      Sample.ok (authenticate env (⟨c, some s'⟩ : Auth).ty (⟨c, some s'⟩ : Auth).encode metas sysvar payload data) := by
  have okb : ∀ {α : Type} (x : R Unit) (a b : α), Sample.ok (do x; (.ok a : R α)) = Sample.ok (do x; (.ok b : R α)) := by
    intro α x a b; cases x <;> rfl
  cases c with
  | ed25519 pk =>
    have e : ∀ s : Session, sl (⟨.ed25519 pk, some s⟩ : Auth).encode 0 32 = pk := by
      intro s
      have : pk.length = 32 := hc
      simp only [Auth.encode, Cred.encode]
      rw [sl_left _ _ _ _ (by omega), ← this, sl_full]
    rw [authenticate_ed25519 (pk := pk) rfl, authenticate_ed25519 (pk := pk) rfl, e, e]
    split
    · rfl
    · exact okb _ _ _
  | secp256k1 pk pad n =>
    obtain ⟨e1, e2, _⟩ := Cred.secp_fields hc (pk := pk) (n := n) rfl s.encode 0
    obtain ⟨f1, f2, _⟩ := Cred.secp_fields hc (pk := pk) (n := n) rfl s'.encode 0
    change sl (⟨.secp256k1 pk pad n, some s⟩ : Auth).encode 0 33 = pk at e1
    change odometer (⟨.secp256k1 pk pad n, some s⟩ : Auth).encode = n at e2
    change sl (⟨.secp256k1 pk pad n, some s'⟩ : Auth).encode 0 33 = pk at f1
    change odometer (⟨.secp256k1 pk pad n, some s'⟩ : Auth).encode = n at f2
    rw [authenticate_secp256k1 (pk := pk) rfl, authenticate_secp256k1 (pk := pk) rfl]
    unfold k1Authenticate
    rw [e1, e2, f1, f2]
    dsimp only
    split
    · rfl
    · split
      · rfl
      · exact okb _ _ _
  | secp256r1 pk pad n =>
    obtain ⟨e1, e2, _⟩ := Cred.secp_fields hc (pk := pk) (n := n) rfl s.encode 0
    obtain ⟨f1, f2, _⟩ := Cred.secp_fields hc (pk := pk) (n := n) rfl s'.encode 0
    change sl (⟨.secp256r1 pk pad n, some s⟩ : Auth).encode 0 33 = pk at e1
    change odometer (⟨.secp256r1 pk pad n, some s⟩ : Auth).encode = n at e2
    change sl (⟨.secp256r1 pk pad n, some s'⟩ : Auth).encode 0 33 = pk at f1
    change odometer (⟨.secp256r1 pk pad n, some s'⟩ : Auth).encode = n at f2
    rw [authenticate_secp256r1 (pk := pk) rfl, authenticate_secp256r1 (pk := pk) rfl]
    unfold r1Authenticate
    rw [e1, e2, f1, f2]
    dsimp only
    split
    · rfl
    · split
      · rfl
      · exact okb _ _ _
  | exec p n pad buf =>
    have hl : (Cred.exec p n pad buf).encode.length = 80 := by
      obtain ⟨h1, h2, h3⟩ := hc
      simp [Cred.encode, h1, h2, h3]
    rw [authenticate_exec (p := p) rfl, authenticate_exec (p := p) rfl]
    unfold execAuthenticate
    simp only [Auth.encode]
    have g : ∀ s : Session, ((Cred.exec p n pad buf).encode ++ s.encode).getD 32 0 = (Cred.exec p n pad buf).encode.getD 32 0 := by
      intro s; simp only [List.getD]; rw [List.getElem?_append_left (by omega)]
    rw [sl_left _ _ _ _ (by omega), sl_left _ _ _ _ (by omega), sl_left _ _ _ _ (by omega), sl_left _ _ _ _ (by omega), g, g]
    exact okb _ _ _

section
open Sample
/-- A wallet with an Ed25519 session role; role 2 starts a session of 50 slots. -/
def sessionWallet : Wallet := ⟨255, K 70, 3, 254, zeros 3, 0,
  [root, ⟨2, 2, (⟨.ed25519 (K 11), some ⟨zeros 32, 60, 0⟩⟩ : Auth).encode, [⟨1, natLE 8 500⟩]⟩], none⟩
def sessionIx (duration : Nat) : Bytes := natLE 2 5 ++ zeros 2 ++ natLE 4 2 ++ natLE 8 duration ++ K 30 ++ [1]

example : ∃ m', createSessionV1 env (mem sessionWallet) (metas (K 11)) (sessionIx 60) = .ok m' := exists_of_ok (by decide +kernel)
/-- Too long a duration, and a signature by someone else. -/
example : ok (createSessionV1 env (mem sessionWallet) (metas (K 11)) (sessionIx 61)) = false := by decide +kernel
example : ok (createSessionV1 env (mem sessionWallet) (metas (K 10)) (sessionIx 60)) = false := by decide +kernel
/-- C16: the first registration succeeds, also by a role with CloseSwigAuthority; a second one does not. -/
example : ∃ m', setRentClaimerV1 env (mem wallet) (metas (K 10)) claimerIx = .ok m' := exists_of_ok (by decide +kernel)
example : ok (setRentClaimerV1 env (mem { wallet with claimer := some (K 21) }) (metas (K 10)) claimerIx) = false := by decide +kernel
end

/-! ## C39, C40: replacing a signer -/

section
variable {env : Env} {m m' : Mem} {swig : Meta} {rest : List Meta} {ix : Bytes} {w : Wallet}

/-- What the new record of the target role is: same kind of credential with the submitted key (compressed if it came
uncompressed), counter 0, session ended. -/
theorem C39_replace_only_credential (hw : w.WF) (hd : (m swig.key).data = w.encode)
    (h : replaceAuthorityV1 env m (swig :: rest) ix = .ok m') :
    ∃ (a : ReplaceIx) (t : Role) (old new : Auth) (key : Bytes), parseReplace ix = .ok a ∧ w.role? a.target = some t ∧
      old.WF ∧ old.ty = t.authType ∧ old.encode = t.auth ∧ new.WF ∧ new.ty = old.ty ∧
      new.cred.key = key ∧ old.cred.key ≠ key ∧
      (key = a.newAuth ∨ (a.newAuth.length = 64 ∧ key = compressKey a.newAuth)) ∧
      (∀ k n, new.cred.secp = some (k, n) → n = 0) ∧
      (∀ s, new.session = some s → s.key = zeros 32 ∧ s.expiry = 0 ∧ ∃ s0, old.session = some s0 ∧ s.max = s0.max) ∧
      (t.authType ≠ 7 ∧ t.authType ≠ 8) ∧
      (m' swig.key).data = ({ w with roles := (afterUse a.acting w.roles).map fun r =>
        if r.id = a.target then { r with auth := new.encode } else r } : Wallet).encode ∧
      ∀ k, k ≠ swig.key → m' k = m k := by
  obtain ⟨a, r, t, auth, key, h1, h2, h3, h4, h5, h6, h7, h8, h9, h10, h11, h12, h13⟩ := replaceAuthorityV1_enc hw hd h
  have hlen : key.length = (match auth.cred with | .ed25519 _ => 32 | _ => 33) ∧
      (key = a.newAuth ∨ (a.newAuth.length = 64 ∧ key = compressKey a.newAuth)) ∧ (∀ p n pad buf, auth.cred ≠ .exec p n pad buf) := by
    cases hc : auth.cred with
    | ed25519 pk =>
      rw [hc] at h8; unfold Cred.newKey at h8; simp only at h8
      split at h8
      · rename_i hl; cases h8; exact ⟨hl, Or.inl rfl, by simp⟩
      · cases h8
    | secp256k1 pk pad n =>
      rw [hc] at h8; unfold Cred.newKey at h8; simp only at h8
      split at h8
      · rename_i hl; cases h8; exact ⟨hl, Or.inl rfl, by simp⟩
      · split at h8
        · rename_i hl; cases h8; exact ⟨compressKey_length _ (by omega), Or.inr ⟨hl, rfl⟩, by simp⟩
        · cases h8
    | secp256r1 pk pad n =>
      rw [hc] at h8; unfold Cred.newKey at h8; simp only at h8
      split at h8
      · rename_i hl; cases h8; exact ⟨hl, Or.inl rfl, by simp⟩
      · cases h8
    | exec p n pad buf => rw [hc] at h8; cases h8
  have hne := hlen.2.2
  refine ⟨a, t, auth, auth.withKey key, key, h1, h4, h5, h6, h7, ?_, ?_, ?_, h9, hlen.2.1, ?_, ?_, ?_, h11, fun k hk => ?_⟩
  · have hc := h5.cred
    refine ⟨?_, ?_⟩
    · have := hlen.1
      unfold Auth.withKey Cred.withKey
      cases hcr : auth.cred with
      | ed25519 pk => rw [hcr] at this; exact this
      | secp256k1 pk pad n => rw [hcr] at this hc; exact ⟨this, hc.2.1, by simp⟩
      | secp256r1 pk pad n => rw [hcr] at this hc; exact ⟨this, hc.2.1, by simp⟩
      | exec p n pad buf => exact absurd hcr (hne _ _ _ _)
    · intro s hs
      unfold Auth.withKey at hs
      simp only [Option.map_eq_some_iff] at hs
      obtain ⟨s0, hs0, rfl⟩ := hs
      exact ⟨by simp, (h5.session s0 hs0).max, by simp⟩
  · exact Auth.withKey_ty auth key
  · unfold Auth.withKey Cred.withKey Cred.key
    cases hcr : auth.cred with
    | exec p n pad buf => exact absurd hcr (hne _ _ _ _)
    | _ => rfl
  · intro k n hs
    unfold Auth.withKey Cred.withKey at hs
    cases hcr : auth.cred <;> rw [hcr] at hs <;> simp [Cred.secp] at hs <;> omega
  · intro s hs
    unfold Auth.withKey at hs
    simp only [Option.map_eq_some_iff] at hs
    obtain ⟨s0, hs0, rfl⟩ := hs
    exact ⟨rfl, rfl, s0, hs0, rfl⟩
  · rw [← h6]
    unfold Auth.ty
    cases hcr : auth.cred with
    | exec p n pad buf => exact absurd hcr (hne _ _ _ _)
    | _ => simp only; split <;> omega
  · rw [h13, Mem.setData_other _ _ hk]

theorem C40_replace_authorised (hw : w.WF) (hd : (m swig.key).data = w.encode)
    (h : replaceAuthorityV1 env m (swig :: rest) ix = .ok m') :
    ∃ (a : ReplaceIx) (r : Role), parseReplace ix = .ok a ∧ w.role? a.acting = some r ∧
      Sample.ok (authRole env r.authType r.auth (swig :: rest) (m instructionsSysvarId).data a.authPayload a.dataPayload) = true ∧
      ((∃ x ∈ r.actions, x.ty = P.all) ∨ (∃ x ∈ r.actions, x.ty = P.manageAuthority) ∨
        ∃ x ∈ r.actions, x.ty = P.replaceAuthority ∧ rd x.data 0 4 = a.target) := by
  obtain ⟨a, r, t, auth, key, h1, h2, h3, _⟩ := replaceAuthorityV1_enc hw hd h
  refine ⟨a, r, h1, h2.1, by rw [h2.2]; rfl, ?_⟩
  rcases h3 with h3 | h3 | ⟨x, hx, hx2, hx3⟩
  · exact Or.inl h3
  · exact Or.inr (Or.inl h3)
  · refine Or.inr (Or.inr ⟨x, hx, hx2, ?_⟩)
    have hlt : a.target < 256 ^ 4 := by
      unfold parseReplace at h1
      split at h1
      · cases h1
      · split at h1
        · cases h1
        · simp only at h1
          split at h1
          · cases h1
          · split at h1
            · cases h1
            · cases h1; exact rd_lt _ _ _
    have e : keyOf P.replaceAuthority x.data = sl x.data 0 4 := by
      simp [keyOf, sl, P.replaceAuthority, P.tokenDestinationLimit, P.tokenRecurringDestinationLimit, P.programScope]
    rw [e] at hx3
    unfold rd
    rw [Nat.zero_add, hx3, leNat_natLE_of_lt hlt]

end

/-! ## C41: the proof of a program-execution role -/

/-- The hashed bytes determine every parameter (the current and the new signer have the length of their type). -/
theorem C41_preimage_injective {swig swig' wallet wallet' : Key} {acting acting' target target' ty ty' : Nat}
    {cur cur' new new' : Bytes} (hs : swig.length = 32) (hs' : swig'.length = 32) (hw : wallet.length = 32) (hw' : wallet'.length = 32)
    (ha : acting < 2 ^ 32) (ha' : acting' < 2 ^ 32) (ht : target < 2 ^ 32) (ht' : target' < 2 ^ 32) (hy : ty < 2 ^ 16) (hy' : ty' < 2 ^ 16)
    (hc : cur.length = signerLen ty) (hc' : cur'.length = signerLen ty')
    (h : proofPreimage swig wallet acting target ty cur new = proofPreimage swig' wallet' acting' target' ty' cur' new') :
    swig = swig' ∧ wallet = wallet' ∧ acting = acting' ∧ target = target' ∧ ty = ty' ∧ cur = cur' ∧ new = new' := by
  unfold proofPreimage at h
  simp only [List.append_assoc] at h
  have h := List.append_cancel_left h
  obtain ⟨h1, h⟩ := List.append_inj h (by omega)
  obtain ⟨h2, h⟩ := List.append_inj h (by omega)
  obtain ⟨h3, h⟩ := List.append_inj h (by simp)
  obtain ⟨h4, h⟩ := List.append_inj h (by simp)
  obtain ⟨h5, h⟩ := List.append_inj h (by simp)
  have h3 := natLE_inj (by simpa using ha) (by simpa using ha') h3
  have h4 := natLE_inj (by simpa using ht) (by simpa using ht') h4
  have h5 := natLE_inj (by simpa using hy) (by simpa using hy') h5
  obtain ⟨h6, h7⟩ := List.append_inj h (by rw [hc, hc', h5])
  exact ⟨h1, h2, h3, h4, h5, h6, h7⟩

/-- The bytes a replacement by a program-execution role hashes for its proof. -/
structure ProofParams where
  swig : Key
  wallet : Key
  acting : Nat
  target : Nat
  ty : Nat
  current : Bytes
  new : Bytes
  deriving DecidableEq

/-- Parameters of the right sizes. -/
structure ProofParams.WF (p : ProofParams) : Prop where
  swig : p.swig.length = 32
  wallet : p.wallet.length = 32
  acting : p.acting < 2 ^ 32
  target : p.target < 2 ^ 32
  ty : p.ty < 2 ^ 16
  current : p.current.length = signerLen p.ty

/-- The digest the proof instruction has to carry. -/
def ProofParams.digest (env : Env) (p : ProofParams) : Bytes :=
  env.sha256 (proofPreimage p.swig p.wallet p.acting p.target p.ty p.current p.new)

/-- One digest serves two replacements only if they are the same one, or SHA-256 collides. -/
theorem C41_digest_binds (env : Env) (p q : ProofParams) (hp : p.WF) (hq : q.WF) (h : p.digest env = q.digest env) :
    p = q ∨ ∃ x y, x ≠ y ∧ env.sha256 x = env.sha256 y := by
  by_cases he : proofPreimage p.swig p.wallet p.acting p.target p.ty p.current p.new =
      proofPreimage q.swig q.wallet q.acting q.target q.ty q.current q.new
  · obtain ⟨h1, h2, h3, h4, h5, h6, h7⟩ := C41_preimage_injective hp.swig hq.swig hp.wallet hq.wallet hp.acting hq.acting hp.target
      hq.target hp.ty hq.ty hp.current hq.current he
    left
    cases p; cases q
    simp only [ProofParams.mk.injEq]
    exact ⟨h1, h2, h3, h4, h5, h6, h7⟩
  · exact Or.inr ⟨_, _, he, h⟩

/-- What a loaded proof is, in terms of the transaction: an earlier instruction with the two accounts first and the marker followed by
the hash as its data. -/
theorem loadProof_tx {env : Env} {m : Mem} {swig wallet : Meta} {metas : List Meta} {payload : Bytes} {k : Key} {hash : Bytes}
    {ixs : List TxIx} {cur : Nat} (hx : TxOk ixs cur) (hm : (m instructionsSysvarId).data = sysvarEncode ixs cur)
    (h : loadProof env m swig wallet metas payload = .ok (k, hash)) :
    ∃ (i : Nat) (x : TxIx) (m0 m1 : Meta) (more : List Meta), i < cur ∧ ixs[i]? = some x ∧ x.accounts = m0 :: m1 :: more ∧
      m0.key = swig.key ∧ m1.key = wallet.key ∧ x.data = ascii "rplauth1" ++ hash := by
  unfold loadProof at h
  obtain ⟨⟨e, _⟩, _, h⟩ := bind_ok_iff.mp h
  obtain ⟨_, _, h⟩ := bind_ok_iff.mp h
  obtain ⟨_, _, h⟩ := bind_ok_iff.mp h
  obtain ⟨sy, _, h⟩ := bind_ok_iff.mp h
  obtain ⟨_, _, h⟩ := bind_ok_iff.mp h
  simp only [hm, sysCurrent_enc hx, ok_bind] at h
  obtain ⟨_, hi, h⟩ := bind_ok_iff.mp h
  have hi := require_ok_iff.mp hi
  generalize (if payload.length = 2 then (payload.getD 1 0).toNat else cur - 1) = i at hi h
  have hlt : i < ixs.length := by have := hx.inTx; omega
  have hsplit : ixs = ixs.take i ++ ixs[i] :: ixs.drop (i + 1) := by
    rw [List.getElem_cons_drop, List.take_append_drop]
  have hx' : TxOk (ixs.take i ++ ixs[i] :: ixs.drop (i + 1)) cur := hsplit ▸ hx
  obtain ⟨pre, post, he, hoff, _⟩ := sysIxOff_enc hx'
  rw [← hsplit] at he hoff
  have hil : (ixs.take i).length = i := by simp; omega
  rw [hil] at hoff
  have hix := hx'.ix
  obtain ⟨f1, f2, f3⟩ := ix_fields hix pre post
  rw [hoff] at h
  simp only [ok_bind, he, f2, f3] at h
  obtain ⟨_, hdat, h⟩ := bind_ok_iff.mp h
  have hdat := require_ok_iff.mp hdat
  obtain ⟨n, hn, h⟩ := bind_ok_iff.mp h
  obtain ⟨_, hn2, h⟩ := bind_ok_iff.mp h
  have hn2 := require_ok_iff.mp hn2
  have hn3 : n = ixs[i].accounts.length := by
    have hn4 : rdU (pre ++ (ixs[i].encode ++ post)) pre.length 2 = .ok ixs[i].accounts.length := by
      unfold sysDataAt at f2
      obtain ⟨n', g1, g2⟩ := bind_ok_iff.mp f2
      obtain ⟨l', g3, g4⟩ := bind_ok_iff.mp g2
      have := Except.ok.inj g4
      simp only [Prod.mk.injEq] at this
      rw [g1]
      congr 1
      omega
    rw [hn4] at hn
    exact (Except.ok.inj hn).symm
  obtain ⟨k0, hk0, h⟩ := bind_ok_iff.mp h
  obtain ⟨k1, hk1, h⟩ := bind_ok_iff.mp h
  obtain ⟨_, e0, h⟩ := bind_ok_iff.mp h
  obtain ⟨_, e1, h⟩ := bind_ok_iff.mp h
  have e0 := require_ok_iff.mp e0
  have e1 := require_ok_iff.mp e1
  have h := Except.ok.inj h
  simp only [Prod.mk.injEq] at h
  match hacc : ixs[i].accounts with
  | [] => rw [hacc] at hn3; simp at hn3; omega
  | [_] => rw [hacc] at hn3; simp at hn3; omega
  | m0 :: m1 :: more =>
    have g0 := ix_meta hix pre post (j := 0) (m := m0) (by rw [hacc]; rfl)
    have g1 := ix_meta hix pre post (j := 1) (m := m1) (by rw [hacc]; rfl)
    rw [g0] at hk0
    rw [g1] at hk1
    refine ⟨i, ixs[i], m0, m1, more, hi, List.getElem?_eq_getElem hlt, hacc, ?_, ?_, ?_⟩
    · rw [Except.ok.inj hk0]; exact e0
    · rw [Except.ok.inj hk1]; exact e1
    · rw [← h.2, ← hdat.2, ← sl_split _ 0 8 40 (by omega) (by omega), ← hdat.1, sl_full]

/-- A replacement by a role of type ProgramExec (7) succeeds only in a transaction with an earlier instruction whose first two
accounts are the configuration and the wallet address and whose data is the marker followed by the digest of exactly this
replacement: this wallet, acting and target role, the target's type, its current key, the new key. -/
theorem C41_replacement_needs_digest {env : Env} {m m' : Mem} {swig : Meta} {rest : List Meta} {ix : Bytes} {w : Wallet}
    {ixs : List TxIx} {cur : Nat}
    (hw : w.WF) (hd : (m swig.key).data = w.encode) (h : replaceAuthorityV1 env m (swig :: rest) ix = .ok m')
    {a : ReplaceIx} {r : Role} (ha : parseReplace ix = .ok a) (hr : w.role? a.acting = some r) (hty : r.authType = 7)
    (hx : TxOk ixs cur) (hm : (m instructionsSysvarId).data = sysvarEncode ixs cur) :
    ∃ (t : Role) (old : Auth) (new : Bytes) (wallet : Key) (i : Nat) (x : TxIx) (m0 m1 : Meta) (more : List Meta),
      w.role? a.target = some t ∧ old.WF ∧ old.encode = t.auth ∧ old.ty = t.authType ∧ old.cred.newKey a.newAuth = some new ∧
      rest.head?.map (·.key) = some wallet ∧
      i < cur ∧ ixs[i]? = some x ∧ x.accounts = m0 :: m1 :: more ∧ m0.key = swig.key ∧ m1.key = wallet ∧
      x.data = ascii "rplauth1" ++
        ProofParams.digest env ⟨swig.key, wallet, a.acting, a.target, t.authType, old.cred.key, new⟩ := by
  obtain ⟨a', r', t, auth, key, h1, h2, h3, h4, h5, h6, h7, h8, h9, h10, _⟩ := replaceAuthorityV1_enc hw hd h
  rw [ha] at h1; cases h1
  have h2 := h2.1
  rw [hr] at h2; cases h2
  obtain ⟨wallet, hash, p1, p2, p3⟩ := h10 hty
  obtain ⟨i, x, m0, m1, more, q1, q2, q3, q4, q5, q6⟩ := loadProof_tx hx hm p2
  have hwl := loadProof_wallet p2
  refine ⟨t, auth, key, wallet, i, x, m0, m1, more, h4, h5, h7, h6, h8, ?_, q1, q2, q3, q4, q5.trans hwl.symm, ?_⟩
  · rw [List.head?_eq_getElem?]; exact p1
  · rw [q6, ← p3]; rfl

/-! Worked case: role 1 is a program-execution role (program `K 60`, prefix "rplauth1") that may replace the signer of role 0. -/
section
open Sample

def execWallet : Wallet := ⟨255, K 70, 2, 254, zeros 3, 0,
  [root, ⟨7, 1, (⟨.exec (K 60) 8 (zeros 7) (ascii "rplauth1" ++ zeros 32), none⟩ : Auth).encode, [⟨P.replaceAuthority, natLE 4 0 ++ zeros 4⟩]⟩], none⟩
def proofMetas : List Meta := [⟨K 1, false, true⟩, ⟨K 2, false, false⟩, ⟨instructionsSysvarId, false, false⟩]
def proofIx : Bytes := natLE 2 16 ++ zeros 2 ++ natLE 4 1 ++ natLE 4 0 ++ natLE 2 32 ++ zeros 2 ++ K 13 ++ [2, 0]
def proofTx (digest : Bytes) : List TxIx := [⟨K 60, [⟨K 1, false, false⟩, ⟨K 2, false, false⟩], ascii "rplauth1" ++ digest⟩, ⟨swigId, proofMetas, proofIx⟩]
def proofMem (digest : Bytes) : Mem := (mem execWallet).setData instructionsSysvarId (sysvarEncode (proofTx digest) 1)

example : ∃ m', replaceAuthorityV1 env (proofMem (zeros 32)) proofMetas proofIx = .ok m' := exists_of_ok (by decide +kernel)
example : ok (replaceAuthorityV1 env (proofMem (K 1)) proofMetas proofIx) = false := by decide +kernel
example : TxOk (proofTx (zeros 32)) 1 := ⟨by decide, by decide +kernel, by decide⟩
/-- C39, C40: the owner replaces the signer of role 1; role 1 may not replace the owner's. -/
example : ∃ m', replaceAuthorityV1 env (mem wallet) (metas (K 10)) replaceIx = .ok m' := exists_of_ok (by decide +kernel)
example : ok (replaceAuthorityV1 env (mem wallet) (metas (K 11))
  (natLE 2 16 ++ zeros 2 ++ natLE 4 1 ++ natLE 4 0 ++ natLE 2 32 ++ zeros 2 ++ K 13 ++ [1])) = false := by decide +kernel
end

/-! ## C42: rent -/

section
variable {env : Env} {m m' : Mem} {swig payer sys : Meta} {rest : List Meta} {ix : Bytes} {w : Wallet}

theorem topUp_lamports {m m' : Mem} {n : Nat} (h : topUp env m payer swig n = .ok m') (hne : payer.key ≠ swig.key) :
    (m' swig.key).lamports = (m swig.key).lamports + (env.rent n - (m swig.key).lamports) ∧
    (m' payer.key).lamports + (env.rent n - (m swig.key).lamports) = (m payer.key).lamports ∧
    ∀ k, k ≠ swig.key → k ≠ payer.key → (m' k).lamports = (m k).lamports := by
  unfold topUp at h
  simp only at h
  split at h
  · obtain ⟨_, _, _, hle, e⟩ := sysTransfer_ok h
    subst e
    refine ⟨?_, ?_, ?_⟩
    · rw [Mem.setLamports_same, Mem.setLamports_other _ _ (Ne.symm hne)]
    · rw [Mem.setLamports_other _ _ hne, Mem.setLamports_same]; omega
    · intro k h1 h2
      rw [Mem.setLamports_other _ _ h1, Mem.setLamports_other _ _ h2]
  · cases h
    exact ⟨by omega, by omega, fun _ _ _ => rfl⟩

/-- Adding a role ends with a top-up of the account to its final size. -/
theorem add_topUp (hw : w.WF) (hd : (m swig.key).data = w.encode) (hroom : w.roles.length + 1 < 2 ^ 16)
    (hids : w.roleCounter + 1 < 2 ^ 32) (h : addAuthorityV1 env m (swig :: payer :: sys :: rest) ix = .ok m') :
    ∃ m1 m2, (∀ k, (m1 k).lamports = (m k).lamports ∧ (m1 k).owner = (m k).owner) ∧
      topUp env m1 payer swig (m' swig.key).data.length = .ok m2 ∧ ∀ k, (m' k).lamports = (m2 k).lamports := by
  obtain ⟨a0, r0, cred, as, g1, _, _, g4, g5, g6, _, _, _, g10, g11, _⟩ := addAuthorityV1_enc hw hd hroom hids h
  have hlen : (m' swig.key).data.length = w.encode.length + (16 + cred.encode.length + a0.actions.length) := by
    rw [g10, Wallet.encode_length g11, ← Wallet.used_encode_length hw a0.acting, Wallet.encode_length (Wallet.used_wf hw a0.acting)]
    simp [Wallet.addRole, rolesSize, Role.size, g5.length]
    omega
  simp only [addAuthorityV1] at h
  obtain ⟨_, _, h⟩ := bind_ok_iff.mp h
  obtain ⟨_, _, h⟩ := bind_ok_iff.mp h
  obtain ⟨a, ha, h⟩ := bind_ok_iff.mp h
  rw [ha] at g1
  have g1 := Except.ok.inj g1
  rw [← g1] at g4 g5 hlen
  obtain ⟨ty, hty, h⟩ := bind_ok_iff.mp h
  have hty := authTypeOf_eq hty
  obtain ⟨p, _, h⟩ := bind_ok_iff.mp h
  obtain ⟨tail, _, h⟩ := bind_ok_iff.mp h
  obtain ⟨⟨p', r⟩, _, h⟩ := bind_ok_iff.mp h
  obtain ⟨ok, _, h⟩ := bind_ok_iff.mp h
  obtain ⟨_, _, h⟩ := bind_ok_iff.mp h
  obtain ⟨al, hal, h⟩ := bind_ok_iff.mp h
  have hal := orErr_ok hal
  have hcl : cred.encode.length = al := by
    have := initialAuth_length g4
    rw [hty] at hal
    rw [hal] at this
    exact (Option.some.inj this).symm
  have hsize : align8 ((m swig.key).data.length + (16 + al + a.actions.length)) = (m' swig.key).data.length := by
    rw [hlen, hd, hcl, g5.length]
    have h1 := Wallet.encode_mod hw
    have h2 := authLen_mod hal
    have h3 := actsSize_mod (fun x hx => (g6 x hx).1 : ∀ x ∈ as, x.WF)
    exact align8_of_mod (by omega)
  rw [hsize] at h
  obtain ⟨m1, hre, h⟩ := bind_ok_iff.mp h
  obtain ⟨_, rfl⟩ := realloc_ok hre
  obtain ⟨m2, htop, h⟩ := bind_ok_iff.mp h
  obtain ⟨d, _, h⟩ := bind_ok_iff.mp h
  have h := (Except.ok.inj h).symm
  exact ⟨_, m2, fun k => by simp, htop, fun k => by rw [h]; simp⟩

/-- Adding a role: exactly the missing rent of the new size moves from the payer to the configuration account. -/
theorem C42_add_rent (hw : w.WF) (hd : (m swig.key).data = w.encode) (hroom : w.roles.length + 1 < 2 ^ 16)
    (hids : w.roleCounter + 1 < 2 ^ 32) (hne : payer.key ≠ swig.key)
    (h : addAuthorityV1 env m (swig :: payer :: sys :: rest) ix = .ok m') :
    ∃ paid, paid = env.rent (m' swig.key).data.length - (m swig.key).lamports ∧
      (m' swig.key).lamports = (m swig.key).lamports + paid ∧ env.rent (m' swig.key).data.length ≤ (m' swig.key).lamports ∧
      (m' payer.key).lamports + paid = (m payer.key).lamports ∧
      ∀ k, k ≠ swig.key → k ≠ payer.key → (m' k).lamports = (m k).lamports := by
  obtain ⟨m1, m2, g1, htop, hl⟩ := add_topUp hw hd hroom hids h
  obtain ⟨h1, h2, h3⟩ := topUp_lamports htop hne
  simp only [(g1 _).1] at h1 h2 h3
  refine ⟨_, rfl, ?_⟩
  simp only [hl]
  exact ⟨h1, by omega, h2, h3⟩

/-- Removing a role: exactly the difference of the rent minima of the two sizes moves to the payer.  Hypotheses on the world: rent does not
fall with size, the account was rent exempt, the payer's balance does not overflow. -/
theorem C42_remove_rent (hw : w.WF) (hd : (m swig.key).data = w.encode) (hne : payer.key ≠ swig.key)
    (hmono : ∀ x y, x ≤ y → env.rent x ≤ env.rent y) (hexempt : env.rent (m swig.key).data.length ≤ (m swig.key).lamports)
    (hs : (m swig.key).lamports < 2 ^ 64) (hp : (m payer.key).lamports + (m swig.key).lamports < 2 ^ 64)
    (h : removeAuthorityV1 env m (swig :: payer :: sys :: rest) ix = .ok m') :
    ∃ refund, refund = env.rent (m swig.key).data.length - env.rent (m' swig.key).data.length ∧
      (m' swig.key).lamports + refund = (m swig.key).lamports ∧ env.rent (m' swig.key).data.length ≤ (m' swig.key).lamports ∧
      (m' payer.key).lamports = (m payer.key).lamports + refund ∧
      ∀ k, k ≠ swig.key → k ≠ payer.key → (m' k).lamports = (m k).lamports := by
  obtain ⟨a, t, k1, k2, _, _, _, k6, _⟩ := C04_remove_exactly_one hw hd h
  obtain ⟨a', r, t', h1, _, _, _, h5, h6, h7, h8, h9⟩ := removeAuthorityV1_enc hw hd h
  rw [k1] at h1; cases h1
  rw [k2] at h5; cases h5
  have elen : w.encode.length - t.size = (m' swig.key).data.length := by rw [← hd]; omega
  have hlo := hmono (m' swig.key).data.length (m swig.key).data.length (by omega)
  rw [elen, ← hd] at h9
  have hdiff : sub64 (env.rent (m swig.key).data.length) (env.rent (m' swig.key).data.length) =
      env.rent (m swig.key).data.length - env.rent (m' swig.key).data.length := by
    unfold sub64; omega
  unfold removeRefund at h9
  simp only [hdiff] at h9
  refine ⟨_, rfl, ?_, ?_, ?_, ?_⟩
  · rw [h9, Mem.setLamports_other _ _ (Ne.symm hne), Mem.setLamports_same]
    unfold sub64; omega
  · rw [h9, Mem.setLamports_other _ _ (Ne.symm hne), Mem.setLamports_same]
    unfold sub64; omega
  · rw [h9, Mem.setLamports_same, Mem.setLamports_other _ _ hne]
    unfold add64; omega
  · intro k g1 g2
    rw [h9, Mem.setLamports_other _ _ g2, Mem.setLamports_other _ _ g1]

/-- Updating the permissions of a role: when the account grows, exactly the missing rent of the new size moves from the payer to it; when its
size stays, no lamports move; when it shrinks, everything it holds above the rent minimum of the new size goes to the payer (not only the
difference of the minima, as when a role is removed).  Nobody else is touched, and a rent exempt account stays rent exempt. -/
theorem C42_update_rent (hw : w.WF) (hd : (m swig.key).data = w.encode) (hne : payer.key ≠ swig.key)
    (hmono : ∀ x y, x ≤ y → env.rent x ≤ env.rent y) (hexempt : env.rent (m swig.key).data.length ≤ (m swig.key).lamports)
    (hp : (m payer.key).lamports + (m swig.key).lamports < 2 ^ 64)
    (h : updateAuthorityV1 env m (swig :: payer :: sys :: rest) ix = .ok m') :
    env.rent (m' swig.key).data.length ≤ (m' swig.key).lamports ∧
    (∀ k, k ≠ swig.key → k ≠ payer.key → (m' k).lamports = (m k).lamports) ∧
    (m' swig.key).lamports + (m' payer.key).lamports = (m swig.key).lamports + (m payer.key).lamports ∧
    (m' swig.key).lamports =
      if (m' swig.key).data.length < (m swig.key).data.length then env.rent (m' swig.key).data.length
      else max (m swig.key).lamports (env.rent (m' swig.key).data.length) := by
  obtain ⟨_, _, _, _, _, _, _, _, _, _, _, _, _, _, _, _, hr⟩ := updateAuthorityV1_full hw hd h
  rcases Nat.lt_trichotomy (m' swig.key).data.length (m swig.key).data.length with hl | hl | hl
  · obtain ⟨h1, h2, h3⟩ := hr.shrunk hl hne hp
    have := hmono _ _ (Nat.le_of_lt hl)
    rw [if_pos hl]
    exact ⟨by omega, h3, by omega, by omega⟩
  · have h1 := hr.same hl
    rw [if_neg (by omega), h1, h1, hl]
    exact ⟨hexempt, fun k _ _ => h1 k, rfl, by omega⟩
  · obtain ⟨h1, h2, h3⟩ := hr.grown hl hne
    rw [if_neg (by omega)]
    exact ⟨by omega, h3, by omega, by omega⟩

/-- Growing and shrinking updates on the sample; the second one gives the payer everything above the rent minimum. -/
example : (∃ m', updateAuthorityV1 Sample.env (Sample.mem Sample.wallet) (Sample.metas (Sample.K 10)) Sample.updateIx = .ok m') ∧
    ∃ m', updateAuthorityV1 Sample.env (Sample.mem Sample.wallet) (Sample.metas (Sample.K 10)) Sample.updateRemoveIx = .ok m' ∧
      (m' (Sample.K 1)).data.length < (Sample.mem Sample.wallet (Sample.K 1)).data.length ∧
      (Sample.mem Sample.wallet (Sample.K 10)).lamports + (Sample.mem Sample.wallet (Sample.K 1)).lamports < 2 ^ 64 ∧
      (m' (Sample.K 1)).lamports = Sample.env.rent (m' (Sample.K 1)).data.length := by
  refine ⟨Sample.exists_of_ok (by decide +kernel), ?_⟩
  have key : (match updateAuthorityV1 Sample.env (Sample.mem Sample.wallet) (Sample.metas (Sample.K 10)) Sample.updateRemoveIx with
    | .ok m' => decide ((m' (Sample.K 1)).data.length < (Sample.mem Sample.wallet (Sample.K 1)).data.length ∧
      (Sample.mem Sample.wallet (Sample.K 10)).lamports + (Sample.mem Sample.wallet (Sample.K 1)).lamports < 2 ^ 64 ∧
      (m' (Sample.K 1)).lamports = Sample.env.rent (m' (Sample.K 1)).data.length) | _ => false) = true := by decide +kernel
  split at key
  · rename_i m' hm
    exact ⟨m', hm, of_decide_eq_true key⟩
  · cases key

theorem claimer_topUp (hw : w.WF) (hd : (m swig.key).data = w.encode)
    (h : setRentClaimerV1 env m (swig :: payer :: sys :: rest) ix = .ok m') :
    (m' swig.key).data.length = (m swig.key).data.length + 40 ∧
    ∃ m1 m2, (∀ k, (m1 k).lamports = (m k).lamports ∧ (m1 k).owner = (m k).owner) ∧
      topUp env m1 payer swig (m' swig.key).data.length = .ok m2 ∧ ∀ k, (m' k).lamports = (m2 k).lamports := by
  obtain ⟨a0, r0, wal, g1, _, _, _, _, _, _, g8, g9, g10, _⟩ := setRentClaimerV1_enc hw hd h
  have hlen : (m' swig.key).data.length = (m swig.key).data.length + 40 := by
    rw [g9, Wallet.encode_length g10, hd, ← Wallet.used_encode_length hw a0.role, Wallet.encode_length (Wallet.used_wf hw a0.role)]
    have e1 : (w.used a0.role).claimer = none := g8
    have e2 : ((w.used a0.role).setClaimer a0.claimer).claimer = some a0.claimer := rfl
    have e3 : ((w.used a0.role).setClaimer a0.claimer).roles = (w.used a0.role).roles := rfl
    have := claimer_parse_length g1
    rw [e1, e2, e3]
    simp only [encTail, List.length_append, List.length_cons, List.length_nil, this]
    omega
  refine ⟨hlen, ?_⟩
  simp only [setRentClaimerV1] at h
  obtain ⟨_, _, h⟩ := bind_ok_iff.mp h
  obtain ⟨_, _, h⟩ := bind_ok_iff.mp h
  obtain ⟨a, _, h⟩ := bind_ok_iff.mp h
  obtain ⟨_, _, h⟩ := bind_ok_iff.mp h
  obtain ⟨_, _, h⟩ := bind_ok_iff.mp h
  obtain ⟨p, _, h⟩ := bind_ok_iff.mp h
  obtain ⟨_, _, h⟩ := bind_ok_iff.mp h
  obtain ⟨_, _, h⟩ := bind_ok_iff.mp h
  obtain ⟨⟨p', r⟩, _, h⟩ := bind_ok_iff.mp h
  obtain ⟨_, _, h⟩ := bind_ok_iff.mp h
  obtain ⟨_, _, h⟩ := bind_ok_iff.mp h
  obtain ⟨_, _, h⟩ := bind_ok_iff.mp h
  obtain ⟨_, _, h⟩ := bind_ok_iff.mp h
  obtain ⟨_, _, h⟩ := bind_ok_iff.mp h
  obtain ⟨m1, hre, h⟩ := bind_ok_iff.mp h
  obtain ⟨_, rfl⟩ := realloc_ok hre
  obtain ⟨m2, htop, h⟩ := bind_ok_iff.mp h
  obtain ⟨d, _, h⟩ := bind_ok_iff.mp h
  have h := (Except.ok.inj h).symm
  rw [← hlen] at htop
  exact ⟨_, m2, fun k => by simp, htop, fun k => by rw [h]; simp⟩

/-- Setting the rent claimer: the account grows by 40 bytes and exactly the missing rent moves from the payer to it. -/
theorem C42_claimer_rent (hw : w.WF) (hd : (m swig.key).data = w.encode) (hne : payer.key ≠ swig.key)
    (h : setRentClaimerV1 env m (swig :: payer :: sys :: rest) ix = .ok m') :
    (m' swig.key).data.length = (m swig.key).data.length + 40 ∧
    ∃ paid, paid = env.rent (m' swig.key).data.length - (m swig.key).lamports ∧
      (m' swig.key).lamports = (m swig.key).lamports + paid ∧ env.rent (m' swig.key).data.length ≤ (m' swig.key).lamports ∧
      (m' payer.key).lamports + paid = (m payer.key).lamports ∧
      ∀ k, k ≠ swig.key → k ≠ payer.key → (m' k).lamports = (m k).lamports := by
  obtain ⟨hlen, m1, m2, g1, htop, hl⟩ := claimer_topUp hw hd h
  obtain ⟨h1, h2, h3⟩ := topUp_lamports htop hne
  simp only [(g1 _).1] at h1 h2 h3
  refine ⟨hlen, _, rfl, ?_⟩
  simp only [hl]
  exact ⟨h1, by omega, h2, h3⟩

/-- Creating a wallet: the configuration account holds exactly its rent minimum, the wallet address at least the minimum of an empty
account, and the payer has paid exactly that. -/
theorem C42_create_rent {wallet : Meta} (h1 : payer.key ≠ swig.key) (h2 : payer.key ≠ wallet.key) (h3 : wallet.key ≠ swig.key)
    (h : createV1 env m (swig :: payer :: wallet :: sys :: rest) ix = .ok m') :
    (m swig.key).lamports = 0 ∧ (m' swig.key).lamports = env.rent (m' swig.key).data.length ∧
    (m' wallet.key).lamports = max (m wallet.key).lamports (env.rent 0) ∧
    (m' payer.key).lamports + (m' swig.key).lamports + (m' wallet.key).lamports = (m payer.key).lamports + (m wallet.key).lamports ∧
    ∀ k, k ≠ swig.key → k ≠ payer.key → k ≠ wallet.key → (m' k).lamports = (m k).lamports := by
  obtain ⟨c0, al0, a, as, q1, q2, q3, q4, _, _, _, q8, q9, _, q11, _⟩ := createV1_enc h
  simp only [createV1] at h
  obtain ⟨⟨c, al⟩, hchk, h⟩ := bind_ok_iff.mp h
  rw [hchk] at q1
  have q1 := Except.ok.inj q1
  simp only [Prod.mk.injEq] at q1
  obtain ⟨rfl, rfl⟩ := q1
  obtain ⟨_, _, hpc, _, _, _, _, _, hal⟩ := createChecks_ok hchk
  have hsize : align8 (48 + 16 + al + c.actions.length) = (m' swig.key).data.length := by
    rw [q8, Wallet.encode_length q9]
    have hcl : a.encode.length = al := by
      have := initialAuth_length q2
      rw [hal] at this
      exact (Option.some.inj this).symm
    have e3 := actsSize_mod (fun x hx => (q4 x hx).1 : ∀ x ∈ as, x.WF)
    have e2 := authLen_mod hal
    rw [align8_of_mod (by rw [q3.length]; omega)]
    simp [Wallet.addRole, Wallet.blank, rolesSize, Role.size, q3.length, hcl, encTail]
    omega
  obtain ⟨m1, hcre, h⟩ := bind_ok_iff.mp h
  obtain ⟨hl0, hmax, htr⟩ := sysCreate_ok hcre
  obtain ⟨m2, hfund, h⟩ := bind_ok_iff.mp h
  obtain ⟨d, hdat, h⟩ := bind_ok_iff.mp h
  have h := (Except.ok.inj h).symm
  have hl : ∀ k, (m' k).lamports = (m2 k).lamports := by intro k; rw [h]; simp
  rw [hsize, hl0, Nat.sub_zero] at htr
  obtain ⟨_, _, _, hle, e⟩ := sysTransfer_ok htr
  rw [Mem.set_other _ _ h1] at hle e
  have f : topUp env m1 payer wallet 0 = .ok m2 := hfund
  obtain ⟨t1, t2, t3⟩ := topUp_lamports f h2
  have a1 : (m1 swig.key).lamports = env.rent (m' swig.key).data.length := by
    rw [e, Mem.setLamports_same, Mem.setLamports_other _ _ (Ne.symm h1), Mem.set_same]; simp
  have a2 : (m1 payer.key).lamports + env.rent (m' swig.key).data.length = (m payer.key).lamports := by
    rw [e, Mem.setLamports_other _ _ h1, Mem.setLamports_same]; omega
  have a3 : ∀ k, k ≠ swig.key → k ≠ payer.key → (m1 k).lamports = (m k).lamports := by
    intro k g1 g2
    rw [e, Mem.setLamports_other _ _ g1, Mem.setLamports_other _ _ g2, Mem.set_other _ _ g1]
  have a4 := a3 wallet.key h3 (Ne.symm h2)
  have a5 := t3 swig.key (Ne.symm h3) (Ne.symm h1)
  simp only [hl]
  refine ⟨hl0, by omega, by omega, by omega, fun k g1 g2 g3 => (t3 k g3 g2).trans (a3 k g1 g2)⟩

end

/-- Setting the claimer and creating a wallet on the sample. -/
example : (∃ m', setRentClaimerV1 Sample.env (Sample.mem Sample.wallet) (Sample.metas (Sample.K 10)) Sample.claimerIx = .ok m') ∧
    ∃ m', createV1 Sample.env Sample.mem0 Sample.createMetas Sample.createIx = .ok m' :=
  ⟨Sample.exists_of_ok (by decide +kernel), Sample.exists_of_ok (by decide +kernel)⟩

/-- The hypotheses of C42 on the sample: see the additions and removals in Verif/Props/Roles.lean; the rent schedule is monotone. -/
example : ∀ x y, x ≤ y → Sample.env.rent x ≤ Sample.env.rent y := by
  intro x y h; simp only [Sample.env]; omega
example : Sample.env.rent (Sample.mem Sample.wallet (Sample.K 1)).data.length ≤ (Sample.mem Sample.wallet (Sample.K 1)).lamports := by
  decide +kernel

end Verif
