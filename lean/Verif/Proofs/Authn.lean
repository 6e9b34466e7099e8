import Verif.Spec.Authn
import Verif.Proofs.History

/-! Every request for an existing wallet authenticates the role it names. -/

namespace Verif

theorem parseAdd_payload {ix : Bytes} {a : AddIx} (h : parseAdd ix = .ok a) :
    a.dataPayload = ix.take (16 + rd ix 2 2 + rd ix 4 2) ∧ a.authPayload = ix.drop (16 + rd ix 2 2 + rd ix 4 2) := by
  unfold parseAdd at h
  split at h
  · cases h
  · dsimp only at h
    split at h
    · cases h
    · cases h; exact ⟨rfl, rfl⟩

theorem parseRemove_payload {ix : Bytes} {a : RemoveIx} (h : parseRemove ix = .ok a) : a.dataPayload = ix.take 16 ∧ a.authPayload = ix.drop 16 := by
  unfold parseRemove at h
  split at h
  · cases h
  · cases h; exact ⟨rfl, rfl⟩

theorem parseUpdate_payload {ix : Bytes} {a : UpdateIx} (h : parseUpdate ix = .ok a) :
    a.dataPayload = ix.take (16 + rd ix 2 2) ∧ a.authPayload = ix.drop (16 + rd ix 2 2) := by
  unfold parseUpdate at h
  split at h
  · cases h
  · dsimp only at h
    split at h
    · cases h
    · obtain ⟨_, _, h⟩ := bind_ok_iff.mp h
      cases h; exact ⟨rfl, rfl⟩

theorem parseSession_payload {ix : Bytes} {a : SessionIx} (h : parseSession ix = .ok a) : a.dataPayload = ix.take 48 ∧ a.authPayload = ix.drop 48 := by
  unfold parseSession at h
  split at h
  · cases h
  · cases h; exact ⟨rfl, rfl⟩

theorem parseClaimer_payload {ix : Bytes} {a : ClaimerIx} (h : parseClaimer ix = .ok a) : a.dataPayload = ix.take 40 ∧ a.authPayload = ix.drop 40 := by
  unfold parseClaimer at h
  split at h
  · cases h
  · cases h; exact ⟨rfl, rfl⟩

theorem parseReplace_payload {ix : Bytes} {a : ReplaceIx} (h : parseReplace ix = .ok a) :
    a.dataPayload = ix.take (16 + rd ix 12 2) ∧ a.authPayload = ix.drop (16 + rd ix 12 2) := by
  unfold parseReplace at h
  split at h
  · cases h
  · dsimp only at h
    repeat' split at h
    all_goals cases h
    all_goals exact ⟨rfl, rfl⟩

theorem parseRoleIx_payload {ix : Bytes} {er : Err} {a : RoleIx} (h : parseRoleIx ix er = .ok a) :
    a.dataPayload = ix.take 8 ∧ a.authPayload = ix.drop 8 := by
  unfold parseRoleIx at h
  split at h
  · cases h
  · cases h; exact ⟨rfl, rfl⟩

theorem parseSubSign_payload {ix : Bytes} {a : SubSignIx} (h : parseSubSign ix = .ok a) :
    a.payload = sl ix 16 (16 + rd ix 2 2) ∧ a.authPayload = ix.drop (16 + rd ix 2 2) := by
  unfold parseSubSign at h
  split at h
  · cases h
  · dsimp only at h
    split at h
    · cases h
    · cases h; exact ⟨rfl, rfl⟩

theorem parseSubSignV2_payload {ix : Bytes} {a : SubSignV2Ix} (h : parseSubSignV2 ix = .ok a) :
    a.dataPayload = ix.take (16 + rd ix 2 2) ∧ a.authPayload = ix.drop (16 + rd ix 2 2) := by
  unfold parseSubSignV2 at h
  split at h
  · cases h
  · dsimp only at h
    split at h
    · cases h
    · cases h; exact ⟨rfl, rfl⟩

/-- What a successful request for an open wallet has authenticated. -/
def Authenticated (env : Env) (m : Mem) (metas : List Meta) (ix : Bytes) (w : Wallet) : Prop :=
  (rd ix 0 2 ≠ 5 ∧ ∃ r, ActsAs env m metas w (actingRole ix) (ix.drop (credentialAt ix)) (signedPart ix) r) ∨
  (rd ix 0 2 = 5 ∧ ∃ (r : Role) (auth : Auth) (s : Session), w.role? (actingRole ix) = some r ∧ auth.WF ∧ auth.ty = r.authType ∧
    auth.encode = r.auth ∧ auth.session = some s ∧
    authenticate env r.authType r.auth metas (m instructionsSysvarId).data (ix.drop (credentialAt ix)) (signedPart ix) =
      .ok (⟨auth.cred.used, auth.session⟩ : Auth).encode)

theorem authenticated_of {env : Env} {m : Mem} {metas : List Meta} {ix : Bytes} {w : Wallet} {id : Nat} {payload data : Bytes} {r : Role}
    (h : ActsAs env m metas w id payload data r) (hid : id = actingRole ix) (hp : payload = ix.drop (credentialAt ix)) (hd : data = signedPart ix)
    (h5 : rd ix 0 2 ≠ 5) : Authenticated env m metas ix w := by
  subst hid hp hd
  exact .inl ⟨h5, r, h⟩

theorem process_acts {env : Env} {cpi : Cpi} {m m' : Mem} {swig : Meta} {rest0 : List Meta} {ix : Bytes} {w : Wallet}
    (ho : Open m swig.key w) (hk : ∀ a ∈ swig :: rest0, a.key.length = 32)
    (hroom : w.roles.length + 1 < 2 ^ 16 ∧ w.roleCounter + 1 < 2 ^ 32) (e : process env cpi m (swig :: rest0) ix = .ok m') :
    Authenticated env m (swig :: rest0) ix w := by
  obtain ⟨hcount, hctr⟩ := hroom
  have hw := ho.wf
  have hd := ho.data
  unfold process at e
  obtain ⟨_, _, e1⟩ := bind_ok_iff.mp e
  clear e
  obtain ⟨cls, _, e⟩ := bind_ok_iff.mp e1
  clear e1
  unfold dispatch at e
  split at e
  · cases e
  split at e
  · rename_i hix
    match rest0, hk, e with
    | payer :: sys :: rest, hk, e =>
      obtain ⟨a, _, cred, as, hp, h1, _⟩ := addAuthorityV1_enc hw hd hcount hctr e
      exact authenticated_of h1 (by rw [parseAdd_acting hp]; simp [actingRole, hix]) (by rw [(parseAdd_payload hp).2]; simp [credentialAt, hix])
        (by rw [(parseAdd_payload hp).1]; simp [signedPart, credentialAt, hix]) (by omega)
    | [_], _, e => cases e
    | [], _, e => cases e
  · rename_i hix
    match rest0, hk, e with
    | payer :: sys :: rest, hk, e =>
      obtain ⟨a, _, _, hp, _, h1, _⟩ := removeAuthorityV1_enc hw hd e
      exact authenticated_of h1 (by rw [(parseRemove_roles hp).1]; simp [actingRole, hix]) (by rw [(parseRemove_payload hp).2]; simp [credentialAt, hix])
        (by rw [(parseRemove_payload hp).1]; simp [signedPart, credentialAt, hix]) (by omega)
    | [_], _, e => cases e
    | [], _, e => cases e
  · rename_i hix
    match rest0, hk, e with
    | payer :: sys :: rest, hk, e =>
      obtain ⟨a, _, _, as, hp, h1, _⟩ := updateAuthorityV1_enc hw hd e
      exact authenticated_of h1 (by rw [(parseUpdate_roles hp).1]; simp [actingRole, hix]) (by rw [(parseUpdate_payload hp).2]; simp [credentialAt, hix])
        (by rw [(parseUpdate_payload hp).1]; simp [signedPart, credentialAt, hix]) (by omega)
    | [_], _, e => cases e
    | [], _, e => cases e
  · cases e
  · rename_i hix
    match rest0, hk, e with
    | payer :: sys :: rest, hk, e =>
      obtain ⟨a, r, auth, s, hp, g1, g2, g3, g4, g5, g6, _⟩ := createSessionV1_enc hw hd e
      have h1 : a.role = actingRole ix := by rw [parseSession_role hp]; simp [actingRole, hix]
      have h2 : a.authPayload = ix.drop (credentialAt ix) := by rw [(parseSession_payload hp).2]; simp [credentialAt, hix]
      have h3 : a.dataPayload = signedPart ix := by rw [(parseSession_payload hp).1]; simp [signedPart, credentialAt, hix]
      rw [h1] at g1
      rw [h2, h3] at g6
      exact .inr ⟨hix, r, auth, s, g1, g2, g3, g4, g5, g6⟩
    | [_], _, e => cases e
    | [], _, e => cases e
  · rename_i hix
    match rest0, hk, e with
    | payer :: sub :: sys :: rest, hk, e =>
      obtain ⟨r, ab, a, aa, h1, _⟩ := createSubV1_enc hw hd (hk sub (by simp)) e
      exact authenticated_of h1 (by simp [actingRole, hix]) (by simp [credentialAt, hix]) (by simp [signedPart, credentialAt, hix]) (by omega)
    | [_, _], _, e => cases e
    | [_], _, e => cases e
    | [], _, e => cases e
  · rename_i hix
    match rest0, hk, e with
    | auth :: sub :: x3 :: wallet :: x5 :: rest, hk, e =>
      obtain ⟨r, s, role, bump, b, h1, _⟩ := withdrawSubV1_enc hw hd (hk sub (by simp)) e
      exact authenticated_of h1 (by simp [actingRole, hix]) (by simp [credentialAt, hix]) (by simp [signedPart, credentialAt, hix]) (by omega)
    | [_, _, _, _], _, e => cases e
    | [_, _, _], _, e => cases e
    | [_, _], _, e => cases e
    | [_], _, e => cases e
    | [], _, e => cases e
  · rename_i hix
    match rest0, hk, e with
    | sub :: sys :: rest, hk, e =>
      obtain ⟨q, r, a, ixs, m1, hp, _, _, _, h1, _⟩ := subSignV1_enc hw hd (hk sub (by simp)) e
      exact authenticated_of h1 (by rw [parseSubSign_role hp]; simp [actingRole, hix]) (by rw [(parseSubSign_payload hp).2]; simp [credentialAt, hix])
        (by rw [(parseSubSign_payload hp).1]; simp [signedPart, hix]) (by omega)
    | [_], _, e => cases e
    | [], _, e => cases e
  · rename_i hix
    match rest0, hk, e with
    | payer :: sub :: rest, hk, e =>
      obtain ⟨r, t, ab, a, aa, h1, _⟩ := toggleSubV1_enc hw hd (hk sub (by simp)) e
      exact authenticated_of h1 (by simp [actingRole, hix]) (by simp [credentialAt, hix]) (by simp [signedPart, credentialAt, hix]) (by omega)
    | [_], _, e => cases e
    | [], _, e => cases e
  · rename_i hix
    match rest0, hk, e with
    | wallet :: x3 :: rest, hk, e =>
      obtain ⟨a, r, before, after, ixs, h1, h2, h3, h4, h5, _⟩ := signV2_enc hw hd e
      obtain ⟨p1, p2, p3⟩ := parseSign_ok h1
      exact authenticated_of h5 (by rw [p1]; simp [actingRole, hix]) (by rw [p3]; simp [credentialAt, hix])
        (by rw [p2]; simp [signedPart, innerBytes, hix]) (by omega)
    | [_], _, e => cases e
    | [], _, e => cases e
  · rename_i hix
    match rest0, hk, e with
    | auth :: payer :: wallet :: sys :: rest, hk, e =>
      obtain ⟨a, r, hp, h1, _⟩ := migrateV1_enc hw hd e
      exact authenticated_of h1 (by rw [parseRoleIx_role hp]; simp [actingRole, hix]) (by rw [(parseRoleIx_payload hp).2]; simp [credentialAt, hix])
        (by rw [(parseRoleIx_payload hp).1]; simp [signedPart, credentialAt, hix]) (by omega)
    | [_, _, _], _, e => cases e
    | [_, _], _, e => cases e
    | [_], _, e => cases e
    | [], _, e => cases e
  · rename_i hix
    match rest0, hk, e with
    | wallet :: payer :: sys :: rest, hk, e =>
      obtain ⟨a, r, hp, _, h1, _⟩ := transferAssetsV1_enc hw hd e
      exact authenticated_of h1 (by rw [parseRoleIx_role hp]; simp [actingRole, hix]) (by rw [(parseRoleIx_payload hp).2]; simp [credentialAt, hix])
        (by rw [(parseRoleIx_payload hp).1]; simp [signedPart, credentialAt, hix]) (by omega)
    | [_, _], _, e => cases e
    | [_], _, e => cases e
    | [], _, e => cases e
  · rename_i hix
    match rest0, hk, e with
    | wallet :: dst :: prog :: rest, hk, e =>
      obtain ⟨a, r, b, hp, h1, _⟩ := closeTokenV1_enc hw hd e
      exact authenticated_of h1 (by rw [parseRoleIx_role hp]; simp [actingRole, hix]) (by rw [(parseRoleIx_payload hp).2]; simp [credentialAt, hix])
        (by rw [(parseRoleIx_payload hp).1]; simp [signedPart, credentialAt, hix]) (by omega)
    | [_, _], _, e => cases e
    | [_], _, e => cases e
    | [], _, e => cases e
  · rename_i hix
    match rest0, hk, e with
    | wallet :: dst :: sys :: rest, hk, e =>
      obtain ⟨a, r, m1, b, hp, _, h1, _⟩ := closeSwigV1_enc hw hd e
      exact authenticated_of h1 (by rw [parseRoleIx_role hp]; simp [actingRole, hix]) (by rw [(parseRoleIx_payload hp).2]; simp [credentialAt, hix])
        (by rw [(parseRoleIx_payload hp).1]; simp [signedPart, credentialAt, hix]) (by omega)
    | [_, _], _, e => cases e
    | [_], _, e => cases e
    | [], _, e => cases e
  · rename_i hix
    obtain ⟨a, r, t, auth, key, hp, h1, _⟩ := replaceAuthorityV1_enc hw hd e
    exact authenticated_of h1 (by rw [(parseReplace_roles hp).1]; simp [actingRole, hix]) (by rw [(parseReplace_payload hp).2]; simp [credentialAt, hix])
      (by rw [(parseReplace_payload hp).1]; simp [signedPart, credentialAt, hix]) (by omega)
  · rename_i hix
    match rest0, hk, e with
    | payer :: sys :: rest, hk, e =>
      obtain ⟨a, r, _, hp, h1, _⟩ := setRentClaimerV1_enc hw hd e
      exact authenticated_of h1 (by rw [parseClaimer_role hp]; simp [actingRole, hix]) (by rw [(parseClaimer_payload hp).2]; simp [credentialAt, hix])
        (by rw [(parseClaimer_payload hp).1]; simp [signedPart, credentialAt, hix]) (by omega)
    | [_], _, e => cases e
    | [], _, e => cases e
  · rename_i hix
    match rest0, hk, e with
    | payer :: state :: sub :: sys :: rest, hk, e =>
      obtain ⟨r, h1, _⟩ := createSubV2_enc hw hd e
      exact authenticated_of h1 (by simp [actingRole, hix]) (by simp [credentialAt, hix]) (by simp [signedPart, credentialAt, hix]) (by omega)
    | [_, _, _], _, e => cases e
    | [_, _], _, e => cases e
    | [_], _, e => cases e
    | [], _, e => cases e
  · rename_i hix
    match rest0, hk, e with
    | auth :: state :: rest, hk, e =>
      obtain ⟨r, h1, _⟩ := toggleSubV2_enc hw hd e
      exact authenticated_of h1 (by simp [actingRole, hix]) (by simp [credentialAt, hix]) (by simp [signedPart, credentialAt, hix]) (by omega)
    | [_], _, e => cases e
    | [], _, e => cases e
  · rename_i hix
    match rest0, hk, e with
    | state :: sub :: sys :: rest, hk, e =>
      obtain ⟨a, r, ixs, m1, hp, _, _, _, h1, _⟩ := subSignV2_enc hw hd e
      exact authenticated_of h1 (by rw [parseSubSignV2_role hp]; simp [actingRole, hix]) (by rw [(parseSubSignV2_payload hp).2]; simp [credentialAt, hix])
        (by rw [(parseSubSignV2_payload hp).1]; simp [signedPart, credentialAt, hix]) (by omega)
    | [_, _], _, e => cases e
    | [_], _, e => cases e
    | [], _, e => cases e
  · rename_i hix
    match rest0, hk, e with
    | auth :: state :: sub :: wallet :: x6 :: x7 :: rest, hk, e =>
      obtain ⟨r, h1, _⟩ := withdrawSubV2_enc hw hd e
      exact authenticated_of h1 (by simp [actingRole, hix]) (by simp [credentialAt, hix]) (by simp [signedPart, credentialAt, hix]) (by omega)
    | [_, _, _, _, _], _, e => cases e
    | [_, _, _, _], _, e => cases e
    | [_, _, _], _, e => cases e
    | [_, _], _, e => cases e
    | [_], _, e => cases e
    | [], _, e => cases e
  · match rest0, hk, e with
    | payer :: wallet :: sys :: rest, hk, e =>
      obtain ⟨_, h0, _⟩ := bind_ok_iff.mp e
      unfold createChecks at h0
      obtain ⟨_, h0, _⟩ := bind_ok_iff.mp h0
      have := require_ok_iff.mp h0
      rw [ho.owner] at this
      exact absurd this (by decide)
    | [_, _], _, e => cases e
    | [_], _, e => cases e
    | [], _, e => cases e

end Verif
