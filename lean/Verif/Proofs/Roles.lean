import Verif.Proofs.Submit

/-! Adding, removing and changing roles on an encoded role table. -/

namespace Verif

/-! ## Authority creation -/

theorem authLen_cases {ty al : Nat} (h : authLen ty = some al) :
    (ty = 1 ∧ al = 32) ∨ (ty = 2 ∧ al = 80) ∨ (ty = 3 ∧ al = 40) ∨ (ty = 4 ∧ al = 88) ∨ (ty = 5 ∧ al = 40) ∨
    (ty = 6 ∧ al = 88) ∨ (ty = 7 ∧ al = 80) ∨ (ty = 8 ∧ al = 128) := by
  unfold authLen at h
  split at h <;> simp at h <;> omega

theorem setAuthority1 (create old : Bytes) : setAuthority 1 create old =
    if create.length ≠ 32 then .error E.st_invalidRoleData else .ok create := rfl
theorem setAuthority2 (create old : Bytes) : setAuthority 2 create old =
    if create.length ≠ 72 then .error .invalidAccountData else .ok (create ++ sl old 72 80) := rfl
theorem setAuthority3 (create old : Bytes) : setAuthority 3 create old =
    if create.length = 33 then .ok (create ++ sl old 33 36 ++ zeros 4)
    else if create.length = 64 then .ok (compressKey create ++ sl old 33 36 ++ zeros 4)
    else .error E.st_invalidRoleData := rfl
theorem setAuthority4 (create old : Bytes) : setAuthority 4 create old =
    if create.length ≠ 104 then .error .invalidAccountData
    else .ok ((if sl create 33 64 = zeros 31 then sl create 0 33 else compressKey (sl create 0 64)) ++
      sl old 33 36 ++ zeros 4 ++ sl create 64 104 ++ sl old 80 88) := rfl
theorem setAuthority5 (create old : Bytes) : setAuthority 5 create old =
    if create.length ≠ 33 then .error E.st_invalidRoleData
    else .ok (create ++ sl old 33 36 ++ zeros 4) := rfl
theorem setAuthority6 (create old : Bytes) : setAuthority 6 create old =
    if create.length ≠ 80 then .error .invalidAccountData
    else .ok (sl create 0 33 ++ sl old 33 36 ++ zeros 4 ++ sl create 40 80 ++ sl old 80 88) := rfl
theorem setAuthority7 (create old : Bytes) : setAuthority 7 create old =
    if create.length ≠ 80 then .error E.st_invalidRoleData
    else if (create.getD 32 0).toNat > 40 then .error E.st_invalidRoleData
    else if sl create 0 32 = swigId then .error E.au_permissionDeniedProgramExecCannotBeSwig
    else .ok (sl create 0 33 ++ sl old 33 40 ++ sl create 40 (40 + (create.getD 32 0).toNat) ++
      sl old (40 + (create.getD 32 0).toNat) 80) := rfl
theorem setAuthority8 (create old : Bytes) : setAuthority 8 create old =
    if create.length ≠ 128 then .error .invalidAccountData
    else if (create.getD 32 0).toNat > 40 then .error E.st_invalidRoleData
    else if sl create 0 32 = swigId then .error E.au_permissionDeniedProgramExecCannotBeSwig
    else .ok (sl create 0 33 ++ sl old 33 40 ++ sl create 40 120 ++ zeros 8) := rfl

theorem setAuthority_length {ty al : Nat} {create old auth : Bytes} (h : setAuthority ty create old = .ok auth)
    (hal : authLen ty = some al) (hold : old.length = al) : auth.length = al := by
  rcases authLen_cases hal with ⟨rfl, rfl⟩ | ⟨rfl, rfl⟩ | ⟨rfl, rfl⟩ | ⟨rfl, rfl⟩ | ⟨rfl, rfl⟩ | ⟨rfl, rfl⟩ |
    ⟨rfl, rfl⟩ | ⟨rfl, rfl⟩
  · rw [setAuthority1] at h
    split at h <;> cases h; omega
  · rw [setAuthority2] at h
    split at h <;> cases h; simp [sl_length]; omega
  · rw [setAuthority3] at h
    split at h
    · cases h; simp [sl_length]; omega
    · split at h <;> cases h; simp [sl_length, compressKey]; omega
  · rw [setAuthority4] at h
    split at h
    · cases h
    · cases h
      split <;> simp [sl_length, compressKey] <;> omega
  · rw [setAuthority5] at h
    split at h <;> cases h; simp [sl_length]; omega
  · rw [setAuthority6] at h
    split at h <;> cases h; simp [sl_length]; omega
  · rw [setAuthority7] at h
    split at h
    · cases h
    · split at h
      · cases h
      · split at h <;> cases h; simp [sl_length]; omega
  · rw [setAuthority8] at h
    split at h
    · cases h
    · split at h
      · cases h
      · split at h <;> cases h; simp [sl_length]; omega

/-! ## Adding a role -/

theorem lastBoundaryGo_enc : ∀ (rs : List Role) (pre post : Bytes), RolesOk pre.length rs →
    lastBoundaryGo (pre ++ (encRoles pre.length rs ++ post)) rs.length pre.length =
      .ok (pre.length + rolesSize rs) := by
  intro rs
  induction rs with
  | nil => intro pre post _; simp [lastBoundaryGo]
  | cons r rs ih =>
    intro pre post h
    obtain ⟨h1, h2, h3, h4⟩ := h.head
    obtain ⟨_, _, _, _, f5⟩ := encRole_fields pre (encRoles (pre.length + r.size) rs ++ post) r h1 h2 h3
    rw [← roles_step'] at f5
    simp only [List.length_cons, lastBoundaryGo, f5]
    have hlen : (pre ++ (encRoles pre.length (r :: rs) ++ post)).length =
        pre.length + (r.size + rolesSize rs + post.length) := by simp
    have hs : r.size = 16 + r.auth.length + actsSize r.actions := rfl
    rw [hlen, if_neg (by omega)]
    have e : pre.length + r.size = (pre ++ encRole pre.length r).length := by simp
    rw [roles_step, e, ih _ _ (by simpa using h4)]
    simp; omega

theorem writePosition_enc (pre junk : Bytes) (t al n id bd : Nat) (hj : 16 ≤ junk.length) (hp : sl junk 6 8 = zeros 2) :
    writePosition (pre ++ junk) pre.length t al n id bd = .ok (pre ++ (encPos t al n id bd ++ junk.drop 16)) := by
  unfold writePosition
  have ej : junk = junk.take 6 ++ (zeros 2 ++ ((junk.drop 8).take 8 ++ junk.drop 16)) := by
    have e1 := take_drop_split junk 6
    have e2 : junk.drop 6 = sl junk 6 8 ++ junk.drop 8 := by
      have := take_drop_split (junk.drop 6) 2
      simpa [sl] using this
    have e3 := take_drop_split (junk.drop 8) 8
    rw [List.drop_drop] at e3
    rw [hp] at e2
    rw [← e3, ← e2, ← e1]
  have w1 := write_mid pre (junk.take 6) (zeros 2 ++ ((junk.drop 8).take 8 ++ junk.drop 16))
    (natLE 2 t ++ natLE 2 al ++ natLE 2 n) rfl (by simp; omega)
  rw [← ej] at w1
  rw [w1]
  simp only [ok_bind]
  have e4 : pre ++ (natLE 2 t ++ natLE 2 al ++ natLE 2 n ++ (zeros 2 ++ ((junk.drop 8).take 8 ++ junk.drop 16))) =
      (pre ++ (natLE 2 t ++ natLE 2 al ++ natLE 2 n ++ zeros 2)) ++ ((junk.drop 8).take 8 ++ junk.drop 16) := by simp
  rw [e4, write_mid _ _ _ _ (by simp) (by simp; omega)]
  simp [encPos]

theorem addRole_enc {h : Header} {rs : List Role} {junk create acts auth : Bytes} {ty al : Nat} {as : List Act}
    (hrs : RolesOk 0 rs) (hcount : h.roles = rs.length) (hty : authLen ty = some al) (hs : Submits acts as)
    (hfr : ∀ a ∈ as, a.Fresh) (h1 : 1 ≤ as.length) (h255 : as.length ≤ 255) (hdup : NoV2Dup as)
    (hpad : sl junk 6 8 = zeros 2) (hfit : 16 + al + acts.length ≤ junk.length)
    (hauth : setAuthority ty create (sl junk 16 (16 + al)) = .ok auth) :
    addRole ⟨h, encRoles 0 rs ++ junk⟩ ty create acts =
      .ok ⟨{ h with roles := (rs.length + 1) % 2 ^ 16, roleCounter := (h.roleCounter + 1) % 2 ^ 32 },
        encRoles 0 (rs ++ [⟨ty, h.roleCounter, auth, as⟩]) ++ junk.drop (16 + al + acts.length)⟩ := by
  have hlen : auth.length = al := setAuthority_length hauth hty (by rw [sl_length_of_le (by omega)]; omega)
  unfold addRole
  rw [(calcActions_iff acts as.length).mpr ⟨as, hs, hfr, rfl, h1, h255⟩]
  simp only [ok_bind]
  rw [(rejectDupV2_iff hs (fun a ha => (hfr a ha).1)).mpr hdup]
  simp only [ok_bind]
  have hlb := lastBoundaryGo_enc rs [] junk hrs
  simp only [List.nil_append, List.length_nil, Nat.zero_add] at hlb
  rw [hcount, hlb]
  simp only [ok_bind, hty]
  have hsl : slice (encRoles 0 rs ++ junk) (rolesSize rs + 16) (rolesSize rs + 16 + al) = .ok (sl junk 16 (16 + al)) := by
    rw [slice_ok (by omega) (by simp; omega)]
    rw [sl_right _ _ _ _ (by simp)]
    have e1 : rolesSize rs + 16 - (encRoles 0 rs).length = 16 := by simp
    have e2 : rolesSize rs + 16 + al - (encRoles 0 rs).length = 16 + al := by simp; omega
    rw [e1, e2]
  rw [hsl]
  simp only [ok_bind]
  rw [hauth]
  simp only [ok_bind]
  -- the junk split in position, authority and rest
  have ej : junk = junk.take 16 ++ (sl junk 16 (16 + al) ++ junk.drop (16 + al)) := by
    have e1 := take_drop_split junk 16
    have e2 := take_drop_split (junk.drop 16) al
    rw [List.drop_drop] at e2
    have e3 : sl junk 16 (16 + al) = (junk.drop 16).take al := by simp [sl]
    rw [e3, ← e2, ← e1]
  have w1 : write (encRoles 0 rs ++ junk) (rolesSize rs + 16) auth =
      .ok (encRoles 0 rs ++ (junk.take 16 ++ (auth ++ junk.drop (16 + al)))) := by
    have := write_mid (encRoles 0 rs ++ junk.take 16) (sl junk 16 (16 + al)) (junk.drop (16 + al)) auth
      (i := rolesSize rs + 16) (by simp; omega) (by rw [sl_length_of_le (by omega)]; omega)
    rw [List.append_assoc, List.append_assoc, ← ej] at this
    exact this
  rw [w1]
  simp only [ok_bind]
  have hpad' : sl (junk.take 16 ++ (auth ++ junk.drop (16 + al))) 6 8 = zeros 2 := by
    rw [sl_left _ _ _ _ (by simp; omega), ← hpad]
    have : sl (junk.take 16) 6 8 = sl (sl junk 0 16) 6 8 := by rw [sl_zero]
    rw [this, sl_sl _ _ _ _ _ (by omega)]
  have w2 := writePosition_enc (encRoles 0 rs) (junk.take 16 ++ (auth ++ junk.drop (16 + al))) ty al as.length h.roleCounter
    (rolesSize rs + 16 + (al + acts.length)) (by simp; omega) hpad'
  rw [encRoles_length] at w2
  rw [w2]
  simp only [ok_bind]
  have hd : (junk.take 16 ++ (auth ++ junk.drop (16 + al))).drop 16 = auth ++ junk.drop (16 + al) := by
    rw [List.drop_left' (by simp; omega)]
  rw [hd]
  have w3 := writeActionsGo_submits (rolesSize rs + 16 + al) as [] acts
    (encRoles 0 rs ++ (encPos ty al as.length h.roleCounter (rolesSize rs + 16 + (al + acts.length)) ++ auth))
    (junk.drop (16 + al)) hs hfr (by simp; omega) (by rw [← hs.length]; simp; omega)
  simp only [List.nil_append, List.length_nil] at w3
  have el : (encRoles 0 rs ++ (encPos ty al as.length h.roleCounter (rolesSize rs + 16 + (al + acts.length)) ++ auth)).length =
      rolesSize rs + 16 + al := by simp; omega
  rw [el] at w3
  have ea : encRoles 0 rs ++ (encPos ty al as.length h.roleCounter (rolesSize rs + 16 + (al + acts.length)) ++
      (auth ++ junk.drop (16 + al))) = encRoles 0 rs ++ (encPos ty al as.length h.roleCounter
        (rolesSize rs + 16 + (al + acts.length)) ++ auth) ++ junk.drop (16 + al) := by simp
  rw [ea, w3]
  simp only [ok_bind]
  rw [encRoles_append]
  simp [encRoles, encRole, Role.size, hlen, hs.length, Nat.add_assoc]

/-- What a successful `add_role` implies. -/
theorem addRole_ok {h : Header} {rs : List Role} {junk create acts : Bytes} {ty : Nat} {s' : Builder}
    (hrs : RolesOk 0 rs) (hcount : h.roles = rs.length)
    (hok : addRole ⟨h, encRoles 0 rs ++ junk⟩ ty create acts = .ok s') :
    ∃ as al auth, authLen ty = some al ∧ Submits acts as ∧ (∀ a ∈ as, a.Fresh) ∧ 1 ≤ as.length ∧ as.length ≤ 255 ∧
      NoV2Dup as ∧ setAuthority ty create (sl junk 16 (16 + al)) = .ok auth ∧ 16 + al ≤ junk.length := by
  unfold addRole at hok
  obtain ⟨n, h1, hok⟩ := bind_ok_iff.mp hok
  obtain ⟨as, hs, hfr, hn, hn1, hn2⟩ := (calcActions_iff acts n).mp h1
  obtain ⟨_, h2, hok⟩ := bind_ok_iff.mp hok
  have hdup := (rejectDupV2_iff hs (fun a ha => (hfr a ha).1)).mp h2
  obtain ⟨c, h3, hok⟩ := bind_ok_iff.mp hok
  have hlb := lastBoundaryGo_enc rs [] junk hrs
  simp only [List.nil_append, List.length_nil, Nat.zero_add] at hlb
  simp only at h3
  rw [hcount, hlb] at h3
  cases h3
  cases hal : authLen ty with
  | none => simp [hal] at hok
  | some al =>
    simp only [hal] at hok
    obtain ⟨old, h4, hok⟩ := bind_ok_iff.mp hok
    obtain ⟨_, h4', rfl⟩ := slice_eq_ok h4
    obtain ⟨auth, h5, hok⟩ := bind_ok_iff.mp hok
    have e : sl (encRoles 0 rs ++ junk) (rolesSize rs + 16) (rolesSize rs + 16 + al) = sl junk 16 (16 + al) := by
      rw [sl_right _ _ _ _ (by simp)]
      have e1 : rolesSize rs + 16 - (encRoles 0 rs).length = 16 := by simp
      have e2 : rolesSize rs + 16 + al - (encRoles 0 rs).length = 16 + al := by simp; omega
      rw [e1, e2]
    rw [e] at h5
    simp at h4'
    exact ⟨as, al, auth, rfl, hs, hfr, by omega, by omega, hdup, h5, by omega⟩

end Verif
