import Verif.Spec.Ops
import Verif.Proofs.Layout
import Verif.Proofs.Actions
import Verif.Proofs.Auth
import Verif.Proofs.Roles
import Verif.Model.Auth

/-! Lemmas about the abstract wallet operations. -/

namespace Verif

theorem mapRole_ids (w : Wallet) (id : Nat) (f : Role → Role) (hf : ∀ r, (f r).id = r.id) :
    (w.mapRole id f).roles.map Role.id = w.roles.map Role.id := by
  unfold Wallet.mapRole
  simp only [List.map_map]
  apply List.map_congr_left
  intro r _
  simp only [Function.comp]
  split <;> simp [hf]

theorem mapRole_find (w : Wallet) (id id' : Nat) (f : Role → Role) (hf : ∀ r, (f r).id = r.id) :
    (w.mapRole id f).role? id' = (w.role? id').map fun r => if r.id = id then f r else r := by
  unfold Wallet.role? Wallet.mapRole
  simp only [List.find?_map]
  congr 1
  have : ((fun r : Role => decide (r.id = id')) ∘ fun r => if r.id = id then f r else r) = fun r => decide (r.id = id') := by
    funext r
    simp only [Function.comp]
    split <;> simp [hf]
  rw [this]

/-- Changing the only role with an id, given as a split of the list. -/
theorem mapRole_split {w : Wallet} {before after : List Role} {r : Role} (id : Nat) (f : Role → Role)
    (h : w.roles = before ++ r :: after) (hr : r.id = id) (hb : ∀ x ∈ before, x.id ≠ id) (ha : ∀ x ∈ after, x.id ≠ id) :
    (w.mapRole id f).roles = before ++ f r :: after := by
  have e : ∀ l : List Role, (∀ x ∈ l, x.id ≠ id) → l.map (fun r => if r.id = id then f r else r) = l := by
    intro l hl
    have : l.map (fun r => if r.id = id then f r else r) = l.map (fun r => r) := by
      apply List.map_congr_left
      intro x hx
      rw [if_neg (hl x hx)]
    rw [this, List.map_id']
  unfold Wallet.mapRole
  simp only [h, List.map_append, List.map_cons, if_pos hr, e before hb, e after ha]

theorem Wallet.mapRole_wf {w : Wallet} (hw : w.WF) (id : Nat) (f : Role → Role) (hf : ∀ r, (f r).id = r.id)
    (hfw : ∀ r ∈ w.roles, r.id = id → (f r).WF) (hsz : 48 + rolesSize (w.mapRole id f).roles + 40 < 2 ^ 31) :
    (w.mapRole id f).WF := by
  refine ⟨hw.idLen, hw.padLen, hw.counter, hw.subCounter, ?_, ?_, ?_, ?_, hw.claimer, hsz⟩
  · have := hw.count
    simpa [Wallet.mapRole] using this
  · intro r hr
    obtain ⟨x, hx, rfl⟩ := List.mem_map.mp hr
    split
    · rename_i h; exact hfw x hx h
    · exact hw.roles x hx
  · rw [mapRole_ids _ _ _ hf]; exact hw.idsNodup
  · intro r hr
    obtain ⟨x, hx, rfl⟩ := List.mem_map.mp hr
    have := hw.idsLt x hx
    split
    · rw [hf]; exact this
    · exact this

theorem rolesSize_mapRole (w : Wallet) (id : Nat) (f : Role → Role) (hf : ∀ r ∈ w.roles, r.id = id → (f r).size = r.size) :
    rolesSize (w.mapRole id f).roles = rolesSize w.roles := by
  unfold rolesSize Wallet.mapRole
  simp only [List.map_map]
  congr 1
  apply List.map_congr_left
  intro r hr
  simp only [Function.comp]
  split
  · rename_i h; exact hf r hr h
  · rfl

theorem usedCred_length {ty : Nat} {auth : Bytes} (h : authLen ty = some auth.length) :
    (usedCred ty auth).length = auth.length := by
  unfold usedCred
  split
  · rename_i h'
    have : auth.length = 40 := by
      rcases authLen_types h with ⟨a, b⟩ | ⟨a, b⟩ | ⟨a, b⟩ | ⟨a, b⟩ | ⟨a, b⟩ | ⟨a, b⟩ | ⟨a, b⟩ | ⟨a, b⟩ <;> omega
    simp [this]
  · rfl

theorem Role.wf_auth {r : Role} (h : r.WF) {auth : Bytes} (hl : auth.length = r.auth.length) :
    ({ r with auth := auth } : Role).WF :=
  ⟨by show authLen r.authType = some auth.length; rw [hl]; exact h.auth, h.nonempty, h.atMost, h.acts, h.v2⟩

theorem Wallet.used_wf {w : Wallet} (hw : w.WF) (id : Nat) : (w.used id).WF := by
  refine Wallet.mapRole_wf hw id _ (fun _ => rfl) ?_ ?_
  · intro r hr _
    exact Role.wf_auth (hw.roles r hr) (usedCred_length (hw.roles r hr).auth)
  · rw [rolesSize_mapRole]
    · exact hw.size
    · intro r hr _
      simp [Role.size, usedCred_length (hw.roles r hr).auth]

theorem Wallet.used_size {w : Wallet} (hw : w.WF) (id : Nat) : rolesSize (w.used id).roles = rolesSize w.roles := by
  refine rolesSize_mapRole _ _ _ ?_
  intro r hr _
  simp [Role.size, usedCred_length (hw.roles r hr).auth]

theorem Wallet.used_header (w : Wallet) (id : Nat) : (w.used id).header = w.header := by
  simp [Wallet.used, Wallet.mapRole, Wallet.header]

theorem Wallet.setAuth_wf {w : Wallet} (hw : w.WF) (id : Nat) (auth : Bytes)
    (hl : ∀ r ∈ w.roles, r.id = id → auth.length = r.auth.length) : (w.setAuth id auth).WF := by
  refine Wallet.mapRole_wf hw id _ (fun _ => rfl) ?_ ?_
  · intro r hr h
    exact Role.wf_auth (hw.roles r hr) (hl r hr h)
  · rw [rolesSize_mapRole]
    · exact hw.size
    · intro r hr h
      simp [Role.size, hl r hr h]

/-! ## Splits of a well-formed wallet -/

theorem Wallet.WF.others {w : Wallet} (hw : w.WF) {before after : List Role} {r : Role}
    (h : w.roles = before ++ r :: after) : (∀ x ∈ before, x.id ≠ r.id) ∧ (∀ x ∈ after, x.id ≠ r.id) := by
  have hn := hw.idsNodup
  rw [h] at hn
  simp only [List.map_append, List.map_cons] at hn
  have h1 := List.nodup_append.mp hn
  constructor
  · intro x hx e
    exact h1.2.2 x.id (List.mem_map.mpr ⟨x, hx, rfl⟩) r.id (by simp) e
  · intro x hx e
    have h2 := (List.nodup_cons.mp h1.2.1).1
    exact h2 (e ▸ List.mem_map.mpr ⟨x, hx, rfl⟩)

theorem role?_split {w : Wallet} {before after : List Role} {r : Role} {id : Nat}
    (h : w.roles = before ++ r :: after) (hr : r.id = id) (hb : ∀ x ∈ before, x.id ≠ id) : w.role? id = some r := by
  unfold Wallet.role?
  exact find?_split h hr hb

theorem role?_mem {w : Wallet} {r : Role} {id : Nat} (h : w.role? id = some r) : r ∈ w.roles ∧ r.id = id := by
  unfold Wallet.role? at h
  exact ⟨List.mem_of_find?_eq_some h, by simpa using List.find?_some h⟩

/-- A role of a wallet has a place in the list, and no other role shares its id. -/
theorem Wallet.WF.split {w : Wallet} (hw : w.WF) {r : Role} {id : Nat} (h : w.role? id = some r) :
    ∃ before after, w.roles = before ++ r :: after ∧ r.id = id ∧ (∀ x ∈ before, x.id ≠ id) ∧ (∀ x ∈ after, x.id ≠ id) := by
  obtain ⟨hm, hid⟩ := role?_mem h
  obtain ⟨before, after, e⟩ := List.append_of_mem hm
  obtain ⟨h1, h2⟩ := hw.others e
  exact ⟨before, after, e, hid, hid ▸ h1, hid ▸ h2⟩

theorem Wallet.WF.role?_iff {w : Wallet} (hw : w.WF) {r : Role} {id : Nat} :
    w.role? id = some r ↔ r ∈ w.roles ∧ r.id = id := by
  constructor
  · exact role?_mem
  · intro ⟨hm, hid⟩
    obtain ⟨before, after, e⟩ := List.append_of_mem hm
    obtain ⟨h1, _⟩ := hw.others e
    exact role?_split e hid (hid ▸ h1)

/-- Replacing the stored credential of one role, seen on the bytes. -/
theorem put_encRoles_auth (before after : List Role) (r : Role) (auth : Bytes) (hl : auth.length = r.auth.length) :
    put (encRoles 0 (before ++ r :: after)) (rolesSize before + 16) auth =
      encRoles 0 (before ++ { r with auth := auth } :: after) := by
  have e : ∀ a : Bytes, a.length = r.auth.length → encRoles 0 (before ++ { r with auth := a } :: after) =
      (encRoles 0 before ++ encPos r.authType r.auth.length r.actions.length r.id (rolesSize before + r.size)) ++
        (a ++ (encActs 0 r.actions ++ encRoles (rolesSize before + r.size) after)) := by
    intro a ha
    have hs : ({ r with auth := a } : Role).size = r.size := by simp [Role.size, ha]
    rw [encRoles_append]
    simp only [encRoles, encRole, hs, ha, Nat.zero_add, List.append_assoc]
  have e0 : encRoles 0 (before ++ r :: after) = encRoles 0 (before ++ { r with auth := r.auth } :: after) := rfl
  rw [e0, e r.auth rfl, e auth hl]
  exact put_mid' _ _ _ _ (by simp [encPos]) hl

/-! ## Alignment -/

theorem actionLen_mod {t n : Nat} (h : actionLen t = some n) : n % 8 = 0 := by
  unfold actionLen at h
  split at h <;> simp at h <;> omega

theorem authLen_mod {t n : Nat} (h : authLen t = some n) : n % 8 = 0 := by
  unfold authLen at h
  split at h <;> simp at h <;> omega

theorem actsSize_mod {as : List Act} (h : ∀ a ∈ as, a.WF) : actsSize as % 8 = 0 := by
  induction as with
  | nil => rfl
  | cons a as ih =>
    have h1 := actionLen_mod (h a (by simp))
    have h2 := ih (fun x hx => h x (by simp [hx]))
    simp only [actsSize_cons, Act.size]
    omega

theorem Role.size_mod {r : Role} (h : r.WF) : r.size % 8 = 0 := by
  have h1 := authLen_mod h.auth
  have h2 := actsSize_mod h.acts
  unfold Role.size
  omega

theorem rolesSize_mod {rs : List Role} (h : ∀ r ∈ rs, r.WF) : rolesSize rs % 8 = 0 := by
  induction rs with
  | nil => rfl
  | cons r rs ih =>
    have h1 := Role.size_mod (h r (by simp))
    have h2 := ih (fun x hx => h x (by simp [hx]))
    simp only [rolesSize_cons]
    omega

theorem Wallet.encode_mod {w : Wallet} (hw : w.WF) : w.encode.length % 8 = 0 := by
  rw [Wallet.encode_length hw]
  have h1 := rolesSize_mod hw.roles
  rcases encTail_length hw with h | h <;> omega

/-! ## Effect of authentication on the stored record -/

theorem secp_used (auth : Bytes) (h : auth.length = 40) (n : Nat) (hn : n = (odometer auth + 1) % 2 ^ 32) :
    put auth 36 (natLE 4 n) = auth.take 36 ++ natLE 4 (leNat (auth.drop 36) + 1) := by
  have e1 : odometer auth = leNat (auth.drop 36) := by
    unfold odometer rd sl
    congr 1
    apply List.take_of_length_le
    simp [h]
  have e2 : natLE 4 n = natLE 4 (leNat (auth.drop 36) + 1) := by
    apply leNat_inj (by simp)
    rw [leNat_natLE, leNat_natLE, hn, e1]
    omega
  rw [e2]
  unfold put
  have : auth.drop (36 + (natLE 4 (leNat (auth.drop 36) + 1)).length) = [] := by
    apply List.drop_eq_nil_of_le; simp [h]
  rw [this]
  simp

theorem k1_used {env : Env} {auth b : Bytes} {metas : List Meta} {payload d : Bytes} (h : auth.length = 40)
    (hok : k1Authenticate env auth metas payload d = .ok b) : b = auth.take 36 ++ natLE 4 (leNat (auth.drop 36) + 1) := by
  unfold k1Authenticate at hok
  split at hok
  · cases hok
  · simp only at hok
    split at hok
    · cases hok
    · rename_i hc
      obtain ⟨_, _, hok⟩ := bind_ok_iff.mp hok
      cases hok
      exact secp_used auth h _ (Decidable.of_not_not hc)

theorem r1_used {env : Env} {auth b : Bytes} {metas : List Meta} {sysvar payload d : Bytes} (h : auth.length = 40)
    (hok : r1Authenticate env auth metas sysvar payload d = .ok b) : b = auth.take 36 ++ natLE 4 (leNat (auth.drop 36) + 1) := by
  unfold r1Authenticate at hok
  split at hok
  · cases hok
  · simp only at hok
    split at hok
    · cases hok
    · rename_i hc
      obtain ⟨_, _, hok⟩ := bind_ok_iff.mp hok
      cases hok
      exact secp_used auth h _ (Decidable.of_not_not hc)

/-- Whatever the type of the role, a successful authentication stores the credential with its counter moved on, and nothing
else. -/
theorem authRole_used {env : Env} {ty : Nat} {auth b : Bytes} {metas : List Meta} {sysvar payload d : Bytes}
    (hal : authLen ty = some auth.length) (hok : authRole env ty auth metas sysvar payload d = .ok b) :
    b = usedCred ty auth := by
  unfold authRole at hok
  rcases authLen_types hal with ⟨rfl, hn⟩ | ⟨rfl, hn⟩ | ⟨rfl, hn⟩ | ⟨rfl, hn⟩ | ⟨rfl, hn⟩ | ⟨rfl, hn⟩ | ⟨rfl, hn⟩ | ⟨rfl, hn⟩
  · change (if payload.length ≠ 1 then _ else _) = _ at hok
    split at hok
    · cases hok
    · obtain ⟨_, _, hok⟩ := bind_ok_iff.mp hok
      cases hok; rfl
  · obtain ⟨_, _, hok⟩ := bind_ok_iff.mp hok
    cases hok; rfl
  · exact k1_used hn hok
  · obtain ⟨_, _, hok⟩ := bind_ok_iff.mp hok
    cases hok; rfl
  · exact r1_used hn hok
  · obtain ⟨_, _, hok⟩ := bind_ok_iff.mp hok
    cases hok; rfl
  · obtain ⟨_, _, hok⟩ := bind_ok_iff.mp hok
    cases hok; rfl
  · obtain ⟨_, _, hok⟩ := bind_ok_iff.mp hok
    cases hok; rfl

end Verif
