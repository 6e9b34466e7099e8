import Verif.Proofs.Roles

/-! Removing a role from an encoded role table. -/

namespace Verif

/-- Rewriting the boundary of the role record at the cursor. -/
theorem put_boundary (pre post : Bytes) (r : Role) (off off' i : Nat) (hi : i = pre.length + 12) :
    put (pre ++ (encRole off r ++ post)) i (natLE 4 (off' + r.size)) = pre ++ (encRole off' r ++ post) := by
  have e : ∀ o, pre ++ (encRole o r ++ post) =
      (pre ++ (natLE 2 r.authType ++ natLE 2 r.auth.length ++ natLE 2 r.actions.length ++ zeros 2 ++ natLE 4 r.id)) ++
        (natLE 4 (o + r.size) ++ (r.auth ++ (encActs 0 r.actions ++ post))) := by
    intro o; simp [encRole, encPos]
  rw [e, e, put_mid' _ _ _ _ (by simp [hi]) (by simp)]

/-- Field reads of a role record whose boundary is written relative to another offset. -/
theorem encRole_fields' (pre post : Bytes) (r : Role) (off : Nat) (hr : r.WF) (hid : r.id < 2 ^ 32)
    (hsz : off + r.size < 2 ^ 32) :
    pAuthLen (pre ++ (encRole off r ++ post)) pre.length = r.auth.length ∧
    pId (pre ++ (encRole off r ++ post)) pre.length = r.id ∧
    pBoundary (pre ++ (encRole off r ++ post)) pre.length = off + r.size := by
  have h1 := authLen_lt hr.auth
  have h2 := hr.atMost
  have e : pre ++ (encRole off r ++ post) =
      pre ++ (encPos r.authType r.auth.length r.actions.length r.id (off + r.size) ++
        (r.auth ++ encActs 0 r.actions ++ post)) := by simp [encRole]
  rw [e]
  have := encPos_fields pre (r.auth ++ encActs 0 r.actions ++ post) r.authType r.auth.length r.actions.length r.id (off + r.size)
    (by omega) (by omega) (by omega) hid hsz
  exact ⟨this.2.1, this.2.2.2.1, this.2.2.2.2⟩

theorem removeScanGo_enc (id : Nat) : ∀ (rs : List Role) (pre : Bytes) (found : Option (Nat × Nat)),
    RolesOk pre.length rs → (∀ x ∈ rs, x.id ≠ id) →
    removeScanGo (pre ++ encRoles pre.length rs) id rs.length pre.length found = .ok found := by
  intro rs
  induction rs with
  | nil => intro pre found _ _; simp [removeScanGo]
  | cons r rs ih =>
    intro pre found h hid
    obtain ⟨h1, h2, h3, h4⟩ := h.head
    obtain ⟨_, _, _, f4, f5⟩ := encRole_fields pre (encRoles (pre.length + r.size) rs ++ []) r h1 h2 h3
    rw [← roles_step', List.append_nil] at f4 f5
    have hlen : (pre ++ encRoles pre.length (r :: rs)).length = pre.length + (r.size + rolesSize rs) := by simp
    have hs : r.size = 16 + r.auth.length + actsSize r.actions := rfl
    simp only [List.length_cons, removeScanGo, f4, f5, hlen]
    rw [if_neg (by omega), if_neg (by omega), if_neg (by omega), if_neg (hid r (by simp))]
    have e : pre.length + r.size = (pre ++ encRole pre.length r).length := by simp
    have hstep : pre ++ encRoles pre.length (r :: rs) =
        (pre ++ encRole pre.length r) ++ encRoles (pre ++ encRole pre.length r).length rs := by
      have := roles_step pre [] r rs
      simpa using this
    rw [hstep, e]
    exact ih _ _ (by simpa using h4) (fun x hx => hid x (by simp [hx]))

theorem removeScanGo_found (id : Nat) (r : Role) (after : List Role) (hrid : r.id = id) (hafter : ∀ x ∈ after, x.id ≠ id) :
    ∀ (before : List Role) (pre : Bytes) (found : Option (Nat × Nat)),
    RolesOk pre.length (before ++ r :: after) → (∀ x ∈ before, x.id ≠ id) →
    removeScanGo (pre ++ encRoles pre.length (before ++ r :: after)) id (before ++ r :: after).length pre.length found =
      .ok (some (pre.length + rolesSize before, pre.length + rolesSize before + r.size)) := by
  intro before
  induction before with
  | nil =>
    intro pre found h _
    simp only [List.nil_append] at h ⊢
    obtain ⟨h1, h2, h3, h4⟩ := h.head
    obtain ⟨_, _, _, f4, f5⟩ := encRole_fields pre (encRoles (pre.length + r.size) after ++ []) r h1 h2 h3
    rw [← roles_step', List.append_nil] at f4 f5
    have hlen : (pre ++ encRoles pre.length (r :: after)).length = pre.length + (r.size + rolesSize after) := by simp
    have hs : r.size = 16 + r.auth.length + actsSize r.actions := rfl
    simp only [List.length_cons, removeScanGo, f4, f5, hlen]
    rw [if_neg (by omega), if_neg (by omega), if_neg (by omega), if_pos hrid]
    have e : pre.length + r.size = (pre ++ encRole pre.length r).length := by simp
    have hstep : pre ++ encRoles pre.length (r :: after) =
        (pre ++ encRole pre.length r) ++ encRoles (pre ++ encRole pre.length r).length after := by
      have := roles_step pre [] r after
      simpa using this
    have := removeScanGo_enc id after (pre ++ encRole pre.length r) (some (pre.length, pre.length + r.size))
      (by simpa using h4) hafter
    rw [← hstep, ← e] at this
    rw [this]
    simp
  | cons b before ih =>
    intro pre found h hid
    simp only [List.cons_append] at h ⊢
    obtain ⟨h1, h2, h3, h4⟩ := h.head
    obtain ⟨_, _, _, f4, f5⟩ := encRole_fields pre (encRoles (pre.length + b.size) (before ++ r :: after) ++ []) b h1 h2 h3
    rw [← roles_step', List.append_nil] at f4 f5
    have hlen : (pre ++ encRoles pre.length (b :: (before ++ r :: after))).length =
        pre.length + (b.size + rolesSize (before ++ r :: after)) := by simp
    have hs : b.size = 16 + b.auth.length + actsSize b.actions := rfl
    simp only [List.length_cons, removeScanGo, f4, f5, hlen]
    rw [if_neg (by omega), if_neg (by omega), if_neg (by omega), if_neg (hid b (by simp))]
    have e : (pre ++ encRole pre.length b).length = pre.length + b.size := by simp
    have hstep : pre ++ encRoles pre.length (b :: (before ++ r :: after)) =
        (pre ++ encRole pre.length b) ++ encRoles (pre ++ encRole pre.length b).length (before ++ r :: after) := by
      have := roles_step pre [] b (before ++ r :: after)
      simpa using this
    have := ih (pre ++ encRole pre.length b) found (by simpa using h4) (fun x hx => hid x (by simp [hx]))
    rw [← hstep, e] at this
    rw [this]
    simp [Nat.add_assoc]

/-- The fix-up loop turns boundaries written `k` too high into the right ones. -/
theorem removeFixGo_enc (k : Nat) : ∀ (rs : List Role) (pre post : Bytes) (fuel : Nat),
    RolesOk (pre.length + k) rs → rs.length ≤ fuel →
    removeFixGo k (pre.length + rolesSize rs) fuel pre.length (pre ++ (encRoles (pre.length + k) rs ++ post)) =
      .ok (pre ++ (encRoles pre.length rs ++ post)) := by
  intro rs
  induction rs with
  | nil =>
    intro pre post fuel _ _
    cases fuel <;> simp [removeFixGo, encRoles]
  | cons r rs ih =>
    intro pre post fuel h hf
    obtain ⟨h1, h2, h3, h4⟩ := h.head
    have estep : pre ++ (encRoles (pre.length + k) (r :: rs) ++ post) =
        pre ++ (encRole (pre.length + k) r ++ (encRoles (pre.length + k + r.size) rs ++ post)) := by simp [encRoles]
    obtain ⟨_, _, f5⟩ := encRole_fields' pre (encRoles (pre.length + k + r.size) rs ++ post) r (pre.length + k) h1 h2 h3
    have hs : r.size = 16 + r.auth.length + actsSize r.actions := rfl
    obtain ⟨fuel, rfl⟩ : ∃ j, fuel = j + 1 := ⟨fuel - 1, by simp at hf; omega⟩
    rw [estep]
    simp only [removeFixGo, f5, rolesSize_cons]
    rw [if_pos (by omega), if_neg (by simp; omega), if_pos (by omega)]
    have e : pre.length + k + r.size - k = pre.length + r.size := by omega
    rw [e, put_boundary _ _ _ _ _ _ rfl]
    have hk : pre.length + k + r.size = (pre ++ encRole pre.length r).length + k := by simp; omega
    have := ih (pre ++ encRole pre.length r) post fuel (by rw [← hk]; exact h4) (by simp at hf; omega)
    rw [← hk] at this
    have e2 : (pre ++ encRole pre.length r).length = pre.length + r.size := by simp
    rw [e2] at this
    rw [← Nat.add_assoc, ← List.append_assoc, this]
    simp [encRoles]

theorem removeRole_enc {h : Header} {before after : List Role} {r : Role} {id : Nat}
    (hrs : RolesOk 0 (before ++ r :: after)) (hcount : h.roles = (before ++ r :: after).length)
    (hcnt : h.roles < 2 ^ 16)
    (hid : r.id = id) (hb : ∀ x ∈ before, x.id ≠ id) (ha : ∀ x ∈ after, x.id ≠ id) :
    removeRole ⟨h, encRoles 0 (before ++ r :: after)⟩ id =
      .ok (⟨{ h with roles := (before ++ after).length }, encRoles 0 (before ++ after) ++ zeros r.size⟩,
        rolesSize (before ++ after), r.size) := by
  unfold removeRole
  have hscan := removeScanGo_found id r after hid ha before [] none hrs hb
  simp only [List.nil_append, List.length_nil, Nat.zero_add] at hscan
  simp only
  rw [hcount, hscan]
  simp only [ok_bind]
  rw [if_neg (by omega)]
  have hlen : (encRoles 0 (before ++ r :: after)).length = rolesSize before + (r.size + rolesSize after) := by
    simp [rolesSize_append]
  have ebuf : encRoles 0 (before ++ r :: after) =
      encRoles 0 before ++ (encRole (rolesSize before) r ++ encRoles (rolesSize before + r.size) after) := by
    rw [encRoles_append]; simp [encRoles]
  have edrop : (encRoles 0 (before ++ r :: after)).drop (rolesSize before + r.size) =
      encRoles (rolesSize before + r.size) after := by
    rw [ebuf, ← List.append_assoc, List.drop_left' (by simp)]
  have hsuf : RolesOk (rolesSize before + r.size) after := by
    refine ⟨fun x hx => hrs.wf x (by simp [hx]), fun x hx => hrs.ids x (by simp [hx]), ?_⟩
    have := hrs.size; rw [rolesSize_append] at this; simp at this; omega
  -- after the shift
  have eput : ∃ junk : Bytes, junk.length = r.size ∧
      put (encRoles 0 (before ++ r :: after)) (rolesSize before) (encRoles (rolesSize before + r.size) after) =
        encRoles 0 before ++ (encRoles (rolesSize before + r.size) after ++ junk) := by
    refine ⟨(encRole (rolesSize before) r ++ encRoles (rolesSize before + r.size) after).drop (rolesSize after), ?_, ?_⟩
    · simp
    · have := put_mid' (encRoles 0 before)
        ((encRole (rolesSize before) r ++ encRoles (rolesSize before + r.size) after).take (rolesSize after))
        ((encRole (rolesSize before) r ++ encRoles (rolesSize before + r.size) after).drop (rolesSize after))
        (encRoles (rolesSize before + r.size) after) (i := rolesSize before) (by simp) (by simp)
      rw [List.take_append_drop] at this
      rw [ebuf, this]
  obtain ⟨junk, hjl, eput⟩ := eput
  have hfix := removeFixGo_enc r.size after (encRoles 0 before) junk (rolesSize before + (r.size + rolesSize after))
    (by simpa using hsuf) (by have := rolesSize_ge_length after; omega)
  simp only [encRoles_length] at hfix
  have ebd : rolesSize before + r.size - rolesSize before = r.size := by omega
  have erem : rolesSize before + (r.size + rolesSize after) - (rolesSize before + r.size) = rolesSize after := by omega
  rw [edrop, eput, ebd, hlen, erem, hfix]
  simp only [ok_bind]
  have e1 : rolesSize before + (r.size + rolesSize after) - r.size = rolesSize before + rolesSize after := by omega
  rw [e1]
  have e2 : (encRoles 0 before ++ (encRoles (rolesSize before) after ++ junk)).take (rolesSize before + rolesSize after) =
      encRoles 0 (before ++ after) := by
    rw [← List.append_assoc, List.take_left' (by simp), encRoles_append]; simp
  have e3 : ((before ++ r :: after).length + 2 ^ 16 - 1) % 2 ^ 16 = (before ++ after).length := by
    rw [hcount] at hcnt
    simp at hcnt ⊢
    omega
  rw [e2, e3, rolesSize_append]

/-- A role that is not there cannot be removed. -/
theorem removeRole_absent {h : Header} {rs : List Role} {id : Nat} (hrs : RolesOk 0 rs) (hcount : h.roles = rs.length)
    (hid : ∀ x ∈ rs, x.id ≠ id) :
    removeRole ⟨h, encRoles 0 rs⟩ id = .error E.st_roleNotFound := by
  unfold removeRole
  have := removeScanGo_enc id rs [] none hrs hid
  simp only [List.nil_append, List.length_nil] at this
  simp only
  rw [hcount, this]
  rfl

end Verif
