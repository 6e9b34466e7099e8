import Verif.Proofs.RolesRemove

/-! Changing the actions of a role in an encoded role table. -/

namespace Verif

theorem shift32_eq {x new cur y : Nat} (h : x + new = y + cur) (hy : y < 2 ^ 32) (hc : cur < 2 ^ 32) :
    shift32 x new cur = y := by
  unfold shift32; omega

/-- The boundary loop leaves the roles before the target alone. -/
theorem replaceFixGo_before (acts : Bytes) (newLen roleEnd target new cur : Nat) :
    ∀ (rs : List Role) (pre post : Bytes) (fuel : Nat), RolesOk pre.length rs → (∀ x ∈ rs, x.id ≠ target) →
    pre.length + rolesSize rs ≤ newLen → pre.length + rolesSize rs ≤ roleEnd → rs.length ≤ fuel →
    replaceFixGo acts newLen roleEnd target new cur fuel pre.length (pre ++ (encRoles pre.length rs ++ post)) =
      replaceFixGo acts newLen roleEnd target new cur (fuel - rs.length) (pre.length + rolesSize rs)
        (pre ++ (encRoles pre.length rs ++ post)) := by
  intro rs
  induction rs with
  | nil => intro pre post fuel _ _ _ _ _; simp
  | cons r rs ih =>
    intro pre post fuel h hid hn hre hf
    obtain ⟨h1, h2, h3, h4⟩ := h.head
    obtain ⟨_, f4, f5⟩ := encRole_fields' pre (encRoles (pre.length + r.size) rs ++ post) r pre.length h1 h2 h3
    have estep := roles_step' pre post r rs
    have hs : r.size = 16 + r.auth.length + actsSize r.actions := rfl
    simp only [rolesSize_cons] at hn hre
    obtain ⟨fuel, rfl⟩ : ∃ j, fuel = j + 1 := ⟨fuel - 1, by simp at hf; omega⟩
    have hone : replaceFixOne acts roleEnd target new cur pre.length (pre ++ (encRoles pre.length (r :: rs) ++ post)) =
        .ok (pre ++ (encRoles pre.length (r :: rs) ++ post), pre.length + r.size) := by
      unfold replaceFixOne
      rw [estep]
      simp only [f4, f5]
      rw [if_neg (hid r (by simp)), if_neg (by omega), put_boundary _ _ _ _ _ _ rfl]
    rw [replaceFixGo]
    rw [if_pos (by omega), if_neg (by omega), if_neg (by simp; omega), hone]
    simp only [ok_bind]
    have e : (pre ++ encRole pre.length r).length = pre.length + r.size := by simp
    have := ih (pre ++ encRole pre.length r) post fuel (by simpa using h4) (fun x hx => hid x (by simp [hx]))
      (by rw [e]; omega) (by rw [e]; omega) (by simp at hf; omega)
    rw [← roles_step, e] at this
    rw [this]
    simp [Nat.add_assoc]

/-- The boundary loop moves the boundaries of the roles after the target. -/
theorem replaceFixGo_after (acts : Bytes) (roleEnd target new cur : Nat) (hc : cur < 2 ^ 32) :
    ∀ (rs : List Role) (pre post : Bytes) (off fuel : Nat), (∀ x ∈ rs, x.id ≠ target) → RolesOk off rs →
    RolesOk pre.length rs → off + new = pre.length + cur → roleEnd ≤ off → rs.length ≤ fuel →
    replaceFixGo acts (pre.length + rolesSize rs) roleEnd target new cur fuel pre.length (pre ++ (encRoles off rs ++ post)) =
      .ok (pre ++ (encRoles pre.length rs ++ post)) := by
  intro rs
  induction rs with
  | nil =>
    intro pre post off fuel _ _ _ _ _ _
    cases fuel <;> simp [replaceFixGo, encRoles]
  | cons r rs ih =>
    intro pre post off fuel hid ho h heq hre hf
    obtain ⟨h1, h2, h3, h4⟩ := h.head
    obtain ⟨_, _, o3, o4⟩ := ho.head
    obtain ⟨_, f4, f5⟩ := encRole_fields' pre (encRoles (off + r.size) rs ++ post) r off h1 h2 o3
    have hs : r.size = 16 + r.auth.length + actsSize r.actions := rfl
    obtain ⟨fuel, rfl⟩ : ∃ j, fuel = j + 1 := ⟨fuel - 1, by simp at hf; omega⟩
    have estep : pre ++ (encRoles off (r :: rs) ++ post) =
        pre ++ (encRole off r ++ (encRoles (off + r.size) rs ++ post)) := by simp [encRoles]
    have hone : replaceFixOne acts roleEnd target new cur pre.length (pre ++ (encRoles off (r :: rs) ++ post)) =
        .ok (pre ++ (encRole pre.length r ++ (encRoles (off + r.size) rs ++ post)), pre.length + r.size) := by
      unfold replaceFixOne
      rw [estep]
      simp only [f4, f5]
      rw [if_neg (hid r (by simp)), if_pos (by omega), shift32_eq (y := pre.length + r.size) (by omega) h3 hc,
        put_boundary _ _ _ _ _ _ rfl]
    rw [replaceFixGo]
    simp only [rolesSize_cons]
    rw [if_pos (by omega), if_neg (by omega), if_neg (by simp; omega), hone]
    simp only [ok_bind]
    have e : (pre ++ encRole pre.length r).length = pre.length + r.size := by simp
    have := ih (pre ++ encRole pre.length r) post (off + r.size) fuel (fun x hx => hid x (by simp [hx])) o4
      (by simpa using h4) (by rw [e]; omega) (by omega) (by simp at hf; omega)
    rw [e] at this
    rw [← Nat.add_assoc, ← List.append_assoc, this]
    simp [encRoles]

/-- A role record with arbitrary action bytes. -/
def rawRole (t al n id bd : Nat) (auth x : Bytes) : Bytes := encPos t al n id bd ++ (auth ++ x)

theorem put_pos_fields (pre post : Bytes) (t al n id bd n' bd' : Nat) (auth x : Bytes) :
    put (put (pre ++ (rawRole t al n id bd auth x ++ post)) (pre.length + 12) (natLE 4 bd')) (pre.length + 4) (natLE 2 n') =
      pre ++ (rawRole t al n' id bd' auth x ++ post) := by
  have e : ∀ n bd, pre ++ (rawRole t al n id bd auth x ++ post) =
      (pre ++ (natLE 2 t ++ natLE 2 al ++ natLE 2 n ++ zeros 2 ++ natLE 4 id)) ++ (natLE 4 bd ++ (auth ++ x ++ post)) := by
    intro n bd; simp [rawRole, encPos]
  have e' : ∀ n bd, (pre ++ (natLE 2 t ++ natLE 2 al ++ natLE 2 n ++ zeros 2 ++ natLE 4 id)) ++ (natLE 4 bd ++ (auth ++ x ++ post)) =
      (pre ++ (natLE 2 t ++ natLE 2 al)) ++ (natLE 2 n ++ (zeros 2 ++ natLE 4 id ++ natLE 4 bd ++ (auth ++ x ++ post))) := by
    intro n bd; simp
  rw [e, put_mid' _ _ _ _ (by simp) (by simp), e', put_mid' _ _ _ _ (by simp) (by simp), e, e']

theorem put_num (pre post : Bytes) (t al n id bd n' : Nat) (auth x : Bytes) :
    put (pre ++ (rawRole t al n id bd auth x ++ post)) (pre.length + 4) (natLE 2 n') =
      pre ++ (rawRole t al n' id bd auth x ++ post) := by
  have e' : ∀ n, pre ++ (rawRole t al n id bd auth x ++ post) =
      (pre ++ (natLE 2 t ++ natLE 2 al)) ++ (natLE 2 n ++ (zeros 2 ++ natLE 4 id ++ natLE 4 bd ++ (auth ++ x ++ post))) := by
    intro n; simp [rawRole, encPos]
  rw [e', put_mid' _ _ _ _ (by simp) (by simp), e']

theorem rawRole_fields (pre post : Bytes) (t al n id bd : Nat) (auth x : Bytes) (ht : t < 2 ^ 16) (hal : al < 2 ^ 16)
    (hn : n < 2 ^ 16) (hid : id < 2 ^ 32) (hbd : bd < 2 ^ 32) :
    pId (pre ++ (rawRole t al n id bd auth x ++ post)) pre.length = id ∧
    pBoundary (pre ++ (rawRole t al n id bd auth x ++ post)) pre.length = bd := by
  have e : pre ++ (rawRole t al n id bd auth x ++ post) = pre ++ (encPos t al n id bd ++ (auth ++ x ++ post)) := by
    simp [rawRole]
  rw [e]
  have := encPos_fields pre (auth ++ x ++ post) t al n id bd ht hal hn hid hbd
  exact ⟨this.2.2.2.1, this.2.2.2.2⟩

theorem encRole_eq_raw (off : Nat) (r : Role) : encRole off r =
    rawRole r.authType r.auth.length r.actions.length r.id (off + r.size) r.auth (encActs 0 r.actions) := by
  simp [encRole, rawRole]

/-- The buffer after the shift: the record of the target has room for `new` bytes of actions. -/
theorem replaceShift_enc {before after : List Role} {r : Role} {junk : Bytes} {new : Nat}
    (hfit : new ≤ actsSize r.actions + junk.length) :
    ∃ x junk' : Bytes, x.length = new ∧ junk'.length + new = junk.length + actsSize r.actions ∧
      replaceShift (encRoles 0 (before ++ r :: after) ++ junk) (rolesSize (before ++ r :: after))
        (rolesSize before + r.size) new (actsSize r.actions) =
      .ok (encRoles 0 before ++ (rawRole r.authType r.auth.length r.actions.length r.id (rolesSize before + r.size) r.auth x ++
        (encRoles (rolesSize before + r.size) after ++ junk'))) := by
  have hs : r.size = 16 + r.auth.length + actsSize r.actions := rfl
  have ebuf : encRoles 0 (before ++ r :: after) ++ junk =
      (encRoles 0 before ++ (encPos r.authType r.auth.length r.actions.length r.id (rolesSize before + r.size) ++ r.auth)) ++
        (encActs 0 r.actions ++ (encRoles (rolesSize before + r.size) after ++ junk)) := by
    rw [encRoles_append]; simp [encRoles, encRole]
  have hrem : rolesSize (before ++ r :: after) - (rolesSize before + r.size) = rolesSize after := by
    rw [rolesSize_append]; simp; omega
  have hall : rolesSize (before ++ r :: after) = rolesSize before + r.size + rolesSize after := by
    rw [rolesSize_append]; simp; omega
  generalize hP : encRoles 0 before ++ (encPos r.authType r.auth.length r.actions.length r.id (rolesSize before + r.size) ++ r.auth)
    = P at ebuf
  have hPl : P.length = rolesSize before + 16 + r.auth.length := by rw [← hP]; simp; omega
  have hout : ∀ x y : Bytes, encRoles 0 before ++ (rawRole r.authType r.auth.length r.actions.length r.id
      (rolesSize before + r.size) r.auth x ++ y) = P ++ (x ++ y) := by
    intro x y; rw [← hP]; simp [rawRole]
  generalize hA : encActs 0 r.actions = A at ebuf
  have hAl : A.length = actsSize r.actions := by rw [← hA]; simp
  generalize hB : encRoles (rolesSize before + r.size) after = B at ebuf
  have hBl : B.length = rolesSize after := by rw [← hB]; simp
  unfold replaceShift
  simp only [hrem]
  by_cases h0 : rolesSize after = 0
  · rw [if_pos h0]
    have hB0 : B = [] := List.length_eq_zero_iff.mp (by omega)
    refine ⟨(A ++ junk).take new, (A ++ junk).drop new, by simp; omega, by simp; omega, ?_⟩
    rw [hout, ebuf, hB0]
    simp
  · rw [if_neg h0, if_neg (by rw [ebuf]; simp; omega)]
    have hsl : sl (encRoles 0 (before ++ r :: after) ++ junk) (rolesSize before + r.size) (rolesSize (before ++ r :: after)) = B := by
      rw [ebuf]
      have : P ++ (A ++ (B ++ junk)) = (P ++ A) ++ (B ++ junk) := by simp
      rw [this, sl_mid _ _ _ (by simp; omega) (by simp; omega)]
    rw [hsl, ebuf]
    generalize hZ : A ++ (B ++ junk) = Z
    have hZl : Z.length = actsSize r.actions + (rolesSize after + junk.length) := by rw [← hZ]; simp; omega
    refine ⟨Z.take new, (Z.drop new).drop (rolesSize after), by simp; omega, by simp; omega, ?_⟩
    rw [hout]
    have e1 : P ++ Z = (P ++ Z.take new) ++ ((Z.drop new).take (rolesSize after) ++ (Z.drop new).drop (rolesSize after)) := by
      rw [List.take_append_drop, List.append_assoc, List.take_append_drop]
    rw [e1, put_mid' _ _ _ _ (by simp; omega) (by simp; omega)]
    simp

/-- Role list with the actions of one role replaced. -/
theorem replaceAll_enc {before after : List Role} {r : Role} {junk acts : Bytes} {as : List Act}
    (hrs : RolesOk 0 (before ++ r :: after)) (hb : ∀ x ∈ before, x.id ≠ r.id) (ha : ∀ x ∈ after, x.id ≠ r.id)
    (hs : Submits acts as) (hfr : ∀ a ∈ as, a.Fresh) (h1 : 1 ≤ as.length) (h255 : as.length ≤ 255) (hdup : NoV2Dup as)
    (hfit : acts.length ≤ actsSize r.actions + junk.length)
    (hsz : rolesSize (before ++ r :: after) + acts.length < 2 ^ 32) :
    ∃ junk' : Bytes, junk'.length + acts.length = junk.length + actsSize r.actions ∧
      replaceAll (encRoles 0 (before ++ r :: after) ++ junk) (rolesSize (before ++ r :: after)) (rolesSize before)
        (rolesSize before + 16 + r.auth.length) (actsSize r.actions) acts r.id =
      .ok (encRoles 0 (before ++ { r with actions := as } :: after) ++ junk') := by
  have hrs' := hrs
  have hrw : r.WF := hrs.wf r (by simp)
  have hrid : r.id < 2 ^ 32 := hrs.ids r (by simp)
  have hal := authLen_lt hrw.auth
  have hn := hrw.atMost
  have hsize : r.size = 16 + r.auth.length + actsSize r.actions := rfl
  have hall : rolesSize (before ++ r :: after) = rolesSize before + r.size + rolesSize after := by
    rw [rolesSize_append]; simp; omega
  have hlen := hs.length
  have hcalc := (calcActions_iff acts as.length).mpr ⟨as, hs, hfr, rfl, h1, h255⟩
  have hbefore : RolesOk 0 before :=
    ⟨fun x hx => hrs.wf x (by simp [hx]), fun x hx => hrs.ids x (by simp [hx]), by omega⟩
  have hafter : ∀ off, off + rolesSize after < 2 ^ 32 → RolesOk off after := fun off ho =>
    ⟨fun x hx => hrs.wf x (by simp [hx]), fun x hx => hrs.ids x (by simp [hx]), ho⟩
  have hr' : ({ r with actions := as } : Role).size = 16 + r.auth.length + acts.length := by
    simp [Role.size, hlen]
  have key : ∃ x junk' : Bytes, x.length = acts.length ∧ junk'.length + acts.length = junk.length + actsSize r.actions ∧
      replacePrepare (encRoles 0 (before ++ r :: after) ++ junk) (rolesSize (before ++ r :: after)) (rolesSize before)
        (rolesSize before + 16 + r.auth.length) (actsSize r.actions) acts r.id =
      .ok (encRoles 0 before ++ (rawRole r.authType r.auth.length as.length r.id
        (rolesSize before + (16 + r.auth.length + acts.length)) r.auth x ++
          (encRoles (rolesSize before + (16 + r.auth.length + acts.length)) after ++ junk'))) := by
    unfold replacePrepare
    by_cases hne : acts.length ≠ actsSize r.actions
    · simp only
      rw [if_pos hne]
      obtain ⟨x, junk', hx, hj, hshift⟩ := replaceShift_enc (before := before) (after := after) (r := r) (junk := junk)
        (new := acts.length) hfit
      refine ⟨x, junk', hx, hj, ?_⟩
      have eend : rolesSize before + 16 + r.auth.length + actsSize r.actions = rolesSize before + r.size := by omega
      have enew : rolesSize (before ++ r :: after) + acts.length - actsSize r.actions =
          rolesSize before + (16 + r.auth.length + acts.length) + rolesSize after := by omega
      rw [eend, hshift, enew]
      simp only [ok_bind]
      have hlb := rolesSize_ge_length before
      have hla := rolesSize_ge_length after
      have p1 := replaceFixGo_before acts (rolesSize before + (16 + r.auth.length + acts.length) + rolesSize after)
        (rolesSize before + r.size) r.id acts.length (actsSize r.actions) before []
        (rawRole r.authType r.auth.length r.actions.length r.id (rolesSize before + r.size) r.auth x ++
          (encRoles (rolesSize before + r.size) after ++ junk'))
        (rolesSize before + (16 + r.auth.length + acts.length) + rolesSize after) hbefore hb (by simp; omega)
        (by simp) (by omega)
      simp only [List.nil_append, List.length_nil, Nat.zero_add] at p1
      rw [p1]
      obtain ⟨f, hf⟩ : ∃ f, rolesSize before + (16 + r.auth.length + acts.length) + rolesSize after - before.length =
          f + 1 := ⟨rolesSize before + (16 + r.auth.length + acts.length) + rolesSize after - before.length - 1, by omega⟩
      rw [hf, replaceFixGo]
      rw [if_pos (by omega), if_neg (by omega), if_neg (by simp [rawRole])]
      obtain ⟨q1, q2⟩ := rawRole_fields (encRoles 0 before) (encRoles (rolesSize before + r.size) after ++ junk')
        r.authType r.auth.length r.actions.length r.id (rolesSize before + r.size) r.auth x (by omega) (by omega) (by omega)
        hrid (by omega)
      rw [encRoles_length] at q1 q2
      have hone : replaceFixOne acts (rolesSize before + r.size) r.id acts.length (actsSize r.actions) (rolesSize before)
          (encRoles 0 before ++ (rawRole r.authType r.auth.length r.actions.length r.id (rolesSize before + r.size) r.auth x ++
            (encRoles (rolesSize before + r.size) after ++ junk'))) =
          .ok (encRoles 0 before ++ (rawRole r.authType r.auth.length as.length r.id
            (rolesSize before + (16 + r.auth.length + acts.length)) r.auth x ++
            (encRoles (rolesSize before + r.size) after ++ junk')), rolesSize before + (16 + r.auth.length + acts.length)) := by
        unfold replaceFixOne
        simp only [q1, q2]
        rw [if_pos trivial, hcalc]
        simp only [ok_bind]
        rw [if_neg (by omega), shift32_eq (y := rolesSize before + (16 + r.auth.length + acts.length)) (by omega) (by omega)
          (by omega)]
        have := put_pos_fields (encRoles 0 before) (encRoles (rolesSize before + r.size) after ++ junk') r.authType
          r.auth.length r.actions.length r.id (rolesSize before + r.size) as.length
          (rolesSize before + (16 + r.auth.length + acts.length)) r.auth x
        rw [encRoles_length] at this
        rw [this]
      rw [hone]
      simp only [ok_bind]
      have p3 := replaceFixGo_after acts (rolesSize before + r.size) r.id acts.length (actsSize r.actions) (by omega) after
        (encRoles 0 before ++ rawRole r.authType r.auth.length as.length r.id
            (rolesSize before + (16 + r.auth.length + acts.length)) r.auth x) junk' (rolesSize before + r.size) f ha
        (hafter _ (by omega)) (hafter _ (by simp [rawRole, hx]; omega)) (by simp [rawRole, hx]; omega) (by omega) (by omega)
      have el : (encRoles 0 before ++ rawRole r.authType r.auth.length as.length r.id
            (rolesSize before + (16 + r.auth.length + acts.length)) r.auth x).length =
            rolesSize before + (16 + r.auth.length + acts.length) := by simp [rawRole, hx]; omega
      rw [el] at p3
      rw [← List.append_assoc, p3]
      simp
    · simp only
      rw [if_neg hne]
      have heq : acts.length = actsSize r.actions := by omega
      refine ⟨encActs 0 r.actions, junk, by simp [heq], by omega, ?_⟩
      rw [hcalc]
      simp only [ok_bind]
      have hrsz : 16 + r.auth.length + acts.length = r.size := by omega
      rw [hrsz]
      have ebuf : encRoles 0 (before ++ r :: after) ++ junk = encRoles 0 before ++
          (rawRole r.authType r.auth.length r.actions.length r.id (rolesSize before + r.size) r.auth (encActs 0 r.actions) ++
            (encRoles (rolesSize before + r.size) after ++ junk)) := by
        rw [encRoles_append]; simp [encRoles, encRole_eq_raw]
      rw [ebuf, write_ok (by simp [rawRole]; omega)]
      have := put_num (encRoles 0 before) (encRoles (rolesSize before + r.size) after ++ junk) r.authType
          r.auth.length r.actions.length r.id (rolesSize before + r.size) as.length r.auth (encActs 0 r.actions)
      rw [encRoles_length] at this
      rw [this]
  obtain ⟨x, junk', hx, hj, hprep⟩ := key
  refine ⟨junk', hj, ?_⟩
  unfold replaceAll
  rw [(rejectDupV2_iff hs (fun a ha => (hfr a ha).1)).mpr hdup]
  simp only [ok_bind]
  rw [hprep]
  simp only [ok_bind]
  rw [if_neg (by omega)]
  have hcopy := copyActionsGo_submits (rolesSize before + 16 + r.auth.length) as acts acts.length
    (encRoles 0 before ++ (encPos r.authType r.auth.length as.length r.id
      (rolesSize before + (16 + r.auth.length + acts.length)) ++ r.auth))
    (x ++ (encRoles (rolesSize before + (16 + r.auth.length + acts.length)) after ++ junk')) hs hfr (Nat.le_refl _)
    (by simp; omega) (by simp; omega)
  have el : (encRoles 0 before ++ (encPos r.authType r.auth.length as.length r.id
      (rolesSize before + (16 + r.auth.length + acts.length)) ++ r.auth)).length = rolesSize before + 16 + r.auth.length := by
    simp; omega
  rw [el] at hcopy
  have ein : encRoles 0 before ++ (rawRole r.authType r.auth.length as.length r.id
        (rolesSize before + (16 + r.auth.length + acts.length)) r.auth x ++
          (encRoles (rolesSize before + (16 + r.auth.length + acts.length)) after ++ junk')) =
      encRoles 0 before ++ (encPos r.authType r.auth.length as.length r.id
      (rolesSize before + (16 + r.auth.length + acts.length)) ++ r.auth) ++
      (x ++ (encRoles (rolesSize before + (16 + r.auth.length + acts.length)) after ++ junk')) := by
    simp [rawRole]
  rw [ein, hcopy]
  have ed : (x ++ (encRoles (rolesSize before + (16 + r.auth.length + acts.length)) after ++ junk')).drop (actsSize as) =
      encRoles (rolesSize before + (16 + r.auth.length + acts.length)) after ++ junk' := by
    rw [← hlen, ← hx, List.drop_left]
  rw [ed, encRoles_append]
  simp [encRoles, encRole, hr']

/-- What a successful replacement implies about the submitted actions. -/
theorem replaceAll_ok {before after : List Role} {r : Role} {junk acts out : Bytes}
    (hrs : RolesOk 0 (before ++ r :: after)) (hb : ∀ x ∈ before, x.id ≠ r.id)
    (hfit : acts.length ≤ actsSize r.actions + junk.length)
    (hsz : rolesSize (before ++ r :: after) + acts.length < 2 ^ 32)
    (hok : replaceAll (encRoles 0 (before ++ r :: after) ++ junk) (rolesSize (before ++ r :: after)) (rolesSize before)
        (rolesSize before + 16 + r.auth.length) (actsSize r.actions) acts r.id = .ok out) :
    ∃ as, Submits acts as ∧ (∀ a ∈ as, a.Fresh) ∧ 1 ≤ as.length ∧ as.length ≤ 255 ∧ NoV2Dup as := by
  have hrw : r.WF := hrs.wf r (by simp)
  have hrid : r.id < 2 ^ 32 := hrs.ids r (by simp)
  have hal := authLen_lt hrw.auth
  have hn := hrw.atMost
  have hsize : r.size = 16 + r.auth.length + actsSize r.actions := rfl
  have hall : rolesSize (before ++ r :: after) = rolesSize before + r.size + rolesSize after := by
    rw [rolesSize_append]; simp; omega
  have hbefore : RolesOk 0 before :=
    ⟨fun x hx => hrs.wf x (by simp [hx]), fun x hx => hrs.ids x (by simp [hx]), by omega⟩
  unfold replaceAll at hok
  obtain ⟨_, hd, hok⟩ := bind_ok_iff.mp hok
  obtain ⟨b2, hprep, hok⟩ := bind_ok_iff.mp hok
  suffices h : ∃ n, calcActions acts = .ok n by
    obtain ⟨n, h⟩ := h
    obtain ⟨as, hs, hfr, hn, h1, h2⟩ := (calcActions_iff acts n).mp h
    exact ⟨as, hs, hfr, by omega, by omega, (rejectDupV2_iff hs (fun a ha => (hfr a ha).1)).mp hd⟩
  unfold replacePrepare at hprep
  simp only at hprep
  split at hprep
  · obtain ⟨x, junk', hx, hj, hshift⟩ := replaceShift_enc (before := before) (after := after) (r := r) (junk := junk)
        (new := acts.length) hfit
    have eend : rolesSize before + 16 + r.auth.length + actsSize r.actions = rolesSize before + r.size := by omega
    have enew : rolesSize (before ++ r :: after) + acts.length - actsSize r.actions =
        rolesSize before + (16 + r.auth.length + acts.length) + rolesSize after := by omega
    rw [eend, hshift, enew] at hprep
    simp only [ok_bind] at hprep
    have hlb := rolesSize_ge_length before
    have p1 := replaceFixGo_before acts (rolesSize before + (16 + r.auth.length + acts.length) + rolesSize after)
      (rolesSize before + r.size) r.id acts.length (actsSize r.actions) before []
      (rawRole r.authType r.auth.length r.actions.length r.id (rolesSize before + r.size) r.auth x ++
        (encRoles (rolesSize before + r.size) after ++ junk'))
      (rolesSize before + (16 + r.auth.length + acts.length) + rolesSize after) hbefore hb (by simp; omega)
      (by simp) (by omega)
    simp only [List.nil_append, List.length_nil, Nat.zero_add] at p1
    rw [p1] at hprep
    obtain ⟨f, hf⟩ : ∃ f, rolesSize before + (16 + r.auth.length + acts.length) + rolesSize after - before.length =
        f + 1 := ⟨rolesSize before + (16 + r.auth.length + acts.length) + rolesSize after - before.length - 1, by omega⟩
    rw [hf, replaceFixGo, if_pos (by omega), if_neg (by omega), if_neg (by simp [rawRole])] at hprep
    obtain ⟨q1, q2⟩ := rawRole_fields (encRoles 0 before) (encRoles (rolesSize before + r.size) after ++ junk')
      r.authType r.auth.length r.actions.length r.id (rolesSize before + r.size) r.auth x (by omega) (by omega) (by omega)
      hrid (by omega)
    rw [encRoles_length] at q1 q2
    obtain ⟨o, hone, _⟩ := bind_ok_iff.mp hprep
    unfold replaceFixOne at hone
    simp only [q1, q2] at hone
    rw [if_pos trivial] at hone
    obtain ⟨n, hc, _⟩ := bind_ok_iff.mp hone
    exact ⟨n, hc⟩
  · obtain ⟨n, hc, _⟩ := bind_ok_iff.mp hprep
    exact ⟨n, hc⟩

/-! ## Filtering -/

/-- Keep the elements selected by `keep index type`. -/
def keepActs (keep : Nat → Nat → Bool) : Nat → List Act → List Act
  | _, [] => []
  | i, a :: as => (if keep i a.ty then [a] else []) ++ keepActs keep (i + 1) as

theorem keepActs_subset (keep : Nat → Nat → Bool) : ∀ (as : List Act) (i : Nat), ∀ x ∈ keepActs keep i as, x ∈ as := by
  intro as
  induction as with
  | nil => intro i x hx; simp [keepActs] at hx
  | cons a as ih =>
    intro i x hx
    simp only [keepActs, List.mem_append] at hx
    rcases hx with hx | hx
    · split at hx <;> simp at hx; simp [hx]
    · simp [ih _ x hx]

theorem filterActionsGo_submits (chk : Bool) (keep : Nat → Nat → Bool) : ∀ (as : List Act) (b : Bytes) (fuel i : Nat),
    Submits b as → (∀ a ∈ as, a.WF) → b.length ≤ fuel → i + as.length < 2 ^ 16 →
    ∃ out, filterActionsGo chk keep fuel i b = .ok out ∧ Submits out (keepActs keep i as) := by
  intro as
  induction as with
  | nil =>
    intro b fuel i h _ _ _
    cases h
    refine ⟨[], ?_, .nil⟩
    cases fuel <;> simp [filterActionsGo]
  | cons a as ih =>
    intro b fuel i h hwf hf hi
    cases h with
    | cons _ next d _ hn ht hl hs =>
      obtain ⟨k1, k2, k3, k4, k5⟩ := raw_head next d a hn ht hl
      have hb := (hwf a (by simp)).bounds
      obtain ⟨fuel, rfl⟩ : ∃ k, fuel = k + 1 := ⟨fuel - 1, by omega⟩
      simp only [List.length_cons] at hi
      obtain ⟨out, ho, hso⟩ := ih d fuel (i + 1) hs (fun x hx => hwf x (by simp [hx])) (by omega) (by omega)
      have hsl : sl (rawAct next a ++ d) 0 (8 + a.data.length) = rawAct next a := by
        rw [sl_zero, List.take_left' (by rw [rawAct_length _ _ hn]; rfl)]
      refine ⟨(if keep i a.ty then rawAct next a else []) ++ out, ?_, ?_⟩
      · simp only [filterActionsGo, k1, k2]
        rw [if_neg (by intro h; rw [h] at k5; simp at k5; omega), if_neg (by omega), if_neg (by omega), if_neg (by omega), k4,
          Nat.mod_eq_of_lt (by omega), ho, hsl]
        rfl
      · simp only [keepActs]
        split
        · exact Submits.cons a next out _ hn ht hl hso
        · simpa using hso

theorem findOffsetsGo_enc (id : Nat) (r : Role) (after : List Role) (hrid : r.id = id) :
    ∀ (before : List Role) (pre : Bytes), RolesOk pre.length (before ++ r :: after) → (∀ x ∈ before, x.id ≠ id) →
    findOffsetsGo (pre ++ encRoles pre.length (before ++ r :: after)) id (before ++ r :: after).length pre.length =
      .ok (actsSize r.actions, pre.length + rolesSize before, pre.length + rolesSize before + 16 + r.auth.length) := by
  intro before
  induction before with
  | nil =>
    intro pre h _
    simp only [List.nil_append] at h ⊢
    obtain ⟨h1, h2, h3, h4⟩ := h.head
    obtain ⟨_, f2, _, f4, f5⟩ := encRole_fields pre (encRoles (pre.length + r.size) after ++ []) r h1 h2 h3
    rw [← roles_step', List.append_nil] at f2 f4 f5
    have hlen : (pre ++ encRoles pre.length (r :: after)).length = pre.length + (r.size + rolesSize after) := by simp
    have hs : r.size = 16 + r.auth.length + actsSize r.actions := rfl
    simp only [List.length_cons, findOffsetsGo, f2, f4, f5, hlen]
    rw [if_neg (by omega), if_neg (by omega), if_pos hrid, if_neg (by omega)]
    simp; omega
  | cons b before ih =>
    intro pre h hid
    simp only [List.cons_append] at h ⊢
    obtain ⟨h1, h2, h3, h4⟩ := h.head
    obtain ⟨_, f2, _, f4, f5⟩ := encRole_fields pre (encRoles (pre.length + b.size) (before ++ r :: after) ++ []) b h1 h2 h3
    rw [← roles_step', List.append_nil] at f2 f4 f5
    have hlen : (pre ++ encRoles pre.length (b :: (before ++ r :: after))).length =
        pre.length + (b.size + rolesSize (before ++ r :: after)) := by simp
    have hs : b.size = 16 + b.auth.length + actsSize b.actions := rfl
    simp only [List.length_cons, findOffsetsGo, f2, f4, f5, hlen]
    rw [if_neg (by omega), if_neg (by omega), if_neg (hid b (by simp))]
    have e : (pre ++ encRole pre.length b).length = pre.length + b.size := by simp
    have hstep : pre ++ encRoles pre.length (b :: (before ++ r :: after)) =
        (pre ++ encRole pre.length b) ++ encRoles (pre ++ encRole pre.length b).length (before ++ r :: after) := by
      have := roles_step pre [] b (before ++ r :: after)
      simpa using this
    have := ih (pre ++ encRole pre.length b) (by simpa using h4) (fun x hx => hid x (by simp [hx]))
    rw [← hstep, e] at this
    rw [this]
    simp [Nat.add_assoc]

theorem findOffsetsGo_absent (id : Nat) : ∀ (rs : List Role) (pre : Bytes), RolesOk pre.length rs → (∀ x ∈ rs, x.id ≠ id) →
    findOffsetsGo (pre ++ encRoles pre.length rs) id rs.length pre.length =
      .error E.invalidAuthorityNotFoundByRoleId := by
  intro rs
  induction rs with
  | nil => intro pre _ _; simp [findOffsetsGo]
  | cons b rs ih =>
    intro pre h hid
    obtain ⟨h1, h2, h3, h4⟩ := h.head
    obtain ⟨_, f2, _, f4, f5⟩ := encRole_fields pre (encRoles (pre.length + b.size) rs ++ []) b h1 h2 h3
    rw [← roles_step', List.append_nil] at f2 f4 f5
    have hlen : (pre ++ encRoles pre.length (b :: rs)).length = pre.length + (b.size + rolesSize rs) := by simp
    have hs : b.size = 16 + b.auth.length + actsSize b.actions := rfl
    simp only [List.length_cons, findOffsetsGo, f2, f4, f5, hlen]
    rw [if_neg (by omega), if_neg (by omega), if_neg (hid b (by simp))]
    have e : (pre ++ encRole pre.length b).length = pre.length + b.size := by simp
    have hstep : pre ++ encRoles pre.length (b :: rs) =
        (pre ++ encRole pre.length b) ++ encRoles (pre ++ encRole pre.length b).length rs := by
      have := roles_step pre [] b rs
      simpa using this
    have := ih (pre ++ encRole pre.length b) (by simpa using h4) (fun x hx => hid x (by simp [hx]))
    rw [← hstep, e] at this
    exact this

end Verif
