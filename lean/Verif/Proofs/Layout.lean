import Verif.Proofs.Bytes
import Verif.Spec.Wallet

/-! Lengths of the encodings and field reads at role and action records. -/

namespace Verif

@[simp] theorem encAct_length (next : Nat) (a : Act) : (encAct next a).length = a.size := by
  simp [encAct, Act.size]; omega

@[simp] theorem actsSize_nil : actsSize [] = 0 := rfl
@[simp] theorem actsSize_cons (a : Act) (as : List Act) : actsSize (a :: as) = a.size + actsSize as := by
  simp [actsSize]
theorem actsSize_append (as bs : List Act) : actsSize (as ++ bs) = actsSize as + actsSize bs := by
  simp [actsSize]

@[simp] theorem rolesSize_nil : rolesSize [] = 0 := rfl
@[simp] theorem rolesSize_cons (a : Role) (as : List Role) : rolesSize (a :: as) = a.size + rolesSize as := by
  simp [rolesSize]
theorem rolesSize_append (as bs : List Role) : rolesSize (as ++ bs) = rolesSize as + rolesSize bs := by
  simp [rolesSize]

@[simp] theorem encActs_length (off : Nat) (as : List Act) : (encActs off as).length = actsSize as := by
  induction as generalizing off with
  | nil => rfl
  | cons a as ih => simp [encActs, ih]

@[simp] theorem encPos_length (a b c d e : Nat) : (encPos a b c d e).length = 16 := by
  simp [encPos]

@[simp] theorem encRole_length (off : Nat) (r : Role) : (encRole off r).length = r.size := by
  simp [encRole, Role.size]; omega

@[simp] theorem encRoles_length (off : Nat) (rs : List Role) : (encRoles off rs).length = rolesSize rs := by
  induction rs generalizing off with
  | nil => rfl
  | cons r rs ih => simp [encRoles, ih]

theorem encRoles_append (off : Nat) (as bs : List Role) :
    encRoles off (as ++ bs) = encRoles off as ++ encRoles (off + rolesSize as) bs := by
  induction as generalizing off with
  | nil => simp [encRoles]
  | cons a as ih => simp [encRoles, ih, Nat.add_assoc]

theorem encActs_append (off : Nat) (as bs : List Act) :
    encActs off (as ++ bs) = encActs off as ++ encActs (off + actsSize as) bs := by
  induction as generalizing off with
  | nil => simp [encActs]
  | cons a as ih => simp [encActs, ih, Nat.add_assoc]

theorem length_le_actsSize (as : List Act) : 8 * as.length ≤ actsSize as := by
  induction as with
  | nil => simp
  | cons a as ih => simp [Act.size]; omega

theorem length_le_rolesSize (rs : List Role) : 16 * rs.length ≤ rolesSize rs := by
  induction rs with
  | nil => simp
  | cons a as ih => simp [Role.size]; omega

/-- Reading a little-endian field in the middle. -/
theorem rd_natLE (pre post : Bytes) (k n i : Nat) (hi : i = pre.length) (hn : n < 256 ^ k) :
    rd (pre ++ (natLE k n ++ post)) i k = n := by
  unfold rd
  rw [sl_mid pre (natLE k n) post hi (by simp; omega), leNat_natLE_of_lt hn]

/-- Fields of a position record. -/
theorem encPos_fields (pre post : Bytes) (t al n id bd : Nat) (ht : t < 2 ^ 16) (hal : al < 2 ^ 16) (hn : n < 2 ^ 16)
    (hid : id < 2 ^ 32) (hbd : bd < 2 ^ 32) :
    pAuthType (pre ++ (encPos t al n id bd ++ post)) pre.length = t ∧
    pAuthLen (pre ++ (encPos t al n id bd ++ post)) pre.length = al ∧
    pNumActions (pre ++ (encPos t al n id bd ++ post)) pre.length = n ∧
    pId (pre ++ (encPos t al n id bd ++ post)) pre.length = id ∧
    pBoundary (pre ++ (encPos t al n id bd ++ post)) pre.length = bd := by
  refine ⟨?_, ?_, ?_, ?_, ?_⟩
  · have e : pre ++ (encPos t al n id bd ++ post) =
      pre ++ (natLE 2 t ++ (natLE 2 al ++ natLE 2 n ++ zeros 2 ++ natLE 4 id ++ natLE 4 bd ++ post)) := by
      simp [encPos]
    rw [e]; exact rd_natLE _ _ _ _ _ rfl (by simpa using ht)
  · have e : pre ++ (encPos t al n id bd ++ post) =
      (pre ++ natLE 2 t) ++ (natLE 2 al ++ (natLE 2 n ++ zeros 2 ++ natLE 4 id ++ natLE 4 bd ++ post)) := by
      simp [encPos]
    rw [e]; exact rd_natLE _ _ _ _ _ (by simp) (by simpa using hal)
  · have e : pre ++ (encPos t al n id bd ++ post) =
      (pre ++ natLE 2 t ++ natLE 2 al) ++ (natLE 2 n ++ (zeros 2 ++ natLE 4 id ++ natLE 4 bd ++ post)) := by
      simp [encPos]
    rw [e]; exact rd_natLE _ _ _ _ _ (by simp) (by simpa using hn)
  · have e : pre ++ (encPos t al n id bd ++ post) =
      (pre ++ natLE 2 t ++ natLE 2 al ++ natLE 2 n ++ zeros 2) ++ (natLE 4 id ++ (natLE 4 bd ++ post)) := by
      simp [encPos]
    rw [e]; exact rd_natLE _ _ _ _ _ (by simp) (by simpa using hid)
  · have e : pre ++ (encPos t al n id bd ++ post) =
      (pre ++ natLE 2 t ++ natLE 2 al ++ natLE 2 n ++ zeros 2 ++ natLE 4 id) ++ (natLE 4 bd ++ post) := by
      simp [encPos]
    rw [e]; exact rd_natLE _ _ _ _ _ (by simp) (by simpa using hbd)

/-- Fields of an action record. -/
theorem rawAct_fields (pre post next : Bytes) (a : Act) (hn : next.length = 4) (ht : a.ty < 2 ^ 16)
    (hl : a.data.length < 2 ^ 16) :
    aType (pre ++ (rawAct next a ++ post)) pre.length = a.ty ∧
    aLen (pre ++ (rawAct next a ++ post)) pre.length = a.data.length ∧
    aBoundary (pre ++ (rawAct next a ++ post)) pre.length = leNat next ∧
    sl (pre ++ (rawAct next a ++ post)) (pre.length + 8) (pre.length + 8 + a.data.length) = a.data := by
  refine ⟨?_, ?_, ?_, ?_⟩
  · have e : pre ++ (rawAct next a ++ post) =
      pre ++ (natLE 2 a.ty ++ (natLE 2 a.data.length ++ next ++ a.data ++ post)) := by simp [rawAct]
    rw [e]; exact rd_natLE _ _ _ _ _ rfl (by simpa using ht)
  · have e : pre ++ (rawAct next a ++ post) =
      (pre ++ natLE 2 a.ty) ++ (natLE 2 a.data.length ++ (next ++ a.data ++ post)) := by simp [rawAct]
    rw [e]; exact rd_natLE _ _ _ _ _ (by simp) (by simpa using hl)
  · have e : pre ++ (rawAct next a ++ post) =
      (pre ++ natLE 2 a.ty ++ natLE 2 a.data.length) ++ (next ++ (a.data ++ post)) := by simp [rawAct]
    rw [e]
    unfold aBoundary rd
    rw [sl_mid _ _ _ (by simp) (by simp; omega)]
  · have e : pre ++ (rawAct next a ++ post) =
      (pre ++ natLE 2 a.ty ++ natLE 2 a.data.length ++ next) ++ (a.data ++ post) := by simp [rawAct]
    rw [e, sl_mid _ _ _ (by simp; omega) (by simp; omega)]

theorem encAct_eq_rawAct (n : Nat) (a : Act) : encAct n a = rawAct (natLE 4 n) a := rfl

theorem rawAct_length (next : Bytes) (a : Act) (h : next.length = 4) : (rawAct next a).length = a.size := by
  simp [rawAct, Act.size, h]; omega

/-! ## Header -/

structure Header.WF (h : Header) : Prop where
  idLen : h.id.length = 32
  padLen : h.pad.length = 3
  roles : h.roles < 2 ^ 16
  counter : h.roleCounter < 2 ^ 32
  subCounter : h.subCounter < 2 ^ 32

theorem Header.encode_length {h : Header} (hw : h.WF) : h.encode.length = 48 := by
  simp [Header.encode, hw.idLen, hw.padLen]

theorem Header.decode_encode {h : Header} (hw : h.WF) (rest : Bytes) :
    Header.decode (h.encode ++ rest) = h := by
  obtain ⟨disc, bump, id, roles, rc, wb, pad, sc⟩ := h
  obtain ⟨h1, h2, h3, h4, h5⟩ := hw
  simp only at h1 h2 h3 h4 h5
  unfold Header.decode
  have e0 : ∀ x : Bytes, x = (Header.mk disc bump id roles rc wb pad sc).encode ++ rest →
      x = [disc, bump] ++ (id ++ (natLE 2 roles ++ (natLE 4 rc ++ ([wb] ++ (pad ++ (natLE 4 sc ++ rest)))))) := by
    intro x hx; rw [hx]; simp [Header.encode]
  have e := e0 _ rfl
  congr 1
  · rw [e]; exact sl_mid [disc, bump] id _ (by simp) (by simp [h1])
  · have e' := e; rw [← List.append_assoc] at e'
    rw [e']; exact rd_natLE _ _ _ _ _ (by simp [h1]) (by simpa using h3)
  · have e' := e; rw [← List.append_assoc, ← List.append_assoc] at e'
    rw [e']; exact rd_natLE _ _ _ _ _ (by simp [h1]) (by simpa using h4)
  · have e' := e; rw [← List.append_assoc, ← List.append_assoc, ← List.append_assoc] at e'
    rw [e', List.getD_eq_getElem?_getD, List.getElem?_append_right (by simp [h1])]
    simp [h1]
  · have e' := e; rw [← List.append_assoc, ← List.append_assoc, ← List.append_assoc, ← List.append_assoc] at e'
    rw [e']; exact sl_mid _ pad _ (by simp [h1]) (by simp [h1, h2])
  · have e' := e
    rw [← List.append_assoc, ← List.append_assoc, ← List.append_assoc, ← List.append_assoc, ← List.append_assoc] at e'
    rw [e']; exact rd_natLE _ _ _ _ _ (by simp [h1, h2]) (by simpa using h5)

theorem Wallet.WF.header {w : Wallet} (hw : w.WF) : w.header.WF :=
  ⟨hw.idLen, hw.padLen, hw.count, hw.counter, hw.subCounter⟩

/-! ## Roles -/

theorem authLen_lt {t n : Nat} (h : authLen t = some n) : n ≤ 128 ∧ 1 ≤ t ∧ t ≤ 8 ∧ 32 ≤ n := by
  unfold authLen at h
  split at h <;> simp at h <;> omega

theorem actionLen_lt {t n : Nat} (h : actionLen t = some n) : n ≤ 144 ∧ 1 ≤ t ∧ t ≤ 26 := by
  unfold actionLen at h
  split at h <;> simp at h <;> omega

theorem Act.WF.bounds {a : Act} (h : a.WF) : a.data.length ≤ 144 ∧ 1 ≤ a.ty ∧ a.ty ≤ 26 := actionLen_lt h

theorem authTypeOf_ok {t n : Nat} (h : authLen t = some n) : authTypeOf t = .ok t := by
  have := authLen_lt h
  unfold authTypeOf
  rw [if_pos (by omega)]

/-- What a reader of a role record at offset `off` sees. -/
def viewOf (off : Nat) (r : Role) : RoleView where
  offset := off
  authType := r.authType
  authLen := r.auth.length
  numActions := r.actions.length
  id := r.id
  boundary := off + r.size
  auth := r.auth
  actions := encActs 0 r.actions

theorem encRole_fields (pre post : Bytes) (r : Role) (hr : r.WF) (hid : r.id < 2 ^ 32)
    (hsz : pre.length + r.size < 2 ^ 32) :
    pAuthType (pre ++ (encRole pre.length r ++ post)) pre.length = r.authType ∧
    pAuthLen (pre ++ (encRole pre.length r ++ post)) pre.length = r.auth.length ∧
    pNumActions (pre ++ (encRole pre.length r ++ post)) pre.length = r.actions.length ∧
    pId (pre ++ (encRole pre.length r ++ post)) pre.length = r.id ∧
    pBoundary (pre ++ (encRole pre.length r ++ post)) pre.length = pre.length + r.size := by
  have h1 := authLen_lt hr.auth
  have h2 := hr.atMost
  have e : pre ++ (encRole pre.length r ++ post) =
      pre ++ (encPos r.authType r.auth.length r.actions.length r.id (pre.length + r.size) ++
        (r.auth ++ encActs 0 r.actions ++ post)) := by simp [encRole]
  rw [e]
  exact encPos_fields _ _ _ _ _ _ _ (by omega) (by omega) (by omega) hid hsz

theorem roleAt_enc (pre post : Bytes) (r : Role) (hr : r.WF) (hid : r.id < 2 ^ 32)
    (hsz : pre.length + r.size < 2 ^ 32) :
    roleAt (pre ++ (encRole pre.length r ++ post)) pre.length = .ok (viewOf pre.length r) := by
  obtain ⟨f1, f2, f3, f4, f5⟩ := encRole_fields pre post r hr hid hsz
  have hlen : (pre ++ (encRole pre.length r ++ post)).length = pre.length + (r.size + post.length) := by simp
  have hs : r.size = 16 + r.auth.length + actsSize r.actions := rfl
  unfold roleAt
  simp only [f1, f2, f3, f4, f5, hlen]
  rw [if_neg (by omega), authTypeOf_ok hr.auth]
  simp only [ok_bind]
  rw [if_neg (by simp [hr.auth]), if_neg (by omega)]
  have e1 : pre ++ (encRole pre.length r ++ post) =
      (pre ++ encPos r.authType r.auth.length r.actions.length r.id (pre.length + r.size)) ++
        (r.auth ++ (encActs 0 r.actions ++ post)) := by simp [encRole]
  have e2 : pre ++ (encRole pre.length r ++ post) =
      (pre ++ encPos r.authType r.auth.length r.actions.length r.id (pre.length + r.size) ++ r.auth) ++
        (encActs 0 r.actions ++ post) := by simp [encRole]
  have g1 : sl (pre ++ (encRole pre.length r ++ post)) (pre.length + 16) (pre.length + 16 + r.auth.length) = r.auth := by
    rw [e1]; exact sl_mid _ _ _ (by simp) (by simp)
  have g2 : sl (pre ++ (encRole pre.length r ++ post)) (pre.length + 16 + r.auth.length) (pre.length + r.size) =
      encActs 0 r.actions := by
    rw [e2]; exact sl_mid _ _ _ (by simp; omega) (by simp; omega)
  rw [g1, g2]
  rfl

/-- Hypotheses on a list of roles placed at offset `off` and followed by anything. -/
structure RolesOk (off : Nat) (rs : List Role) : Prop where
  wf : ∀ r ∈ rs, r.WF
  ids : ∀ r ∈ rs, r.id < 2 ^ 32
  size : off + rolesSize rs < 2 ^ 32

theorem RolesOk.head {off : Nat} {r : Role} {rs : List Role} (h : RolesOk off (r :: rs)) :
    r.WF ∧ r.id < 2 ^ 32 ∧ off + r.size < 2 ^ 32 ∧ RolesOk (off + r.size) rs := by
  have hs := h.size
  simp at hs
  exact ⟨h.wf r (by simp), h.ids r (by simp), by omega,
    ⟨fun x hx => h.wf x (by simp [hx]), fun x hx => h.ids x (by simp [hx]), by omega⟩⟩

/-- One step along the role table: reassociation of the buffer. -/
theorem roles_step (pre post : Bytes) (r : Role) (rs : List Role) :
    pre ++ (encRoles pre.length (r :: rs) ++ post) =
      (pre ++ encRole pre.length r) ++
        (encRoles (pre ++ encRole pre.length r).length rs ++ post) := by
  simp [encRoles]

theorem roles_step' (pre post : Bytes) (r : Role) (rs : List Role) :
    pre ++ (encRoles pre.length (r :: rs) ++ post) =
      pre ++ (encRole pre.length r ++ (encRoles (pre.length + r.size) rs ++ post)) := by
  simp [encRoles]

theorem rolesEndGo_enc : ∀ (rs : List Role) (pre post : Bytes), RolesOk pre.length rs →
    rolesEndGo (pre ++ (encRoles pre.length rs ++ post)) rs.length pre.length =
      .ok (pre.length + rolesSize rs) := by
  intro rs
  induction rs with
  | nil => intro pre post _; simp [rolesEndGo]
  | cons r rs ih =>
    intro pre post h
    obtain ⟨h1, h2, h3, h4⟩ := h.head
    obtain ⟨_, _, _, _, f5⟩ := encRole_fields pre (encRoles (pre.length + r.size) rs ++ post) r h1 h2 h3
    rw [← roles_step'] at f5
    simp only [List.length_cons, rolesEndGo, f5]
    have hlen : (pre ++ (encRoles pre.length (r :: rs) ++ post)).length =
        pre.length + (r.size + rolesSize rs + post.length) := by simp
    have hs : r.size = 16 + r.auth.length + actsSize r.actions := rfl
    rw [hlen, if_neg (by omega), if_neg (by omega)]
    have e : pre.length + r.size = (pre ++ encRole pre.length r).length := by simp
    rw [roles_step, e, ih _ _ (by simpa using h4)]
    simp; omega

theorem Wallet.WF.rolesOk {w : Wallet} (hw : w.WF) : RolesOk 0 w.roles :=
  ⟨hw.roles, fun r hr => by have := hw.idsLt r hr; have := hw.counter; omega, by have := hw.size; omega⟩

theorem Wallet.encode_drop {w : Wallet} (hw : w.WF) : w.encode.drop 48 = encRoles 0 w.roles ++ encTail w.claimer := by
  unfold Wallet.encode
  rw [← Header.encode_length hw.header, List.drop_left]

theorem Wallet.encode_header {w : Wallet} (hw : w.WF) : Header.decode w.encode = w.header :=
  Header.decode_encode hw.header _

theorem Wallet.encode_length {w : Wallet} (hw : w.WF) :
    w.encode.length = 48 + (rolesSize w.roles + (encTail w.claimer).length) := by
  simp [Wallet.encode, Header.encode_length hw.header]

theorem encTail_length {w : Wallet} (hw : w.WF) : (encTail w.claimer).length = 0 ∨ (encTail w.claimer).length = 40 := by
  cases h : w.claimer with
  | none => simp [encTail]
  | some k => simp [encTail, hw.claimer k h]

theorem rolesEndOffset_encode {w : Wallet} (hw : w.WF) :
    rolesEndOffset w.encode = .ok (48 + rolesSize w.roles) := by
  unfold rolesEndOffset
  have hl := Wallet.encode_length hw
  rw [if_neg (by omega), Wallet.encode_header hw, Wallet.encode_drop hw]
  have h := rolesEndGo_enc w.roles [] (encTail w.claimer) hw.rolesOk
  simp only [List.nil_append, List.length_nil, Nat.zero_add] at h
  show (rolesEndGo _ w.roles.length 0 >>= fun c => .ok (48 + c)) = _
  rw [h]
  rfl

theorem splitParts_encode {w : Wallet} (hw : w.WF) :
    splitParts w.encode = .ok ⟨w.header, encRoles 0 w.roles, encTail w.claimer⟩ := by
  unfold splitParts
  rw [rolesEndOffset_encode hw]
  simp only [ok_bind]
  rw [Wallet.encode_header hw]
  have h48 := Header.encode_length hw.header
  have e1 : sl w.encode 48 (48 + rolesSize w.roles) = encRoles 0 w.roles := by
    unfold Wallet.encode
    exact sl_mid _ _ _ h48.symm (by simp [h48])
  have e2 : w.encode.drop (48 + rolesSize w.roles) = encTail w.claimer := by
    rw [← List.drop_drop, Wallet.encode_drop hw]
    rw [← encRoles_length 0 w.roles, List.drop_left]
  rw [e1, e2]

theorem findRoleGo_enc (id : Nat) : ∀ (rs : List Role) (pre : Bytes) (fuel : Nat), RolesOk pre.length rs →
    rs.length ≤ fuel →
    (∃ r before after, rs = before ++ r :: after ∧ r.id = id ∧ (∀ x ∈ before, x.id ≠ id) ∧
      findRoleGo (pre ++ encRoles pre.length rs) id fuel pre.length = .ok (some (pre.length + rolesSize before)))
    ∨ ((∀ x ∈ rs, x.id ≠ id) ∧ findRoleGo (pre ++ encRoles pre.length rs) id fuel pre.length = .ok none) := by
  intro rs
  induction rs with
  | nil =>
    intro pre fuel _ _
    right
    refine ⟨by simp, ?_⟩
    cases fuel <;> simp [findRoleGo, encRoles]
  | cons r rs ih =>
    intro pre fuel h hf
    obtain ⟨h1, h2, h3, h4⟩ := h.head
    obtain ⟨_, _, _, f4, f5⟩ := encRole_fields pre (encRoles (pre.length + r.size) rs ++ []) r h1 h2 h3
    rw [← roles_step', List.append_nil] at f4 f5
    obtain ⟨fuel, rfl⟩ : ∃ k, fuel = k + 1 := ⟨fuel - 1, by simp at hf; omega⟩
    have hlen : (pre ++ encRoles pre.length (r :: rs)).length =
        pre.length + (r.size + rolesSize rs) := by simp
    have hs : r.size = 16 + r.auth.length + actsSize r.actions := rfl
    simp only [findRoleGo, f4, f5]
    rw [hlen, if_pos (by omega), if_neg (by omega)]
    by_cases hid : r.id = id
    · left
      exact ⟨r, [], rs, rfl, hid, by simp, by simp [hid]⟩
    · rw [if_neg hid, if_neg (by omega)]
      have e : pre.length + r.size = (pre ++ encRole pre.length r).length := by simp
      have hstep : pre ++ encRoles pre.length (r :: rs) =
          (pre ++ encRole pre.length r) ++ encRoles (pre ++ encRole pre.length r).length rs := by
        have := roles_step pre [] r rs
        simpa using this
      rw [hstep, e]
      rcases ih (pre ++ encRole pre.length r) fuel (by simpa using h4) (by simp at hf; omega) with
        ⟨r', before, after, g1, g2, g3, g4⟩ | ⟨g1, g2⟩
      · left
        refine ⟨r', r :: before, after, by simp [g1], g2, ?_, ?_⟩
        · intro x hx; simp at hx; rcases hx with rfl | hx
          · exact hid
          · exact g3 x hx
        · rw [g4]; simp; omega
      · right
        refine ⟨?_, g2⟩
        intro x hx; simp at hx; rcases hx with rfl | hx
        · exact hid
        · exact g1 x hx

theorem rolesSize_ge_length (rs : List Role) : rs.length ≤ rolesSize rs := by
  have := length_le_rolesSize rs; omega

/-- `get_mut_role` on the role table of a wallet returns the view of the first role with the id, or nothing. -/
theorem getMutRole_enc (id : Nat) (rs : List Role) (h : RolesOk 0 rs) :
    (∃ r before after, rs = before ++ r :: after ∧ r.id = id ∧ (∀ x ∈ before, x.id ≠ id) ∧
      getMutRole (encRoles 0 rs) id = .ok (some (viewOf (rolesSize before) r)))
    ∨ ((∀ x ∈ rs, x.id ≠ id) ∧ getMutRole (encRoles 0 rs) id = .ok none) := by
  have hfuel : rs.length ≤ (encRoles 0 rs).length := by simp; exact rolesSize_ge_length rs
  rcases findRoleGo_enc id rs [] _ h hfuel with ⟨r, before, after, g1, g2, g3, g4⟩ | ⟨g1, g2⟩
  · left
    refine ⟨r, before, after, g1, g2, g3, ?_⟩
    simp only [List.nil_append, List.length_nil, Nat.zero_add] at g4
    unfold getMutRole
    rw [g4]
    simp only [ok_bind]
    have hr : r ∈ rs := by rw [g1]; simp
    have hsz : rolesSize before + r.size < 2 ^ 32 := by
      have := h.size; rw [g1, rolesSize_append] at this; simp at this; omega
    have e : encRoles 0 rs = encRoles 0 before ++
        (encRole (encRoles 0 before).length r ++ encRoles (rolesSize before + r.size) after) := by
      rw [g1, encRoles_append]; simp [encRoles]
    have hra := roleAt_enc (encRoles 0 before) (encRoles (rolesSize before + r.size) after) r (h.wf r hr) (h.ids r hr)
      (by simpa using hsz)
    rw [← e, encRoles_length] at hra
    rw [hra]
    rfl
  · right
    refine ⟨g1, ?_⟩
    simp only [List.nil_append, List.length_nil] at g2
    unfold getMutRole
    rw [g2]
    rfl

theorem getMutRole_find (id : Nat) (rs : List Role) (h : RolesOk 0 rs) :
    (getMutRole (encRoles 0 rs) id).map (Option.map (fun v => (v.authType, v.auth, v.actions, v.numActions, v.id))) =
      .ok ((rs.find? (fun r => r.id = id)).map
        (fun r => (r.authType, r.auth, encActs 0 r.actions, r.actions.length, r.id))) := by
  rcases getMutRole_enc id rs h with ⟨r, before, after, g1, g2, g3, g4⟩ | ⟨g1, g2⟩
  · rw [g4]
    have : rs.find? (fun r => r.id = id) = some r := by
      rw [g1, List.find?_append]
      have : before.find? (fun r => decide (r.id = id)) = none := by
        rw [List.find?_eq_none]; intro x hx; simp [g3 x hx]
      rw [this]; simp [g2]
    rw [this]; rfl
  · rw [g2]
    have : rs.find? (fun r => r.id = id) = none := by
      rw [List.find?_eq_none]; intro x hx; simp [g1 x hx]
    rw [this]; rfl

/-- `SwigWithRoles::get_role` agrees with `get_mut_role`. -/
theorem getRoleGo_enc (id : Nat) : ∀ (rs : List Role) (pre : Bytes), RolesOk pre.length rs →
    (∃ r before after, rs = before ++ r :: after ∧ r.id = id ∧ (∀ x ∈ before, x.id ≠ id) ∧
      getRoleGo (pre ++ encRoles pre.length rs) id rs.length pre.length =
        .ok (some (viewOf (pre.length + rolesSize before) r)))
    ∨ ((∀ x ∈ rs, x.id ≠ id) ∧ getRoleGo (pre ++ encRoles pre.length rs) id rs.length pre.length = .ok none) := by
  intro rs
  induction rs with
  | nil => intro pre _; right; exact ⟨by simp, by simp [getRoleGo]⟩
  | cons r rs ih =>
    intro pre h
    obtain ⟨h1, h2, h3, h4⟩ := h.head
    obtain ⟨_, _, _, f4, f5⟩ := encRole_fields pre (encRoles (pre.length + r.size) rs ++ []) r h1 h2 h3
    have hra := roleAt_enc pre (encRoles (pre.length + r.size) rs ++ []) r h1 h2 h3
    rw [← roles_step', List.append_nil] at f4 f5 hra
    have hlen : (pre ++ encRoles pre.length (r :: rs)).length =
        pre.length + (r.size + rolesSize rs) := by simp
    have hs : r.size = 16 + r.auth.length + actsSize r.actions := rfl
    simp only [List.length_cons, getRoleGo, f4, f5]
    rw [hlen, if_neg (by omega)]
    by_cases hid : r.id = id
    · left
      refine ⟨r, [], rs, rfl, hid, by simp, ?_⟩
      rw [if_pos hid, hra]
      simp
    · rw [if_neg hid]
      have e : pre.length + r.size = (pre ++ encRole pre.length r).length := by simp
      have hstep : pre ++ encRoles pre.length (r :: rs) =
          (pre ++ encRole pre.length r) ++ encRoles (pre ++ encRole pre.length r).length rs := by
        have := roles_step pre [] r rs
        simpa using this
      rw [hstep, e]
      rcases ih (pre ++ encRole pre.length r) (by simpa using h4) with
        ⟨r', before, after, g1, g2, g3, g4⟩ | ⟨g1, g2⟩
      · left
        refine ⟨r', r :: before, after, by simp [g1], g2, ?_, ?_⟩
        · intro x hx; simp at hx; rcases hx with rfl | hx
          · exact hid
          · exact g3 x hx
        · rw [g4]; simp [Nat.add_assoc]
      · right
        refine ⟨?_, g2⟩
        intro x hx; simp at hx; rcases hx with rfl | hx
        · exact hid
        · exact g1 x hx

end Verif
