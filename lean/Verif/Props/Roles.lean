import Verif.Proofs.ReplaceHandler
import Verif.Spec.Sample

/-!
# Properties C02 - C04, C06 - C09, C11 - C14, C37, C38: the role table

`w` is a wallet in the sense of Verif/Spec/Wallet.lean, `w.encode` its account data.  Verif/Props/History.lean shows that the
account data of every reachable wallet is of this form.  `swig` is the first account of the instruction, the wallet's
configuration account; `m` and `m'` are the ledgers before and after.
-/

namespace Verif

/-- The roles after role `acting` has authenticated: only its replay counter may have moved. -/
def afterUse (acting : Nat) (rs : List Role) : List Role :=
  rs.map fun r => if r.id = acting then { r with auth := usedCred r.authType r.auth } else r

theorem used_roles (w : Wallet) (id : Nat) : (w.used id).roles = afterUse id w.roles := rfl

/-- The program's lookup of a role by id in the account data. -/
theorem getRole_wallet {w : Wallet} (hw : w.WF) (id : Nat) :
    (w.role? id = none ∧ getRole w.encode id = .ok none) ∨
    ∃ r v, w.role? id = some r ∧ getRole w.encode id = .ok (some v) ∧ v.id = id ∧ v.authType = r.authType ∧ v.auth = r.auth ∧
      v.numActions = r.actions.length ∧ v.actions = encActs 0 r.actions := by
  have h48 := Header.encode_length hw.header
  have hlen := Wallet.encode_length hw
  have e : getRole w.encode id = getRoleGo (encRoles 0 w.roles) id w.roles.length 0 := by
    unfold getRole
    rw [if_neg (by omega), rolesEndOffset_encode hw]
    simp only [ok_bind]
    rw [Wallet.encode_header hw]
    congr 1
    unfold Wallet.encode
    exact sl_mid _ _ _ h48.symm (by simp [h48])
  rcases getRoleGo_enc id w.roles [] hw.rolesOk with ⟨r, before, after, g1, g2, g3, g4⟩ | ⟨g1, g2⟩
  · right
    simp only [List.nil_append, List.length_nil] at g4
    exact ⟨r, _, role?_split g1 g2 g3, by rw [e, g4], g2, rfl, rfl, rfl, rfl⟩
  · left
    simp only [List.nil_append, List.length_nil] at g2
    exact ⟨find?_none g1, by rw [e, g2]⟩

section
variable {env : Env} {m m' : Mem} {swig payer sys : Meta} {rest : List Meta} {ix : Bytes} {w : Wallet}

/-! ## C02, C03: adding a role -/

/-- The id given to the new role is the next-id counter; looking it up yields the requested type, the credential made
from the submitted data and exactly the submitted actions; both header counts grow by one. -/
theorem C02_added_role_reads_back (hw : w.WF) (hd : (m swig.key).data = w.encode) (hroom : w.roles.length + 1 < 2 ^ 16)
    (hids : w.roleCounter + 1 < 2 ^ 32) (h : addAuthorityV1 env m (swig :: payer :: sys :: rest) ix = .ok m') :
    ∃ (a : AddIx) (cred : Auth) (as : List Act) (w' : Wallet) (v : RoleView), parseAdd ix = .ok a ∧
      initialAuth a.newType a.authData = some cred ∧ Submits a.actions as ∧ w'.WF ∧ (m' swig.key).data = w'.encode ∧
      w'.role? w.roleCounter = some ⟨a.newType, w.roleCounter, cred.encode, as⟩ ∧
      getRole (m' swig.key).data w.roleCounter = .ok (some v) ∧ v.authType = a.newType ∧ v.auth = cred.encode ∧
      v.actions = encActs 0 as ∧
      w'.roles.length = w.roles.length + 1 ∧ w'.roleCounter = w.roleCounter + 1 := by
  obtain ⟨a, r, cred, as, h1, _, _, h4, h5, _, _, _, _, h10, h11, _⟩ := addAuthorityV1_enc hw hd hroom hids h
  have hfind : ((w.used a.acting).addRole a.newType cred.encode as).role? w.roleCounter =
      some ⟨a.newType, w.roleCounter, cred.encode, as⟩ := h11.role?_iff.mpr ⟨by simp [Wallet.addRole, Wallet.used, Wallet.mapRole], rfl⟩
  rcases getRole_wallet h11 w.roleCounter with ⟨hn, _⟩ | ⟨r', v, k1, k2, _, k4, k5, _, k7⟩
  · rw [hfind] at hn; cases hn
  · rw [hfind] at k1
    cases k1
    exact ⟨a, cred, as, _, v, h1, h4, h5, h11, h10, hfind, by rw [h10]; exact k2, k4, k5, k7,
      by simp [Wallet.addRole, Wallet.used, Wallet.mapRole], rfl⟩

/-- Everything else stays: the role list is the old one (the acting role's replay counter has moved) followed by the new
role, and the header changes in the two counts only; no other account's data changes. -/
theorem C03_add_leaves_others (hw : w.WF) (hd : (m swig.key).data = w.encode) (hroom : w.roles.length + 1 < 2 ^ 16)
    (hids : w.roleCounter + 1 < 2 ^ 32) (h : addAuthorityV1 env m (swig :: payer :: sys :: rest) ix = .ok m') :
    ∃ (a : AddIx) (new : Role), parseAdd ix = .ok a ∧ new.id = w.roleCounter ∧
      (m' swig.key).data = ({ w with roles := afterUse a.acting w.roles ++ [new], roleCounter := w.roleCounter + 1 } : Wallet).encode ∧
      ∀ k, k ≠ swig.key → (m' k).data = (m k).data := by
  obtain ⟨a, r, cred, as, h1, _, _, h4, h5, _, _, _, _, h10, h11, h12⟩ := addAuthorityV1_enc hw hd hroom hids h
  exact ⟨a, ⟨a.newType, w.roleCounter, cred.encode, as⟩, h1, rfl, h10, fun k hk => (h12 k).2 hk⟩

/-- What "the replay counter has moved" means: type, id and actions of every role are the same, and so is the credential but for the
last four of the 40 bytes of the two plain secp types. -/
theorem C03_use_moves_only_counter (acting : Nat) (rs : List Role) (i : Nat) (r : Role) (h : rs[i]? = some r) :
    ∃ r', (afterUse acting rs)[i]? = some r' ∧ r'.id = r.id ∧ r'.authType = r.authType ∧ r'.actions = r.actions ∧
      (r.id ≠ acting ∨ (r.authType ≠ 3 ∧ r.authType ≠ 5) → r' = r) ∧ (36 ≤ r.auth.length → r'.auth.take 36 = r.auth.take 36) := by
  refine ⟨if r.id = acting then { r with auth := usedCred r.authType r.auth } else r, by simp [afterUse, h], ?_⟩
  split
  · rename_i hid
    refine ⟨rfl, rfl, rfl, ?_, ?_⟩
    · rintro (hc | hc)
      · exact absurd hid hc
      · simp [usedCred, hc.1, hc.2]
    · intro hl
      simp only [usedCred]
      split
      · rw [List.take_append_of_le_length (by simp; omega), List.take_take, Nat.min_self]
      · rfl
  · exact ⟨rfl, rfl, rfl, fun _ => rfl, fun _ => rfl⟩

/-! ## C04: removing a role -/

theorem C04_remove_exactly_one (hw : w.WF) (hd : (m swig.key).data = w.encode)
    (h : removeAuthorityV1 env m (swig :: payer :: sys :: rest) ix = .ok m') :
    ∃ (a : RemoveIx) (t : Role), parseRemove ix = .ok a ∧ w.role? a.target = some t ∧
      (m' swig.key).data = ({ w with roles := (afterUse a.acting w.roles).filter fun r => r.id ≠ a.target } : Wallet).encode ∧
      getRole (m' swig.key).data a.target = .ok none ∧
      ((afterUse a.acting w.roles).filter fun r => r.id ≠ a.target).length + 1 = w.roles.length ∧
      (m' swig.key).data.length + t.size = (m swig.key).data.length ∧
      ∀ k, k ≠ swig.key → (m' k).data = (m k).data := by
  obtain ⟨a, r, t, h1, _, _, _, h5, h6, h7, h8, _⟩ := removeAuthorityV1_enc hw hd h
  have hw1 := Wallet.used_wf hw a.acting
  obtain ⟨t1, ht1, hsz1⟩ : ∃ t1, (w.used a.acting).role? a.target = some t1 ∧ t1.size = t.size := by
    rw [Wallet.used_find, h5]
    refine ⟨_, rfl, ?_⟩
    have := usedCred_length (hw.roles t (role?_mem h5).1).auth
    by_cases hc : t.id = a.acting <;> simp [Role.size, this, hc]
  obtain ⟨before, after, g1, g2, g3, g4⟩ := hw1.split ht1
  have hrs := Wallet.removeRole_split g1 g2 g3 g4
  refine ⟨a, t, h1, h5, h6, ?_, ?_, ?_, fun k hk => (h8 k).2 hk⟩
  · rw [h6]
    rcases getRole_wallet h7 a.target with ⟨_, hn⟩ | ⟨r', v, k1, _⟩
    · exact hn
    · have hm := role?_mem k1
      simp [Wallet.removeRole] at hm
      exact absurd hm.2 hm.1.2
  · have e : (w.roles.length) = (w.used a.acting).roles.length := by simp [Wallet.used, Wallet.mapRole]
    rw [e, g1]
    have : ((afterUse a.acting w.roles).filter fun r => r.id ≠ a.target) = before ++ after := hrs
    rw [this]
    simp only [List.length_append, List.length_cons]; omega
  · rw [h6, hd, Wallet.encode_length h7, ← Wallet.used_encode_length hw a.acting, Wallet.encode_length hw1,
      (removeRole_wallet hw1 ht1).2, hsz1]
    simp only [Wallet.removeRole]
    omega

/-! ## C06: updating the actions of a role -/

theorem C06_update_only_target (hw : w.WF) (hd : (m swig.key).data = w.encode)
    (h : updateAuthorityV1 env m (swig :: payer :: sys :: rest) ix = .ok m') :
    ∃ (a : UpdateIx) (t : Role) (as : List Act), parseUpdate ix = .ok a ∧ w.role? a.target = some t ∧
      a.op.Result t.actions as ∧
      (m' swig.key).data = ({ w with roles := (afterUse a.acting w.roles).map fun r =>
        if r.id = a.target then { r with actions := as } else r } : Wallet).encode ∧
      ∀ k, k ≠ swig.key → (m' k).data = (m k).data := by
  obtain ⟨a, r, t, as, h1, _, _, h4, h5, _, _, _, _, h10, _, h12⟩ := updateAuthorityV1_enc hw hd h
  exact ⟨a, t, as, h1, h4, h5, h10, fun k hk => (h12 k).2 hk⟩

/-! ## C07, C09: what can be stored -/

/-- A role is added only with 1 to 255 actions of known type and right payload length and no duplicate V2 grant. -/
theorem C07_added_actions_valid (hw : w.WF) (hd : (m swig.key).data = w.encode) (hroom : w.roles.length + 1 < 2 ^ 16)
    (hids : w.roleCounter + 1 < 2 ^ 32) (h : addAuthorityV1 env m (swig :: payer :: sys :: rest) ix = .ok m') :
    ∃ (a : AddIx) (as : List Act), parseAdd ix = .ok a ∧ Submits a.actions as ∧ 1 ≤ as.length ∧ as.length ≤ 255 ∧
      ∀ x ∈ as, 1 ≤ x.ty ∧ x.ty ≤ 26 ∧ actionLen x.ty = some x.data.length := by
  obtain ⟨a, r, cred, as, h1, _, _, h4, h5, h6, h7, h8, _⟩ := addAuthorityV1_enc hw hd hroom hids h
  refine ⟨a, as, h1, h5, h7, h8, fun x hx => ?_⟩
  have hwf : actionLen x.ty = some x.data.length := (h6 x hx).1
  refine ⟨?_, ?_, hwf⟩ <;> (by_contra hc; unfold actionLen at hwf; split at hwf <;> simp_all <;> omega)

/-- After an update likewise. -/
theorem C07_updated_actions_valid (hw : w.WF) (hd : (m swig.key).data = w.encode)
    (h : updateAuthorityV1 env m (swig :: payer :: sys :: rest) ix = .ok m') :
    ∃ (a : UpdateIx) (t : Role) (as : List Act), parseUpdate ix = .ok a ∧ w.role? a.target = some t ∧ a.op.Result t.actions as ∧
      1 ≤ as.length ∧ as.length ≤ 255 ∧ ∀ x ∈ as, 1 ≤ x.ty ∧ x.ty ≤ 26 ∧ actionLen x.ty = some x.data.length := by
  obtain ⟨a, r, t, as, h1, _, _, h4, h5, h6, h7, h8, _⟩ := updateAuthorityV1_enc hw hd h
  refine ⟨a, t, as, h1, h4, h5, h7, h8, fun x hx => ?_⟩
  have hwf : actionLen x.ty = some x.data.length := (h6 x hx).1
  refine ⟨?_, ?_, hwf⟩ <;> (by_contra hc; unfold actionLen at hwf; split at hwf <;> simp_all <;> omega)

/-- The validation of submitted action bytes accepts exactly the serialisations of 1 to 255 fresh, well-formed actions. -/
theorem C07_validation_exact (b : Bytes) (n : Nat) : calcActions b = .ok n ↔
    ∃ as, Submits b as ∧ (∀ a ∈ as, a.Fresh) ∧ n = as.length ∧ 1 ≤ n ∧ n ≤ 255 := calcActions_iff b n

/-- Duplicate scoped grants are refused, and nothing else is refused for this reason. -/
theorem C09_duplicates_exact {b : Bytes} {as : List Act} (hs : Submits b as) (hwf : ∀ a ∈ as, a.WF) :
    rejectDupV2 b = .ok () ↔ (as.filterMap Act.v2Key).Nodup := rejectDupV2_iff hs hwf

/-- Stored by an addition or an update: never a duplicate. -/
theorem C09_added_no_duplicate (hw : w.WF) (hd : (m swig.key).data = w.encode) (hroom : w.roles.length + 1 < 2 ^ 16)
    (hids : w.roleCounter + 1 < 2 ^ 32) (h : addAuthorityV1 env m (swig :: payer :: sys :: rest) ix = .ok m') :
    ∃ (a : AddIx) (as : List Act), parseAdd ix = .ok a ∧ Submits a.actions as ∧ (as.filterMap Act.v2Key).Nodup := by
  obtain ⟨a, r, cred, as, h1, _, _, h4, h5, h6, h7, h8, h9, _⟩ := addAuthorityV1_enc hw hd hroom hids h
  exact ⟨a, as, h1, h5, h9⟩

theorem C09_updated_no_duplicate (hw : w.WF) (hd : (m swig.key).data = w.encode)
    (h : updateAuthorityV1 env m (swig :: payer :: sys :: rest) ix = .ok m') :
    ∃ (a : UpdateIx) (t : Role) (as : List Act), parseUpdate ix = .ok a ∧ w.role? a.target = some t ∧ a.op.Result t.actions as ∧
      (as.filterMap Act.v2Key).Nodup := by
  obtain ⟨a, r, t, as, h1, _, _, h4, h5, h6, h7, h8, h9, _⟩ := updateAuthorityV1_enc hw hd h
  exact ⟨a, t, as, h1, h4, h5, h9⟩

/-! ## C08: permission lookup -/

/-- For every stored role, the program's lookup of a permission returns the payload of the first action that grants it: none
iff no stored action does. -/
theorem C08_lookup_exact (hw : w.WF) {id : Nat} {r : Role} (hr : w.role? id = some r) (ty : Nat) (key : Bytes)
    (hk : repeatable ty = true → key.length = keyLen ty) :
    ∃ v, getRole w.encode id = .ok (some v) ∧
      getAction ty key v.actions = .ok ((r.actions.find? fun a => a.grants ty key).map Act.data) := by
  rcases getRole_wallet hw id with ⟨hn, _⟩ | ⟨r', v, k1, k2, _, _, _, _, k7⟩
  · rw [hr] at hn; cases hn
  · rw [hr] at k1
    cases k1
    have hm := (role?_mem hr).1
    exact ⟨v, k2, by rw [k7]; exact getAction_enc ty key r.actions (hw.roles r hm).acts (hw.roles r hm).nonempty (hw.actsSize_lt hm).2 hk⟩

/-- In particular it finds something iff one of the stored actions has the type and, for repeatable types, the key. -/
theorem C08_found_iff (hw : w.WF) {id : Nat} {r : Role} (hr : w.role? id = some r) (ty : Nat) (key : Bytes)
    (hk : repeatable ty = true → key.length = keyLen ty) :
    ∃ v p, getRole w.encode id = .ok (some v) ∧ getAction ty key v.actions = .ok p ∧
      (p.isSome ↔ ∃ a ∈ r.actions, a.ty = ty ∧ (repeatable ty = true → keyOf ty a.data = key)) := by
  obtain ⟨v, h1, h2⟩ := C08_lookup_exact hw hr ty key hk
  refine ⟨v, _, h1, h2, ?_⟩
  simp only [Option.isSome_map, List.find?_isSome, decide_eq_true_iff]
  rfl

/-! ## C11: add, then remove -/

/-- Adding a role and later removing it, by whatever authorised roles, leaves the account as it was except for the next-id counter (and the
replay counters of the acting roles). -/
theorem C11_add_remove_identity {env2 : Env} {m1 m2 : Mem} {payer2 sys2 : Meta} {rest2 : List Meta} {ix2 : Bytes} {a : AddIx}
    {b : RemoveIx} (hw : w.WF)
    (hd : (m swig.key).data = w.encode) (hroom : w.roles.length + 1 < 2 ^ 16) (hids : w.roleCounter + 1 < 2 ^ 32)
    (h1 : addAuthorityV1 env m (swig :: payer :: sys :: rest) ix = .ok m') (hm : (m1 swig.key).data = (m' swig.key).data)
    (h2 : removeAuthorityV1 env2 m1 (swig :: payer2 :: sys2 :: rest2) ix2 = .ok m2)
    (ha : parseAdd ix = .ok a) (hb : parseRemove ix2 = .ok b) (htarget : b.target = w.roleCounter) :
    (m2 swig.key).data = ({ w with roles := afterUse b.acting (afterUse a.acting w.roles), roleCounter := w.roleCounter + 1 } : Wallet).encode := by
  obtain ⟨a', r, cred, as, k1, _, _, k4, k5, _, _, _, _, k10, k11, _⟩ := addAuthorityV1_enc hw hd hroom hids h1
  rw [ha] at k1; cases k1
  obtain ⟨b', t, q1, q2, q3, _⟩ := C04_remove_exactly_one k11 (hm.trans k10) h2
  rw [hb] at q1; cases q1
  rw [q3]
  congr 1
  simp only [Wallet.addRole, htarget]
  congr 1
  have e : afterUse b.acting ((w.used a.acting).roles ++ [⟨a.newType, w.roleCounter, cred.encode, as⟩]) =
      afterUse b.acting (afterUse a.acting w.roles) ++ afterUse b.acting [⟨a.newType, w.roleCounter, cred.encode, as⟩] := by
    simp [afterUse, Wallet.used, Wallet.mapRole]
  have hctr : (w.used a.acting).roleCounter = w.roleCounter := rfl
  rw [hctr, e, List.filter_append]
  have h3 : (afterUse b.acting (afterUse a.acting w.roles)).filter (fun r => r.id ≠ w.roleCounter) =
      afterUse b.acting (afterUse a.acting w.roles) := by
    apply List.filter_eq_self.mpr
    intro x hx
    have hx2 : x ∈ ((w.used a.acting).used b.acting).roles := hx
    have := (Wallet.used_wf (Wallet.used_wf hw a.acting) b.acting).idsLt x hx2
    have e3 : ((w.used a.acting).used b.acting).roleCounter = w.roleCounter := rfl
    simp; omega
  have h4 : (afterUse b.acting [⟨a.newType, w.roleCounter, cred.encode, as⟩]).filter (fun r => r.id ≠ w.roleCounter) = [] := by
    simp only [afterUse, List.map_cons, List.map_nil]
    split <;> simp
  rw [h3, h4, List.append_nil]

/-! ## C13: alignment -/

/-- The account length of a wallet is a multiple of eight and consists of header, roles and tail only. -/
theorem C13_aligned_no_slack (hw : w.WF) : w.encode.length % 8 = 0 ∧
    w.encode.length = 48 + (w.roles.map fun r => 16 + r.auth.length + (r.actions.map fun a => 8 + a.data.length).sum).sum +
      (if w.claimer = none then 0 else 40) := by
  refine ⟨Wallet.encode_mod hw, ?_⟩
  rw [Wallet.encode_length hw]
  have : (encTail w.claimer).length = if w.claimer = none then 0 else 40 := by
    cases h : w.claimer with
    | none => rfl
    | some k => simp [encTail, hw.claimer k h]
  rw [this, ← Nat.add_assoc]
  rfl

/-- The sizes of all credentials and permissions are multiples of eight, so rounding up at allocation adds nothing. -/
theorem C13_rounding_adds_nothing (hw : w.WF) (ty al : Nat) (as : List Act) (hal : authLen ty = some al) (has : ∀ a ∈ as, a.WF)
    (d : Bytes) (hs : Submits d as) : align8 (w.encode.length + (16 + al + d.length)) = w.encode.length + (16 + al + d.length) := by
  have h1 := Wallet.encode_mod hw
  have h2 := authLen_mod hal
  have h3 := actsSize_mod has
  have h4 := hs.length
  exact align8_of_mod (by omega)

/-! ## C14: the rent-claimer entry -/

/-- The strict decoder accepts exactly the empty tail and the entries of 32-byte claimers. -/
theorem C14_claimer_codec (tail : Bytes) (c : Option Key) :
    claimerReadStrict tail = .ok c ↔ (c = none ∧ tail = []) ∨ ∃ k, c = some k ∧ k.length = 32 ∧ tail = [1, 1, 32, 0, 0, 0, 0, 0] ++ k := by
  constructor
  · intro h
    unfold claimerReadStrict at h
    split at h
    · rename_i ht; cases h; exact Or.inl ⟨rfl, ht⟩
    · split at h
      · cases h
      · rename_i hl
        have hl := Decidable.of_not_not hl
        obtain ⟨⟨version, payload, claimer, consumed⟩, h1, h2⟩ := bind_ok_iff.mp h
        simp only at h2
        split at h2
        · cases h2
        · rename_i hc
          cases h2
          right
          unfold claimerEntryRead at h1
          rw [if_neg (by omega)] at h1
          split at h1
          · cases h1
          · rename_i hk
            simp only at h1
            split at h1
            · cases h1
            · split at h1
              · cases h1
              · rename_i hcl
                have e := Except.ok.inj h1
                simp only [Prod.mk.injEq] at e
                obtain ⟨e1, e2, e3, e4⟩ := e
                have hstop : 8 + rd tail 2 2 = 40 := by
                  by_contra hx; exact hc (Or.inl (e4 ▸ hx))
                have hv : tail.getD 1 0 = 1 := by
                  by_contra hx; exact hc (Or.inr (Or.inl (e1 ▸ hx)))
                have hp : sl tail 4 8 = zeros 4 := by
                  by_contra hx; exact hc (Or.inr (Or.inr (e2 ▸ hx)))
                rw [hstop] at e3
                refine ⟨claimer, rfl, by rw [← e3, sl_length_of_le (by omega)], ?_⟩
                have f : tail = sl tail 0 (0 + 1) ++ (sl tail 1 (1 + 1) ++ (sl tail 2 (2 + 2) ++ (sl tail 4 8 ++ sl tail 8 40))) := by
                  rw [← sl_split tail 4 8 40 (by omega) (by omega), ← sl_split tail 2 4 40 (by omega) (by omega),
                    ← sl_split tail 1 2 40 (by omega) (by omega), ← sl_split tail 0 1 40 (by omega) (by omega)]
                  rw [← hl, sl_full]
                rw [← getD_sl tail 0 (by omega), ← getD_sl tail 1 (by omega), ← natLE_sl tail 2 2 (by omega), hp, e3,
                  Decidable.of_not_not hk, hv, show rd tail 2 2 = 32 by omega] at f
                rw [f]
                rfl
  · rintro (⟨rfl, rfl⟩ | ⟨k, rfl, hk, rfl⟩)
    · rfl
    · exact claimerReadStrict_enc (c := some k) (by intro k' h; cases h; exact hk)

/-- What the program writes for a claimer reads back as that claimer. -/
theorem C14_claimer_round_trip (k : Key) (hk : k.length = 32) : claimerReadStrict (claimerEntry k) = .ok (some k) :=
  (C14_claimer_codec _ _).mpr (Or.inr ⟨k, rfl, hk, rfl⟩)

/-! ## C37, C38: who may change roles -/

/-- A role is added only when the acting role exists, has authenticated and holds All or ManageAuthority. -/
theorem C37_add_needs_manager (hw : w.WF) (hd : (m swig.key).data = w.encode) (hroom : w.roles.length + 1 < 2 ^ 16)
    (hids : w.roleCounter + 1 < 2 ^ 32) (h : addAuthorityV1 env m (swig :: payer :: sys :: rest) ix = .ok m') :
    ∃ (a : AddIx) (r : Role), parseAdd ix = .ok a ∧ w.role? a.acting = some r ∧
      Sample.ok (authRole env r.authType r.auth (swig :: payer :: sys :: rest) (m instructionsSysvarId).data a.authPayload a.dataPayload) = true ∧
      ((∃ x ∈ r.actions, x.ty = P.all) ∨ ∃ x ∈ r.actions, x.ty = P.manageAuthority) := by
  obtain ⟨a, r, cred, as, h1, h2, h3, _⟩ := addAuthorityV1_enc hw hd hroom hids h
  exact ⟨a, r, h1, h2.1, by rw [h2.2]; rfl, h3⟩

theorem C37_update_needs_manager (hw : w.WF) (hd : (m swig.key).data = w.encode)
    (h : updateAuthorityV1 env m (swig :: payer :: sys :: rest) ix = .ok m') :
    ∃ (a : UpdateIx) (r : Role), parseUpdate ix = .ok a ∧ w.role? a.acting = some r ∧
      Sample.ok (authRole env r.authType r.auth (swig :: payer :: sys :: rest) (m instructionsSysvarId).data a.authPayload a.dataPayload) = true ∧
      ((∃ x ∈ r.actions, x.ty = P.all) ∨ ∃ x ∈ r.actions, x.ty = P.manageAuthority) := by
  obtain ⟨a, r, t, as, h1, h2, h3, _⟩ := updateAuthorityV1_enc hw hd h
  exact ⟨a, r, h1, h2.1, by rw [h2.2]; rfl, h3⟩

/-- A role is removed only by a manager or by itself, and never the root role. -/
theorem C38_remove_authorised (hw : w.WF) (hd : (m swig.key).data = w.encode)
    (h : removeAuthorityV1 env m (swig :: payer :: sys :: rest) ix = .ok m') :
    ∃ (a : RemoveIx) (r : Role), parseRemove ix = .ok a ∧ a.target ≠ 0 ∧ w.role? a.acting = some r ∧
      Sample.ok (authRole env r.authType r.auth (swig :: payer :: sys :: rest) (m instructionsSysvarId).data a.authPayload a.dataPayload) = true ∧
      ((∃ x ∈ r.actions, x.ty = P.all) ∨ (∃ x ∈ r.actions, x.ty = P.manageAuthority) ∨ a.acting = a.target) := by
  obtain ⟨a, r, t, h1, h2, h3, h4, _⟩ := removeAuthorityV1_enc hw hd h
  refine ⟨a, r, h1, h2, h3.1, by rw [h3.2]; rfl, ?_⟩
  rcases h4 with (h4 | h4) | h4
  · exact Or.inl h4
  · exact Or.inr (Or.inl h4)
  · exact Or.inr (Or.inr h4)

end

/-! ## Worked cases -/
section
open Sample

theorem wallet_wf : wallet.WF where
  idLen := by decide
  padLen := by decide
  counter := by decide
  subCounter := by decide
  count := by decide
  roles := by
    intro r hr
    simp only [wallet, List.mem_cons, List.not_mem_nil, or_false] at hr
    rcases hr with rfl | rfl
    · exact ⟨by decide, by decide, by decide, by decide, by decide⟩
    · exact ⟨by decide, by decide, by decide, by decide, by decide⟩
  idsNodup := by decide
  idsLt := by decide
  claimer := by simp [wallet]
  size := by decide

theorem mem_wallet (w : Wallet) : (mem w (K 1)).data = w.encode := by
  unfold mem; rw [if_pos rfl]

/-- The hypotheses of C02, C03, C07, C09, C37 hold of a concrete addition. -/
example : ∃ m', addAuthorityV1 env (mem wallet) (metas (K 10)) addIx = .ok m' := exists_of_ok (by decide +kernel)
/-- ... of C04 and C38: a concrete removal, by the owner and by the role itself. -/
example : ∃ m', removeAuthorityV1 env (mem wallet) (metas (K 10)) removeIx = .ok m' := exists_of_ok (by decide +kernel)
example : ∃ m', removeAuthorityV1 env (mem wallet) (metas (K 11)) (natLE 2 2 ++ zeros 6 ++ natLE 4 1 ++ natLE 4 1 ++ [1]) = .ok m' :=
  exists_of_ok (by decide +kernel)
/-- ... of C06: a replacement and a removal of permissions. -/
example : ∃ m', updateAuthorityV1 env (mem wallet) (metas (K 10)) updateIx = .ok m' := exists_of_ok (by decide +kernel)
example : ∃ m', updateAuthorityV1 env (mem wallet) (metas (K 10)) updateRemoveIx = .ok m' := exists_of_ok (by decide +kernel)
/-- The restricted role cannot add a role; nobody removes the root role. -/
example : addAuthorityV1 env (mem wallet) (metas (K 11)) (addIx.set 12 1) |> ok |> (· = false) := by decide +kernel
example : removeAuthorityV1 env (mem wallet) (metas (K 10)) (natLE 2 2 ++ zeros 6 ++ natLE 4 0 ++ natLE 4 0 ++ [1]) |> ok |> (· = false) := by
  decide +kernel
/-- C08: a permission header inside the payload of another permission is not found. -/
example : (⟨1, 5, K 9, [⟨3, natLE 2 7 ++ natLE 2 0 ++ natLE 4 8 ++ zeros 24⟩]⟩ : Role).actions.find? (fun a => a.grants 7 []) = none := by decide
/-- C14. -/
example : claimerReadStrict (claimerEntry (K 20)) = .ok (some (K 20)) := C14_claimer_round_trip _ (by decide)

end

end Verif
