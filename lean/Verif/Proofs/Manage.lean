import Verif.Model.Manage
import Verif.Proofs.Ops
import Verif.Proofs.NewCred
import Verif.Proofs.RolesRemove
import Verif.Proofs.RolesUpdate

/-! Refinement lemmas shared by the managing handlers: what each step does to the encoding of a wallet. -/

namespace Verif

/-- Parts of the encoding of a wallet. -/
def Wallet.parts (w : Wallet) : Parts := ⟨w.header, encRoles 0 w.roles, encTail w.claimer⟩

theorem Wallet.parts_bytes (w : Wallet) : w.parts.bytes = w.encode := rfl

theorem Wallet.encode_ne_nil (w : Wallet) : w.encode ≠ [] := by
  intro h
  have := congrArg List.length h
  simp [Wallet.encode, Header.encode] at this

theorem Wallet.encode_disc (w : Wallet) : w.encode.getD 0 0 = 1 := rfl

theorem openSwig_enc {w : Wallet} (hw : w.WF) : openSwig w.encode = .ok w.parts := by
  unfold openSwig
  rw [if_neg w.encode_ne_nil, if_neg (by rw [w.encode_disc]; decide), splitParts_encode hw]
  rfl

theorem openSwigU_enc {w : Wallet} (hw : w.WF) : openSwigU w.encode = .ok w.parts := by
  unfold openSwigU
  rw [if_neg w.encode_ne_nil, openSwig_enc hw]

theorem openSwigU_ok {d : Bytes} {p : Parts} (h : openSwigU d = .ok p) : openSwig d = .ok p := by
  unfold openSwigU at h
  split at h
  · cases h
  · exact h

theorem claimerReadStrict_enc {c : Option Key} (h : ∀ k, c = some k → k.length = 32) :
    claimerReadStrict (encTail c) = .ok c := by
  cases c with
  | none => rfl
  | some k =>
    have hk := h k rfl
    have e2 : rd ([1, 1, 32, 0, 0, 0, 0, 0] ++ k) 2 2 = 32 := rfl
    have e3 : sl ([1, 1, 32, 0, 0, 0, 0, 0] ++ k) 8 40 = k := by
      have := sl_mid [1, 1, 32, 0, 0, 0, 0, 0] k [] (i := 8) (j := 40) rfl (by simp [hk])
      simpa using this
    have e4 : sl ([1, 1, 32, 0, 0, 0, 0, 0] ++ k) 4 8 = zeros 4 := rfl
    unfold claimerReadStrict encTail claimerEntryRead
    rw [if_neg (by simp), if_neg (by simp [hk]), if_neg (by simp), if_neg (by simp)]
    simp only [e2]
    rw [if_neg (by simp [hk])]
    simp only [e3, e4, Nat.reduceAdd]
    rw [if_neg (by simp [hk])]
    rfl

theorem savedTailTake_enc {w : Wallet} (hw : w.WF) : savedTailTake (encTail w.claimer) = .ok (encTail w.claimer) := by
  unfold savedTailTake
  rw [claimerReadStrict_enc hw.claimer]
  rfl

theorem rolesEndOffset_junk {w : Wallet} (hw : w.WF) (junk : Bytes) :
    rolesEndOffset (w.header.encode ++ (encRoles 0 w.roles ++ junk)) = .ok (48 + rolesSize w.roles) := by
  have h48 := Header.encode_length hw.header
  unfold rolesEndOffset
  rw [if_neg (by simp [h48]), Header.decode_encode hw.header]
  have ed : (w.header.encode ++ (encRoles 0 w.roles ++ junk)).drop 48 = encRoles 0 w.roles ++ junk := by
    rw [← h48, List.drop_left]
  rw [ed]
  have h := rolesEndGo_enc w.roles [] junk hw.rolesOk
  simp only [List.nil_append, List.length_nil, Nat.zero_add] at h
  show (rolesEndGo _ w.roles.length 0 >>= fun c => .ok (48 + c)) = _
  rw [h]
  rfl

/-- Settling the tail on a buffer that has exactly room for it gives the encoding of the wallet. -/
theorem settleTail_enc {w : Wallet} (hw : w.WF) (junk : Bytes) (hj : junk.length = (encTail w.claimer).length) :
    settleTail (w.header.encode ++ (encRoles 0 w.roles ++ junk)) (encTail w.claimer) = .ok w.encode := by
  have h48 := Header.encode_length hw.header
  unfold settleTail
  rw [rolesEndOffset_junk hw]
  simp only [ok_bind]
  have et : (w.header.encode ++ (encRoles 0 w.roles ++ junk)).take (48 + rolesSize w.roles) =
      w.header.encode ++ encRoles 0 w.roles := by
    rw [← List.append_assoc]
    exact List.take_left' (by simp [h48])
  have el : (w.header.encode ++ (encRoles 0 w.roles ++ junk)).length - (48 + rolesSize w.roles) = junk.length := by
    simp [h48]; omega
  rw [et, el, hj]
  unfold restoreAt
  by_cases hz : (encTail w.claimer).length = 0
  · rw [if_pos hz]
    have : encTail w.claimer = [] := List.length_eq_zero_iff.mp hz
    simp [Wallet.encode, this, zeros]
  · rw [if_neg hz, if_neg (by simp [h48]; omega)]
    have := put_mid' (w.header.encode ++ encRoles 0 w.roles) (zeros (encTail w.claimer).length) [] (encTail w.claimer)
      (i := 48 + rolesSize w.roles) (by simp [h48]) (by simp)
    simp only [List.append_nil] at this
    rw [this]
    simp [Wallet.encode]

/-- The acting role exists, authenticates with its stored credential, and its counter moves on. -/
theorem actAs_enc {env : Env} {m : Mem} {metas : List Meta} {w : Wallet} {id : Nat} {payload dp : Bytes} {p : Parts} {v : RoleView}
    (hw : w.WF) (h : actAs env m metas w.parts id payload dp = .ok (p, v)) :
    ∃ r, w.role? id = some r ∧
      authRole env r.authType r.auth metas (m instructionsSysvarId).data payload dp = .ok (usedCred r.authType r.auth) ∧
      p = (w.used id).parts ∧ v.actions = encActs 0 r.actions ∧ v.authType = r.authType := by
  unfold actAs at h
  simp only [Wallet.parts] at h
  rcases getMutRole_enc id w.roles hw.rolesOk with ⟨r, before, after, g1, g2, g3, g4⟩ | ⟨g1, g2⟩
  · rw [g4] at h
    simp only [ok_bind] at h
    obtain ⟨auth, h1, h2⟩ := bind_ok_iff.mp h
    have hrw : r.WF := hw.roles r (by simp [g1])
    have hu : auth = usedCred r.authType r.auth := authRole_used (by exact hrw.auth) h1
    subst hu
    refine ⟨r, role?_split g1 g2 g3, h1, ?_, ?_, ?_⟩
    · have e := (Except.ok.inj h2)
      have e1 : p = _ := (congrArg Prod.fst e).symm
      rw [e1]
      simp only [Wallet.parts, Wallet.used_header]
      congr 1
      obtain ⟨_, ha⟩ := hw.others g1
      have es : (w.used id).roles = _ := mapRole_split id _ g1 g2 g3 (g2 ▸ ha)
      rw [es]
      have := put_encRoles_auth before after r (usedCred r.authType r.auth) (usedCred_length hrw.auth)
      rw [← g1] at this
      exact this
    · have e1 := congrArg (fun x => x.2.actions) (Except.ok.inj h2)
      exact e1.symm
    · have e1 := congrArg (fun x => x.2.authType) (Except.ok.inj h2)
      exact e1.symm
  · rw [g2] at h
    simp at h

theorem hasAction_enc {ty : Nat} {key : Bytes} {r : Role} (hr : r.WF) (hk : repeatable ty = true → key.length = keyLen ty)
    (hsz : actsSize r.actions < 2 ^ 32) :
    hasAction ty key (encActs 0 r.actions) = .ok (r.grant? ty key).isSome := by
  unfold hasAction
  rw [getAction_enc ty key r.actions hr.acts hr.nonempty hsz hk]
  simp [Role.grant?]

theorem grant?_marker {r : Role} {ty : Nat} (hn : repeatable ty = false) (key : Bytes) :
    (r.grant? ty key).isSome = decide (r.holds ty) := by
  rw [Bool.eq_iff_iff, decide_eq_true_iff]
  unfold Role.grant? Role.holds
  simp [Act.grants, hn]

theorem Wallet.WF.actsSize_lt {w : Wallet} (hw : w.WF) {r : Role} (hr : r ∈ w.roles) : rolesSize w.roles < 2 ^ 32 ∧
    actsSize r.actions < 2 ^ 32 := by
  have hs := hw.size
  obtain ⟨b, a, e⟩ := List.append_of_mem hr
  have : rolesSize w.roles = rolesSize b + (r.size + rolesSize a) := by rw [e, rolesSize_append]; simp
  have h2 : r.size = 16 + r.auth.length + actsSize r.actions := rfl
  omega

theorem hasMarker_enc {w : Wallet} (hw : w.WF) {r : Role} (hr : r ∈ w.roles) {ty : Nat} (hn : repeatable ty = false) :
    hasAction ty [] (encActs 0 r.actions) = .ok (decide (r.holds ty)) := by
  rw [hasAction_enc (hw.roles r hr) (by simp [hn]) (hw.actsSize_lt hr).2, grant?_marker hn]

theorem hasManage_enc {w : Wallet} (hw : w.WF) {r : Role} (hr : r ∈ w.roles) :
    hasManage (encActs 0 r.actions) = .ok (decide (r.holds P.all ∨ r.holds P.manageAuthority)) := by
  unfold hasManage
  rw [hasMarker_enc hw hr (by decide), hasMarker_enc hw hr (by decide)]
  simp

/-! ## Ledger -/

@[simp] theorem Mem.set_same (m : Mem) (k : Key) (a : Acct) : (m.set k a) k = a := by simp [Mem.set]
theorem Mem.set_other (m : Mem) {k k' : Key} (a : Acct) (h : k' ≠ k) : (m.set k a) k' = m k' := by simp [Mem.set, h]
@[simp] theorem Mem.setData_data (m : Mem) (k : Key) (d : Bytes) : ((m.setData k d) k).data = d := by simp [Mem.setData]
@[simp] theorem Mem.setData_owner (m : Mem) (k k' : Key) (d : Bytes) : ((m.setData k d) k').owner = (m k').owner := by
  unfold Mem.setData Mem.set; split <;> simp_all
@[simp] theorem Mem.setData_lamports (m : Mem) (k k' : Key) (d : Bytes) : ((m.setData k d) k').lamports = (m k').lamports := by
  unfold Mem.setData Mem.set; split <;> simp_all
theorem Mem.setData_other (m : Mem) {k k' : Key} (d : Bytes) (h : k' ≠ k) : (m.setData k d) k' = m k' := Mem.set_other m _ h
@[simp] theorem Mem.setLamports_data (m : Mem) (k k' : Key) (n : Nat) : ((m.setLamports k n) k').data = (m k').data := by
  unfold Mem.setLamports Mem.set; split <;> simp_all
@[simp] theorem Mem.setLamports_owner (m : Mem) (k k' : Key) (n : Nat) : ((m.setLamports k n) k').owner = (m k').owner := by
  unfold Mem.setLamports Mem.set; split <;> simp_all
@[simp] theorem Mem.setLamports_same (m : Mem) (k : Key) (n : Nat) : ((m.setLamports k n) k).lamports = n := by
  simp [Mem.setLamports]
theorem Mem.setLamports_other (m : Mem) {k k' : Key} (n : Nat) (h : k' ≠ k) : (m.setLamports k n) k' = m k' := Mem.set_other m _ h
@[simp] theorem Mem.set_data_same (m : Mem) (k : Key) (d d' : Bytes) : (m.setData k d).setData k d' = m.setData k d' := by
  funext x; unfold Mem.setData Mem.set; split <;> simp_all

theorem realloc_ok {m m' : Mem} {k : Key} {n : Nat} (h : realloc m k n = .ok m') :
    n ≤ maxAccountLen ∧ m' = m.setData k (resize (m k).data n) := by
  unfold realloc at h
  split at h
  · cases h
  · cases h; exact ⟨by omega, rfl⟩

theorem sysTransfer_ok {m m' : Mem} {src dst : Meta} {n : Nat} (h : sysTransfer m src dst n = .ok m') :
    src.signer = true ∧ (m src.key).owner = systemId ∧ (m src.key).data = [] ∧ n ≤ (m src.key).lamports ∧
    m' = (m.setLamports src.key ((m src.key).lamports - n)).setLamports dst.key
      (((m.setLamports src.key ((m src.key).lamports - n)) dst.key).lamports + n) := by
  unfold sysTransfer at h
  split at h
  · cases h
  · rename_i h1
    split at h
    · cases h
    · rename_i h2
      split at h
      · cases h
      · rename_i h3
        cases h
        refine ⟨?_, ?_, ?_, by omega, rfl⟩
        · cases hs : src.signer <;> simp_all
        · exact Decidable.of_not_not fun hc => h2 (Or.inl hc)
        · exact Decidable.of_not_not fun hc => h2 (Or.inr hc)

/-- A transfer changes no data and no owner. -/
theorem sysTransfer_data {m m' : Mem} {src dst : Meta} {n : Nat} (h : sysTransfer m src dst n = .ok m') (k : Key) :
    (m' k).data = (m k).data ∧ (m' k).owner = (m k).owner := by
  obtain ⟨_, _, _, _, rfl⟩ := sysTransfer_ok h
  simp

theorem topUp_data {env : Env} {m m' : Mem} {payer swig : Meta} {n : Nat} (h : topUp env m payer swig n = .ok m') (k : Key) :
    (m' k).data = (m k).data ∧ (m' k).owner = (m k).owner := by
  unfold topUp at h
  simp only at h
  split at h
  · exact sysTransfer_data h k
  · cases h; simp

/-! ## Role addition -/

theorem align8_of_mod {n : Nat} (h : n % 8 = 0) : align8 n = n := by unfold align8; omega

theorem zeros_append (a b : Nat) : zeros a ++ zeros b = zeros (a + b) := by simp [zeros]

theorem sl_zeros (n i j : Nat) (h : j ≤ n) : sl (zeros n) i j = zeros (j - i) := by
  unfold sl zeros
  rw [List.drop_replicate, List.take_replicate]
  congr 1
  omega

/-- Bytes 6..8 of the space a new role is written to are zero, and so is its credential region from byte 24 on: the only
non-zero bytes there are those of the old rent-claimer entry. -/
theorem tail_region {c : Option Key} (hc : ∀ k, c = some k → k.length = 32) (n al : Nat) (h1 : 16 + al ≤ n) (hal : 24 ≤ al) :
    sl ((encTail c ++ zeros n).take n) 6 8 = zeros 2 ∧
    sl (sl ((encTail c ++ zeros n).take n) 16 (16 + al)) 24 al = zeros (al - 24) := by
  have e : ∀ i j, j ≤ n → sl ((encTail c ++ zeros n).take n) i j = sl (encTail c ++ zeros n) i j := by
    intro i j hj
    rw [← sl_zero, sl_sl _ _ _ _ _ (by omega)]
    simp
  constructor
  · rw [e _ _ (by omega)]
    cases c with
    | none =>
      have : encTail none ++ zeros n = zeros n := rfl
      rw [this, sl_zeros _ _ _ (by omega)]
    | some k => rfl
  · rw [sl_sl _ _ _ _ _ (by omega), e _ _ (by omega)]
    cases c with
    | none =>
      have : encTail none ++ zeros n = zeros n := rfl
      rw [this, sl_zeros _ _ _ (by omega)]
      congr 1; omega
    | some k =>
      have hk : (encTail (some k)).length = 40 := by simp [encTail, hc k rfl]
      rw [sl_right _ _ _ _ (by omega), hk, sl_zeros _ _ _ (by omega)]
      congr 1; omega

theorem Wallet.addRole_wf {w : Wallet} (hw : w.WF) {ty : Nat} {a : Auth} {create : Bytes} {as : List Act}
    (ha : initialAuth ty create = some a) (hwf : ∀ x ∈ as, x.WF) (h1 : 1 ≤ as.length) (h255 : as.length ≤ 255)
    (hdup : NoV2Dup as) (hcount : w.roles.length + 1 < 2 ^ 16) (hctr : w.roleCounter + 1 < 2 ^ 32)
    (hsz : 48 + rolesSize (w.addRole ty a.encode as).roles + 40 < 2 ^ 31) : (w.addRole ty a.encode as).WF := by
  refine ⟨hw.idLen, hw.padLen, hctr, hw.subCounter, ?_, ?_, ?_, ?_, hw.claimer, hsz⟩
  · simpa [Wallet.addRole] using hcount
  · intro r hr
    simp only [Wallet.addRole, List.mem_append, List.mem_singleton] at hr
    rcases hr with hr | rfl
    · exact hw.roles r hr
    · exact ⟨initialAuth_length ha, h1, h255, hwf, hdup⟩
  · simp only [Wallet.addRole, List.map_append, List.map_cons, List.map_nil]
    rw [List.nodup_append]
    refine ⟨hw.idsNodup, by simp, ?_⟩
    intro x hx y hy
    simp at hy
    obtain ⟨r, hr, rfl⟩ := List.mem_map.mp hx
    have := hw.idsLt r hr
    omega
  · intro r hr
    simp only [Wallet.addRole, List.mem_append, List.mem_singleton] at hr ⊢
    rcases hr with hr | rfl
    · have := hw.idsLt r hr; omega
    · simp

/-- The role-writing part of `add_authority_v1`. -/
theorem addData_enc {w : Wallet} {ty al : Nat} {create acts d : Bytes} (hw : w.WF) (hal : authLen ty = some al)
    (hcount : w.roles.length + 1 < 2 ^ 16) (hctr : w.roleCounter + 1 < 2 ^ 32)
    (hsize : align8 (w.encode.length + (16 + al + acts.length)) ≤ maxAccountLen)
    (h : addData (resize w.encode (align8 (w.encode.length + (16 + al + acts.length)))) (encTail w.claimer) ty create acts = .ok d) :
    ∃ a as, initialAuth ty create = some a ∧ Submits acts as ∧ (∀ x ∈ as, x.Fresh) ∧ 1 ≤ as.length ∧ as.length ≤ 255 ∧
      NoV2Dup as ∧ d = (w.addRole ty a.encode as).encode ∧ (w.addRole ty a.encode as).WF := by
  have h48 := Header.encode_length hw.header
  have hlen := Wallet.encode_length hw
  have hsize0 : w.encode.length + (16 + al + acts.length) ≤ align8 (w.encode.length + (16 + al + acts.length)) := by
    unfold align8; omega
  generalize hn : align8 (w.encode.length + (16 + al + acts.length)) = n at *
  have hmod := Wallet.encode_mod hw
  have halm := authLen_mod hal
  have hal' := authLen_lt hal
  -- the reallocated account
  generalize hk : n - w.encode.length = k at *
  have ed : resize w.encode n = w.header.encode ++ (encRoles 0 w.roles ++ (encTail w.claimer ++ zeros k)) := by
    unfold resize
    rw [List.take_of_length_le (by omega), hk]
    simp [Wallet.encode]
  have edl : (resize w.encode n).length = n := by rw [ed]; simp [h48]; omega
  -- split of tail ++ zeros
  have ejl : ((encTail w.claimer ++ zeros k).take k).length = k := by simp
  have ebuf : sl (resize w.encode n) 48 ((resize w.encode n).length - (encTail w.claimer).length) =
      encRoles 0 w.roles ++ (encTail w.claimer ++ zeros k).take k := by
    rw [edl, ed]
    have := sl_right w.header.encode (encRoles 0 w.roles ++ (encTail w.claimer ++ zeros k)) 48 (n - (encTail w.claimer).length)
      (by omega)
    rw [this, h48]
    unfold sl
    simp only [Nat.sub_self, List.drop_zero, Nat.sub_zero]
    have e : n - (encTail w.claimer).length - 48 = (encRoles 0 w.roles).length + k := by simp; omega
    rw [e, List.take_length_add_append]
  have edrop : (resize w.encode n).drop ((resize w.encode n).length - (encTail w.claimer).length) =
      (encTail w.claimer ++ zeros k).drop k := by
    rw [edl, ed]
    have e : n - (encTail w.claimer).length = (w.header.encode ++ encRoles 0 w.roles).length + k := by
      simp [h48]; omega
    rw [← List.append_assoc, e, List.drop_length_add_append]
  unfold addData at h
  rw [if_neg (by omega), ebuf, edrop] at h
  have ehd : Header.decode (resize w.encode n) = w.header := by rw [ed]; exact Header.decode_encode hw.header _
  rw [ehd] at h
  obtain ⟨s, h1, h2⟩ := bind_ok_iff.mp h
  obtain ⟨as, al', auth, g1, g2, g3, g4, g5, g6, g7, g8⟩ := addRole_ok hw.rolesOk rfl h1
  rw [hal] at g1; cases g1
  have hacts := g2.length
  have hamod := actsSize_mod (fun a ha => (g3 a ha).1 : ∀ a ∈ as, a.WF)
  have hnk : k = 16 + al + acts.length := by
    have : n = w.encode.length + (16 + al + acts.length) := by rw [← hn]; exact align8_of_mod (by omega)
    omega
  obtain ⟨z1, z2⟩ := tail_region hw.claimer k al (by omega) (by omega)
  obtain ⟨a, ha1, ha2⟩ := (setAuthority_initial hal (by rw [sl_length_of_le (by omega)]; omega) z2 auth).mp g7
  subst ha2
  rw [addRole_enc hw.rolesOk rfl hal g2 g3 g4 g5 g6 z1 (by omega) g7] at h1
  cases h1
  have hsz : rolesSize (w.addRole ty a.encode as).roles = rolesSize w.roles + k := by
    have := initialAuth_length ha1
    rw [hal] at this; cases this
    simp only [Wallet.addRole, rolesSize_append, rolesSize_cons, rolesSize_nil, Role.size]
    omega
  have hwf' : (w.addRole ty a.encode as).WF :=
    Wallet.addRole_wf hw ha1 (fun x hx => (g3 x hx).1) g4 g5 g6 hcount hctr (by unfold maxAccountLen at hsize; omega)
  refine ⟨a, as, ha1, g2, g3, g4, g5, g6, ?_, hwf'⟩
  have est := settleTail_enc hwf' ((encTail w.claimer ++ zeros k).drop k) (by simp [Wallet.addRole])
  have ehdr : (w.addRole ty a.encode as).header =
      { w.header with roles := (w.roles.length + 1) % 2 ^ 16, roleCounter := (w.header.roleCounter + 1) % 2 ^ 32 } := by
    simp only [Wallet.addRole, Wallet.header, List.length_append, List.length_singleton]
    congr 1 <;> omega
  have ejd : ((encTail w.claimer ++ zeros k).take k).drop (16 + al + acts.length) = [] :=
    List.drop_eq_nil_of_le (by omega)
  rw [ejd] at h2
  simp only [Builder.bytes, List.append_nil, List.append_assoc] at h2
  rw [ehdr] at est
  have est' := est.symm.trans h2
  exact (Except.ok.inj est').symm

end Verif
