import Verif.Proofs.Manage
import Verif.Spec.Update

/-! Refinement of each managing handler: from the encoding of a wallet to the encoding of the changed wallet. -/

namespace Verif

theorem authTypeOf_eq {t u : Nat} (h : authTypeOf t = .ok u) : u = t := by
  unfold authTypeOf at h
  split at h
  · cases h; rfl
  · cases h

theorem orErr_ok {α : Type} {o : Option α} {e : Err} {a : α} (h : orErr o e = .ok a) : o = some a := by
  cases o with
  | none => cases h
  | some b => cases h; rfl

theorem Wallet.used_find (w : Wallet) (id id' : Nat) : (w.used id).role? id' =
    (w.role? id').map fun r => if r.id = id then { r with auth := usedCred r.authType r.auth } else r :=
  mapRole_find w id id' _ (by intro r; rfl)

/-- A role keeps its place and size when another (or it itself) authenticates. -/
theorem Wallet.used_role_inv {w : Wallet} (hw : w.WF) {id id' : Nat} {t : Role} (h : (w.used id).role? id' = some t) :
    ∃ t', w.role? id' = some t' ∧ t'.size = t.size ∧ t'.authType = t.authType ∧ t'.actions = t.actions ∧
      t.auth = (if id' = id then usedCred t'.authType t'.auth else t'.auth) := by
  rw [Wallet.used_find] at h
  cases ho : w.role? id' with
  | none => rw [ho] at h; cases h
  | some t' =>
    rw [ho] at h
    have hm := role?_mem ho
    have := Option.some.inj h
    have hl := usedCred_length (hw.roles t' hm.1).auth
    simp only [hm.2] at this
    refine ⟨t', rfl, ?_, ?_, ?_, ?_⟩ <;> rw [← this] <;> split <;> simp [Role.size, hl]

theorem Wallet.used_encode_length {w : Wallet} (hw : w.WF) (id : Nat) : (w.used id).encode.length = w.encode.length := by
  rw [Wallet.encode_length hw, Wallet.encode_length (Wallet.used_wf hw id), Wallet.used_size hw]
  rfl

/-- What every authorised change of a wallet starts with: the acting role exists and authenticates. -/
def ActsAs (env : Env) (m : Mem) (metas : List Meta) (w : Wallet) (id : Nat) (payload data : Bytes) (r : Role) : Prop :=
  w.role? id = some r ∧
  authRole env r.authType r.auth metas (m instructionsSysvarId).data payload data = .ok (usedCred r.authType r.auth)

/-- Only the named account changes its data, and no account changes its owner. -/
def OnlyData (m m' : Mem) (k : Key) : Prop :=
  ∀ x, (m' x).owner = (m x).owner ∧ (x ≠ k → (m' x).data = (m x).data)

theorem addAuthorityV1_enc {env : Env} {m m' : Mem} {swig payer sys : Meta} {rest : List Meta} {ix : Bytes} {w : Wallet}
    (hw : w.WF) (hd : (m swig.key).data = w.encode) (hcount : w.roles.length + 1 < 2 ^ 16) (hctr : w.roleCounter + 1 < 2 ^ 32)
    (h : addAuthorityV1 env m (swig :: payer :: sys :: rest) ix = .ok m') :
    ∃ a r cred as, parseAdd ix = .ok a ∧ ActsAs env m (swig :: payer :: sys :: rest) w a.acting a.authPayload a.dataPayload r ∧
      (r.holds P.all ∨ r.holds P.manageAuthority) ∧ initialAuth a.newType a.authData = some cred ∧ Submits a.actions as ∧
      (∀ x ∈ as, x.Fresh) ∧ 1 ≤ as.length ∧ as.length ≤ 255 ∧ NoV2Dup as ∧
      (m' swig.key).data = ((w.used a.acting).addRole a.newType cred.encode as).encode ∧
      ((w.used a.acting).addRole a.newType cred.encode as).WF ∧ OnlyData m m' swig.key := by
  simp only [addAuthorityV1] at h
  obtain ⟨_, _, h⟩ := bind_ok_iff.mp h
  obtain ⟨_, _, h⟩ := bind_ok_iff.mp h
  obtain ⟨a, ha, h⟩ := bind_ok_iff.mp h
  obtain ⟨ty, hty, h⟩ := bind_ok_iff.mp h
  have := authTypeOf_eq hty
  subst this
  rw [hd, openSwig_enc hw] at h
  simp only [ok_bind] at h
  obtain ⟨tail, ht, h⟩ := bind_ok_iff.mp h
  have htail : tail = encTail w.claimer := by
    have := savedTailTake_enc hw
    rw [show w.parts.tail = encTail w.claimer from rfl, this] at ht
    exact (Except.ok.inj ht).symm
  subst htail
  obtain ⟨⟨p, v⟩, hact, h⟩ := bind_ok_iff.mp h
  obtain ⟨r, hr1, hr2, rfl, hr4, hr5⟩ := actAs_enc hw hact
  simp only at h
  rw [hr4, hasManage_enc hw (role?_mem hr1).1] at h
  simp only [ok_bind] at h
  obtain ⟨_, hperm, h⟩ := bind_ok_iff.mp h
  have hperm := decide_eq_true_iff.mp (require_ok_iff.mp hperm)
  obtain ⟨al, hal, h⟩ := bind_ok_iff.mp h
  have hal := orErr_ok hal
  have hlen := Wallet.used_encode_length hw a.acting
  rw [← hlen, Wallet.parts_bytes] at h
  obtain ⟨m1, hre, h⟩ := bind_ok_iff.mp h
  obtain ⟨hmax, rfl⟩ := realloc_ok hre
  obtain ⟨m2, htop, h⟩ := bind_ok_iff.mp h
  obtain ⟨d, hadd, h⟩ := bind_ok_iff.mp h
  cases h
  have ht2 := topUp_data htop
  rw [(ht2 swig.key).1] at hadd
  simp only [Mem.setData_data, Mem.set_data_same] at hadd
  have hw' := Wallet.used_wf hw a.acting
  have hcl : (w.used a.acting).claimer = w.claimer := rfl
  rw [← hcl] at hadd
  obtain ⟨cred, as, g1, g2, g3, g4, g5, g6, g7, g8⟩ := addData_enc hw' hal (by simpa [Wallet.used, Wallet.mapRole] using hcount)
    hctr hmax hadd
  refine ⟨a, r, cred, as, ha, ⟨hr1, hr2⟩, hperm, g1, g2, g3, g4, g5, g6, ?_, g8, ?_⟩
  · simp [g7]
  · intro x
    have := ht2 x
    constructor
    · simp [this.2]
    · intro hx
      rw [Mem.setData_other _ _ hx, this.1, Mem.setData_other _ _ hx, Mem.setData_other _ _ hx]

theorem Wallet.removeRole_split {w : Wallet} {before after : List Role} {r : Role} {id : Nat}
    (h : w.roles = before ++ r :: after) (hr : r.id = id) (hb : ∀ x ∈ before, x.id ≠ id) (ha : ∀ x ∈ after, x.id ≠ id) :
    (w.removeRole id).roles = before ++ after := by
  unfold Wallet.removeRole
  simp only [h, List.filter_append]
  rw [List.filter_eq_self.mpr (by intro x hx; simp [hb x hx]), List.filter_cons_of_neg (by simp [hr]),
    List.filter_eq_self.mpr (by intro x hx; simp [ha x hx])]

theorem Wallet.removeRole_wf {w : Wallet} (hw : w.WF) (id : Nat) : (w.removeRole id).WF := by
  have hsub : (w.removeRole id).roles.Sublist w.roles := List.filter_sublist
  refine ⟨hw.idLen, hw.padLen, hw.counter, hw.subCounter, ?_, fun r hr => hw.roles r (hsub.subset hr), ?_,
    fun r hr => hw.idsLt r (hsub.subset hr), hw.claimer, ?_⟩
  · have := hsub.length_le
    have := hw.count
    omega
  · exact (hsub.map Role.id).nodup hw.idsNodup
  · have hle : rolesSize (w.removeRole id).roles ≤ rolesSize w.roles := by
      unfold rolesSize Wallet.removeRole
      simp only
      generalize w.roles = l
      induction l with
      | nil => simp
      | cons a l ih =>
        rw [List.filter_cons]
        split
        · simp only [List.map_cons, List.sum_cons]; omega
        · simp only [List.map_cons, List.sum_cons]; omega
    have := hw.size
    omega

theorem removeRole_wallet {w : Wallet} (hw : w.WF) {id : Nat} {t : Role} (ht : w.role? id = some t) :
    Verif.removeRole ⟨w.header, encRoles 0 w.roles⟩ id =
      .ok (⟨(w.removeRole id).header, encRoles 0 (w.removeRole id).roles ++ zeros t.size⟩,
        rolesSize (w.removeRole id).roles, t.size) ∧
    rolesSize w.roles = rolesSize (w.removeRole id).roles + t.size := by
  obtain ⟨before, after, g1, g2, g3, g4⟩ := hw.split ht
  have hok := hw.rolesOk
  have hcnt := hw.count
  have hroles : (w.removeRole id).roles = before ++ after := Wallet.removeRole_split g1 g2 g3 g4
  have hhdr : (w.removeRole id).header = { w.header with roles := (before ++ after).length } := by
    have : (w.removeRole id).header = { w.header with roles := (w.removeRole id).roles.length } := rfl
    rw [this, hroles]
  constructor
  · rw [hhdr, hroles, g1]
    exact removeRole_enc (g1 ▸ hok) (by simp [Wallet.header, g1]) (by simpa [Wallet.header] using hcnt) g2 g3 g4
  · rw [hroles, g1, rolesSize_append, rolesSize_append]; simp; omega

/-- The account after a removal, cut to its new length. -/
theorem resize_removed {w : Wallet} {t : Role} {id : Nat} (hw : w.WF) (ht : w.role? id = some t) :
    resize ((⟨(w.removeRole id).header, encRoles 0 (w.removeRole id).roles ++ zeros t.size⟩ : Builder).bytes ++
        encTail w.claimer) (w.encode.length - t.size) =
      (w.removeRole id).header.encode ++ (encRoles 0 (w.removeRole id).roles ++
        (zeros t.size ++ encTail w.claimer).take (encTail w.claimer).length) := by
  have hs := (removeRole_wallet hw ht).2
  have hwf' := Wallet.removeRole_wf hw id
  have h48 := Header.encode_length hwf'.header
  have hlen := Wallet.encode_length hw
  simp only [Builder.bytes]
  generalize (w.removeRole id).header.encode = hdr at *
  generalize (w.removeRole id).roles = rs at *
  unfold resize
  generalize hz : zeros t.size = z
  have hzl : z.length = t.size := by rw [← hz]; simp
  have h0 : w.encode.length - t.size - (hdr ++ (encRoles 0 rs ++ z) ++ encTail w.claimer).length = 0 := by
    simp only [List.length_append, h48, encRoles_length, hzl]; omega
  have hn : w.encode.length - t.size = (hdr ++ encRoles 0 rs).length + (encTail w.claimer).length := by
    simp only [List.length_append, h48, encRoles_length]; omega
  have ea : hdr ++ (encRoles 0 rs ++ z) ++ encTail w.claimer = (hdr ++ encRoles 0 rs) ++ (z ++ encTail w.claimer) := by simp
  rw [h0, hn, ea, List.take_length_add_append]
  simp [zeros]

theorem setLamports_lamports (m : Mem) (k x : Key) (n : Nat) :
    ((m.setLamports k n) x).lamports = if x = k then n else (m x).lamports := by
  unfold Mem.setLamports Mem.set; split <;> rfl

theorem removeRefund_setData (env : Env) (m : Mem) (swig payer : Key) (d : Bytes) (n n' : Nat) (x : Key) :
    (removeRefund env (m.setData swig d) swig payer n n' x).lamports = (removeRefund env m swig payer n n' x).lamports := by
  unfold removeRefund
  simp only [setLamports_lamports, Mem.setData_lamports]

theorem removeAuthorityV1_enc {env : Env} {m m' : Mem} {swig payer sys : Meta} {rest : List Meta} {ix : Bytes} {w : Wallet}
    (hw : w.WF) (hd : (m swig.key).data = w.encode)
    (h : removeAuthorityV1 env m (swig :: payer :: sys :: rest) ix = .ok m') :
    ∃ a r t, parseRemove ix = .ok a ∧ a.target ≠ 0 ∧
      ActsAs env m (swig :: payer :: sys :: rest) w a.acting a.authPayload a.dataPayload r ∧
      ((r.holds P.all ∨ r.holds P.manageAuthority) ∨ a.acting = a.target) ∧ w.role? a.target = some t ∧
      (m' swig.key).data = ((w.used a.acting).removeRole a.target).encode ∧
      ((w.used a.acting).removeRole a.target).WF ∧ OnlyData m m' swig.key ∧
      (∀ k, (m' k).lamports = (removeRefund env m swig.key payer.key w.encode.length (w.encode.length - t.size) k).lamports) := by
  simp only [removeAuthorityV1] at h
  obtain ⟨_, _, h⟩ := bind_ok_iff.mp h
  obtain ⟨_, _, h⟩ := bind_ok_iff.mp h
  obtain ⟨a, ha, h⟩ := bind_ok_iff.mp h
  obtain ⟨_, h0, h⟩ := bind_ok_iff.mp h
  have h0 := require_ok_iff.mp h0
  rw [hd, openSwig_enc hw] at h
  simp only [ok_bind] at h
  obtain ⟨tail, ht, h⟩ := bind_ok_iff.mp h
  have htail : tail = encTail w.claimer := by
    have := savedTailTake_enc hw
    rw [show w.parts.tail = encTail w.claimer from rfl, this] at ht
    exact (Except.ok.inj ht).symm
  subst htail
  obtain ⟨⟨p, v⟩, hact, h⟩ := bind_ok_iff.mp h
  obtain ⟨r, hr1, hr2, rfl, hr4, hr5⟩ := actAs_enc hw hact
  simp only at h
  rw [hr4, hasManage_enc hw (role?_mem hr1).1] at h
  simp only [ok_bind] at h
  obtain ⟨_, hperm, h⟩ := bind_ok_iff.mp h
  have hperm := require_ok_iff.mp hperm
  rw [decide_eq_true_iff] at hperm
  obtain ⟨tv, htv, h⟩ := bind_ok_iff.mp h
  obtain ⟨_, hts, h⟩ := bind_ok_iff.mp h
  have hw1 := Wallet.used_wf hw a.acting
  have eroles : (w.used a.acting).parts.roles = encRoles 0 (w.used a.acting).roles := rfl
  rcases getMutRole_enc a.target (w.used a.acting).roles hw1.rolesOk with ⟨t, before, after, g1, g2, g3, g4⟩ | ⟨g1, g2⟩
  · have ht1 : (w.used a.acting).role? a.target = some t := role?_split g1 g2 g3
    obtain ⟨t', ht', hsz, _⟩ := Wallet.used_role_inv hw ht1
    rw [show (⟨(w.used a.acting).parts.header, (w.used a.acting).parts.roles⟩ : Builder) =
      ⟨(w.used a.acting).header, encRoles 0 (w.used a.acting).roles⟩ from rfl, (removeRole_wallet hw1 ht1).1] at h
    simp only [ok_bind] at h
    obtain ⟨m1, hre, h⟩ := bind_ok_iff.mp h
    obtain ⟨hmax, rfl⟩ := realloc_ok hre
    obtain ⟨d, hset, h⟩ := bind_ok_iff.mp h
    cases h
    have hres := resize_removed hw1 ht1
    rw [Wallet.used_encode_length hw, show (w.used a.acting).claimer = w.claimer from rfl] at hres
    have hwf' := Wallet.removeRole_wf hw1 a.target
    simp only [Mem.setData_data] at hset
    have hdat : ∀ (m : Mem) (d : Bytes) (n n' : Nat), ((removeRefund env (m.setData swig.key d) swig.key payer.key n n') swig.key).data = d := by
      intro m d n n'; simp [removeRefund]
    rw [hdat, show (w.used a.acting).parts.tail = encTail w.claimer from rfl, hres] at hset
    have hst := settleTail_enc hwf' ((zeros t.size ++ encTail w.claimer).take (encTail w.claimer).length)
      (by simp [Wallet.removeRole, Wallet.used, Wallet.mapRole])
    rw [show ((w.used a.acting).removeRole a.target).claimer = w.claimer from rfl] at hst
    rw [hst] at hset
    cases hset
    refine ⟨a, r, t', ha, h0, ⟨hr1, hr2⟩, hperm, ht', ?_, hwf', ?_, ?_⟩
    · simp
    · intro x
      constructor
      · simp [removeRefund]
      · intro hx
        rw [Mem.setData_other _ _ hx, Mem.setData_other _ _ hx]
        simp [removeRefund, Mem.setData_other _ _ hx]
    · intro k
      rw [hsz]
      simp only [Mem.setData_lamports]
      exact removeRefund_setData ..
  · rw [eroles, g2] at htv
    cases htv
    simp [require] at hts

end Verif
