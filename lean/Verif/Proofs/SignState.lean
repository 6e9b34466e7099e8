import Verif.Proofs.Charges
import Verif.Proofs.PutAct

/-! The actions of the acting role in the account data: lookups and charges on bytes are those on the list of actions. -/

namespace Verif

/-- Where the actions of the acting role are. -/
structure Placed (l : ActLoc) (w : Wallet) (id : Nat) (r : Role) (before after : List Role) : Prop where
  wf : w.WF
  split : w.roles = before ++ r :: after
  rid : r.id = id
  off : l.off = 48 + (rolesSize before + 16 + r.auth.length)
  len : l.len = actsSize r.actions

/-- The ledger in which the role has the actions `as`. -/
def cfgMem (l : ActLoc) (w : Wallet) (id : Nat) (m : Mem) (as : List Act) : Mem := m.setData l.swig (w.setActions id as).encode

theorem All2.length {α β : Type} {r : α → β → Prop} {as : List α} {bs : List β} (h : All2 r as bs) : as.length = bs.length := by
  induction h with
  | nil => rfl
  | cons _ _ ih => simp [ih]

theorem charged_size {as as' : List Act} (h : All2 Act.Charged as as') : actsSize as' = actsSize as := by
  induction h with
  | nil => rfl
  | cons h1 _ ih => simp only [actsSize_cons, Act.size, h1.2.len, ih]

theorem charged_v2Key {a a' : Act} (h : a.Charged a') : a'.v2Key = a.v2Key := by
  unfold Act.v2Key
  rw [h.1]
  by_cases h1 : a.ty = 22
  · rw [if_pos h1, if_pos h1]
  · rw [if_neg h1, if_neg h1]
    by_cases h2 : 23 ≤ a.ty ∧ a.ty ≤ 26
    · rw [if_pos h2, if_pos h2]
      have hk : repeatable a.ty = true ∧ ∀ x, keyOf a.ty x = x.take 4 := by
        have : a.ty = 23 ∨ a.ty = 24 ∨ a.ty = 25 ∨ a.ty = 26 := by omega
        rcases this with e | e | e | e <;> rw [e] <;> exact ⟨rfl, fun _ => rfl⟩
      have := h.2.key hk.1
      rw [hk.2, hk.2] at this
      rw [this]
    · rw [if_neg h2, if_neg h2]

theorem charged_noDup {as as' : List Act} (h : All2 Act.Charged as as') (hd : NoV2Dup as) : NoV2Dup as' := by
  have e : as'.filterMap Act.v2Key = as.filterMap Act.v2Key := by
    clear hd
    induction h with
    | nil => rfl
    | cons h1 _ ih => simp only [List.filterMap_cons, charged_v2Key h1, ih]
  unfold NoV2Dup at *
  rw [e]; exact hd

theorem payload?_charged {as as' : List Act} (h : All2 Act.Charged as as') (ty : Nat) (key : Bytes) :
    (payload? as' ty key).isSome = (payload? as ty key).isSome := by
  unfold payload?
  induction h with
  | nil => rfl
  | cons h1 _ ih =>
    rename_i a a' as as' _
    simp only [List.find?_cons]
    have := h1.grants ty key
    by_cases hg : a.grants ty key
    · have hg' := this.mpr hg
      simp [hg, hg']
    · have hg' : ¬ a'.grants ty key := fun h => hg (this.mp h)
      rw [decide_eq_false hg, decide_eq_false hg']
      exact ih

section
variable {l : ActLoc} {w : Wallet} {id : Nat} {r : Role} {before after : List Role}

theorem Placed.role (h : Placed l w id r before after) : w.role? id = some r :=
  role?_split h.split h.rid (fun x hx => h.rid ▸ (h.wf.others h.split).1 x hx)

theorem Placed.mem (h : Placed l w id r before after) : r ∈ w.roles := by rw [h.split]; simp

theorem Placed.roleWf (h : Placed l w id r before after) : r.WF := h.wf.roles r h.mem

theorem Placed.roles (h : Placed l w id r before after) (as : List Act) :
    (w.setActions id as).roles = before ++ { r with actions := as } :: after :=
  mapRole_split id _ h.split h.rid (fun x hx => h.rid ▸ (h.wf.others h.split).1 x hx)
    (fun x hx => h.rid ▸ (h.wf.others h.split).2 x hx)

theorem Placed.role' (h : Placed l w id r before after) (as : List Act) :
    (w.setActions id as).role? id = some { r with actions := as } :=
  role?_split (h.roles as) h.rid (fun x hx => h.rid ▸ (h.wf.others h.split).1 x hx)

theorem Placed.wf' (h : Placed l w id r before after) {as : List Act} (hc : All2 Act.Charged r.actions as) :
    (w.setActions id as).WF := by
  have hr := h.roleWf
  refine Wallet.setActions_wf h.wf (All2.wf hc hr.acts) ?_ ?_ (charged_noDup hc hr.v2) ?_
  · rw [← hc.length]; exact hr.nonempty
  · rw [← hc.length]; exact hr.atMost
  · have h1 := setActions_size h.wf (as := as) h.role
    have h2 := charged_size hc
    have := h.wf.size
    omega

theorem Placed.self (h : Placed l w id r before after) : w.setActions id r.actions = w := by
  have h1 := h.roles r.actions
  have h2 : before ++ ({ r with actions := r.actions } : Role) :: after = w.roles := h.split.symm
  rw [h2] at h1
  cases w
  simp only [Wallet.setActions, Wallet.mapRole] at *
  rw [h1]

/-- If the data is that of the wallet, the ledger is the one with the actions of the role. -/
theorem Placed.start (h : Placed l w id r before after) {m : Mem} (hd : (m l.swig).data = w.encode) :
    m = cfgMem l w id m r.actions := by
  unfold cfgMem
  rw [h.self, ← hd]
  funext x
  unfold Mem.setData Mem.set
  split
  · rename_i e; rw [e]
  · rfl

theorem Placed.encSplit (h : Placed l w id r before after) (as : List Act) :
    ∃ pre post : Bytes, pre.length = l.off ∧ (w.setActions id as).encode = pre ++ (encActs 0 as ++ post) := by
  have h48 := Header.encode_length h.wf.header
  refine ⟨w.header.encode ++ (encRoles 0 before ++ (encPos r.authType r.auth.length as.length r.id
      (rolesSize before + ({ r with actions := as } : Role).size) ++ r.auth)),
    encRoles (rolesSize before + ({ r with actions := as } : Role).size) after ++ encTail w.claimer, ?_, ?_⟩
  · rw [h.off]; simp [h48, encPos]; omega
  · unfold Wallet.encode
    rw [h.roles as, Wallet.setActions_header, encRoles_append]
    simp only [encRoles, encRole, List.append_assoc, Nat.zero_add]
    rfl

theorem Placed.bytes (h : Placed l w id r before after) {as : List Act} (hc : All2 Act.Charged r.actions as) (m : Mem) :
    l.bytes (cfgMem l w id m as) = .ok (encActs 0 as) := by
  obtain ⟨pre, post, h1, h2⟩ := h.encSplit as
  have hl : (encActs 0 as).length = l.len := by simp [h.len, charged_size hc]
  unfold ActLoc.bytes cfgMem slU
  rw [Mem.setData_data, h2]
  rw [if_pos (by simp only [List.length_append]; omega)]
  rw [sl_mid pre (encActs 0 as) post h1.symm (by omega)]

theorem Placed.actsLt (h : Placed l w id r before after) {as : List Act} (hc : All2 Act.Charged r.actions as) :
    actsSize as < 2 ^ 32 := by
  rw [charged_size hc]; exact (h.wf.actsSize_lt h.mem).2

/-- Lookup. -/
theorem Placed.find (h : Placed l w id r before after) {as : List Act} (hc : All2 Act.Charged r.actions as) (m : Mem)
    (ty : Nat) (key : Bytes) (hk : repeatable ty = true → key.length = keyLen ty) :
    l.find (cfgMem l w id m as) ty key = .ok (payload? as ty key) := by
  unfold ActLoc.find
  rw [h.bytes hc]
  simp only [ok_bind]
  have hwf := All2.wf hc h.roleWf.acts
  unfold getActionMut
  rcases getActionGo_grants ty key as hwf (h.actsLt hc) hk with ⟨a, ab, aa, k1, k2, k3, k4⟩ | ⟨k1, k2⟩
  · rw [k4, payload?_split k1 k2 k3]
    simp only [ok_bind, Option.map_some]
    have ha : a.WF := hwf a (by simp [k1])
    have hal : (actionLen ty).getD 0 = a.data.length := by rw [← k2.1, ha]; rfl
    rw [hal, sl_encActs_mid as ab aa a k1]
  · rw [k2, payload?_none k1]; rfl

theorem Placed.has (h : Placed l w id r before after) {as : List Act} (hc : All2 Act.Charged r.actions as) (m : Mem)
    (ty : Nat) (key : Bytes) (hk : repeatable ty = true → key.length = keyLen ty) :
    l.has (cfgMem l w id m as) ty key = .ok (payload? as ty key).isSome := by
  unfold ActLoc.has
  rw [h.find hc m ty key hk]
  rfl

/-- One charge. -/
theorem Placed.charge (h : Placed l w id r before after) {as : List Act} (hc : All2 Act.Charged r.actions as) {m : Mem}
    {ty : Nat} {key : Bytes} {n slot : Nat} (hk : repeatable ty = true → key.length = keyLen ty) {o : Option Mem}
    (ho : l.charge (cfgMem l w id m as) ty key (chargeFn ty n slot) = .ok o) :
    (o = none ∧ payload? as ty key = none) ∨
    ∃ as', o = some (cfgMem l w id m as') ∧ chargeFirst ty key (chargeFn ty n slot) as = .ok (some as') ∧
      All2 Act.Charged as as' ∧ (payload? as ty key).isSome = true := by
  unfold ActLoc.charge at ho
  rw [h.bytes hc] at ho
  simp only [ok_bind] at ho
  have hwf := All2.wf hc h.roleWf.acts
  obtain ⟨p, hp, ho⟩ := bind_ok_iff.mp ho
  unfold getActionMut at hp
  rcases getActionGo_grants ty key as hwf (h.actsLt hc) hk with ⟨a, ab, aa, k1, k2, k3, k4⟩ | ⟨k1, k2⟩
  · rw [k4] at hp
    cases hp
    simp only at ho
    obtain ⟨m', hm, ho⟩ := bind_ok_iff.mp ho
    cases ho
    unfold ActLoc.write at hm
    obtain ⟨d, hd, hm⟩ := bind_ok_iff.mp hm
    have ha : a.WF := hwf a (by simp [k1])
    have hal : (actionLen ty).getD 0 = a.data.length := by rw [← k2.1, ha]; rfl
    rw [hal, sl_encActs_mid as ab aa a k1] at hd
    obtain ⟨hct, hty⟩ := chargeFn_charged hd (by rw [← k2.1]; exact ha)
    have hcf : chargeFirst ty key (chargeFn ty n slot) as = .ok (some (ab ++ { a with data := d } :: aa)) := by
      rw [k1]; exact chargeFirst_split k2 k3 hd
    refine .inr ⟨ab ++ { a with data := d } :: aa, ?_, hcf, ?_, by rw [payload?_split k1 k2 k3]; rfl⟩
    · cases hm
      congr 1
      unfold cfgMem
      rw [Mem.setData_data, Mem.set_data_same]
      congr 1
      -- bytes
      obtain ⟨_, hb⟩ := h.wf.others h.split
      have h48 := Header.encode_length h.wf.header
      have e1 : (w.setActions id as).encode = w.header.encode ++ (encRoles 0 (before ++ { r with actions := as } :: after) ++ encTail w.claimer) := by
        unfold Wallet.encode; rw [h.roles as, Wallet.setActions_header]; rfl
      have e2 : (w.setActions id (ab ++ { a with data := d } :: aa)).encode =
          w.header.encode ++ (encRoles 0 (before ++ { r with actions := ab ++ { a with data := d } :: aa } :: after) ++ encTail w.claimer) := by
        unfold Wallet.encode; rw [h.roles _, Wallet.setActions_header]; rfl
      have e3 := put_encRoles_act before after { r with actions := as } ab aa a 0 d k1 (by rw [hct.len]; omega)
      have e4 : put a.data 0 d = d := by
        unfold put
        rw [hct.len, List.drop_eq_nil_of_le (by omega)]
        simp
      rw [e4] at e3
      rw [e1, e2, ← e3]
      have hlen : rolesSize before + 16 + r.auth.length + (actsSize ab + 8 + 0) + d.length ≤
          (encRoles 0 (before ++ ({ r with actions := as } : Role) :: after)).length := by
        simp only [encRoles_length, rolesSize_append, rolesSize_cons, Role.size, hct.len]
        rw [k1, actsSize_append, actsSize_cons]
        simp only [Act.size]
        omega
      have e5 := put_append3 w.header.encode (encRoles 0 (before ++ { r with actions := as } :: after)) (encTail w.claimer) d
        (rolesSize before + 16 + r.auth.length + (actsSize ab + 8 + 0)) hlen
      rw [← e5]
      congr 1
      rw [h.off, h48]; omega
    · exact (chargeFirst_payload hcf (fun b hb d e hf => (chargeFn_charged hf (by rw [← e]; exact hwf b hb)).1)).1
  · rw [k2] at hp
    cases hp
    cases ho
    exact .inl ⟨rfl, payload?_none k1⟩

end

/-- The charge made to the first of two kinds of limit that the role holds. -/
def eitherSeg (as : List Act) (ty1 ty2 : Nat) (key : Bytes) (n : Nat) : List Chg :=
  if (payload? as ty1 key).isSome then [⟨ty1, key, n⟩]
  else if (payload? as ty2 key).isSome then [⟨ty2, key, n⟩]
  else []

theorem eitherSeg_congr {as as' : List Act} (h : All2 Act.Charged as as') (ty1 ty2 : Nat) (key : Bytes) (n : Nat) :
    eitherSeg as' ty1 ty2 key n = eitherSeg as ty1 ty2 key n := by
  unfold eitherSeg
  rw [payload?_charged h, payload?_charged h]

section
variable {x : SignCtx} {w : Wallet} {id : Nat} {r : Role} {before after : List Role}

theorem Placed.chargeEither (h : Placed x.loc w id r before after) {as : List Act} (hc : All2 Act.Charged r.actions as) {m m' : Mem}
    {ty1 ty2 : Nat} {key : Bytes} {n slot : Nat} {b : Bool}
    (hk1 : repeatable ty1 = true → key.length = keyLen ty1) (hk2 : repeatable ty2 = true → key.length = keyLen ty2)
    (ho : chargeEither x (cfgMem x.loc w id m as) ty1 ty2 key (chargeFn ty1 n slot) (chargeFn ty2 n slot) = .ok (m', b)) :
    ∃ as', m' = cfgMem x.loc w id m as' ∧ Plays slot as (eitherSeg as ty1 ty2 key n) as' ∧ All2 Act.Charged as as' ∧
      (b = true ↔ eitherSeg as ty1 ty2 key n ≠ []) := by
  unfold Verif.chargeEither at ho
  obtain ⟨o, h1, ho⟩ := bind_ok_iff.mp ho
  rcases h.charge hc hk1 h1 with ⟨rfl, e1⟩ | ⟨as', rfl, e1, e2, e3⟩
  · simp only at ho
    obtain ⟨o, h2, ho⟩ := bind_ok_iff.mp ho
    rcases h.charge hc hk2 h2 with ⟨rfl, f1⟩ | ⟨as', rfl, f1, f2, f3⟩
    · cases ho
      refine ⟨as, rfl, ?_, All2.refl' Act.Charged.refl _, ?_⟩
      · simp only [eitherSeg, e1, f1]; exact .nil _
      · simp [eitherSeg, e1, f1]
    · cases ho
      refine ⟨as', rfl, ?_, f2, ?_⟩
      · simp only [eitherSeg, e1, f3]; exact .cons _ f1 (.nil _)
      · simp [eitherSeg, e1, f3]
  · cases ho
    refine ⟨as', rfl, ?_, e2, ?_⟩
    · simp only [eitherSeg, e3]; exact .cons _ e1 (.nil _)
    · simp [eitherSeg, e3]

theorem charged_trans {a b c : List Act} (h1 : All2 Act.Charged a b) (h2 : All2 Act.Charged b c) : All2 Act.Charged a c :=
  All2.trans' (fun a b c (h1 : a.Charged b) (h2 : b.Charged c) => h1.trans h2) h1 h2

/-- All destination charges of a list of transfers. -/
theorem Placed.chargeDests (h : Placed x.loc w id r before after) {m : Mem} {ty1 ty2 : Nat} {kf : Key → Bytes} {slot : Nat}
    (hk1 : repeatable ty1 = true → ∀ d : Key, d.length = 32 → (kf d).length = keyLen ty1)
    (hk2 : repeatable ty2 = true → ∀ d : Key, d.length = 32 → (kf d).length = keyLen ty2) :
    ∀ {ts : List (Key × Nat)} {as : List Act} {sum sum' : Nat} {m' : Mem}, All2 Act.Charged r.actions as →
    (∀ t ∈ ts, t.1.length = 32) →
    chargeDests (fun m d n => Verif.chargeEither x m ty1 ty2 (kf d) (chargeFn ty1 n slot) (chargeFn ty2 n slot))
      (cfgMem x.loc w id m as) sum ts = .ok (m', sum') →
    ∃ as', m' = cfgMem x.loc w id m as' ∧ Plays slot as (ts.flatMap fun t => eitherSeg as ty1 ty2 (kf t.1) t.2) as' ∧
      All2 Act.Charged as as' ∧ (∀ t ∈ ts, eitherSeg as ty1 ty2 (kf t.1) t.2 ≠ []) ∧ sum' = sum + (ts.map Prod.snd).sum := by
  intro ts
  induction ts with
  | nil =>
    intro as sum sum' m' _ _ ho
    cases ho
    exact ⟨as, rfl, .nil _, All2.refl' Act.Charged.refl _, by simp, by simp⟩
  | cons t ts ih =>
    intro as sum sum' m' hc hl ho
    obtain ⟨d, n⟩ := t
    simp only [Verif.chargeDests] at ho
    obtain ⟨_, _, ho⟩ := bind_ok_iff.mp ho
    obtain ⟨⟨m1, b⟩, h1, ho⟩ := bind_ok_iff.mp ho
    simp only at ho
    obtain ⟨_, hb, ho⟩ := bind_ok_iff.mp ho
    have hd : d.length = 32 := hl (d, n) (by simp)
    obtain ⟨as1, rfl, p1, p2, p3⟩ := h.chargeEither hc (fun hr => hk1 hr d hd) (fun hr => hk2 hr d hd) h1
    obtain ⟨as', rfl, q1, q2, q3, q4⟩ := ih (charged_trans hc p2) (fun t ht => hl t (by simp [ht])) ho
    simp only [eitherSeg_congr p2] at q1 q3
    refine ⟨as', rfl, ?_, charged_trans p2 q2, ?_, ?_⟩
    · simp only [List.flatMap_cons]; exact p1.append q1
    · intro t ht
      rcases List.mem_cons.mp ht with rfl | ht
      · exact p3.mp (require_ok_iff.mp hb)
      · exact q3 t ht
    · simp only [List.map_cons, List.sum_cons]; omega

end

end Verif
