import Verif.Model.SubV2
import Verif.Proofs.Close
import Verif.Proofs.UpdateHandler

/-! Writing into the payload of a stored action: on the bytes of the role table, and on the wallet. -/

namespace Verif

theorem encRoles_act_split (rb ra : List Role) (r : Role) (ab aa : List Act) (a : Act) (hr : r.actions = ab ++ a :: aa) :
    ∃ pre post : Bytes, pre.length = rolesSize rb + 16 + r.auth.length + actsSize ab + 8 ∧
      ∀ d : Bytes, d.length = a.data.length →
        encRoles 0 (rb ++ { r with actions := ab ++ { a with data := d } :: aa } :: ra) = pre ++ (d ++ post) := by
  refine ⟨encRoles 0 rb ++ encPos r.authType r.auth.length r.actions.length r.id (rolesSize rb + r.size) ++ r.auth ++
    encActs 0 ab ++ natLE 2 a.ty ++ natLE 2 a.data.length ++ natLE 4 (actsSize ab + a.size),
    encActs (actsSize ab + a.size) aa ++ encRoles (rolesSize rb + r.size) ra, ?_, ?_⟩
  · simp [encPos]; omega
  · intro d hd
    have hs : ({ r with actions := ab ++ { a with data := d } :: aa } : Role).size = r.size := by
      simp [Role.size, hr, actsSize_append, Act.size, hd]
    have hl : (ab ++ ({ a with data := d } : Act) :: aa).length = r.actions.length := by simp [hr]
    have ha : ({ a with data := d } : Act).size = a.size := by simp [Act.size, hd]
    rw [encRoles_append]
    simp only [encRoles, encRole, hs, hl, Nat.zero_add, List.append_assoc]
    rw [encActs_append]
    simp only [encActs, encAct, ha, hd, Nat.zero_add, List.append_assoc]

/-- Writing into an action payload, seen on the bytes. -/
theorem put_encRoles_act (rb ra : List Role) (r : Role) (ab aa : List Act) (a : Act) (i : Nat) (v : Bytes)
    (hr : r.actions = ab ++ a :: aa) (h : i + v.length ≤ a.data.length) :
    put (encRoles 0 (rb ++ r :: ra)) (rolesSize rb + 16 + r.auth.length + (actsSize ab + 8 + i)) v =
      encRoles 0 (rb ++ { r with actions := ab ++ { a with data := put a.data i v } :: aa } :: ra) := by
  obtain ⟨pre, post, hp, he⟩ := encRoles_act_split rb ra r ab aa a hr
  have e0 : encRoles 0 (rb ++ r :: ra) = pre ++ (a.data ++ post) := by
    rw [← he a.data rfl]
    have : ({ r with actions := ab ++ { a with data := a.data } :: aa } : Role) = r := by
      cases r; simp only at hr; subst hr; rfl
    rw [this]
  rw [e0, he _ (put_length h)]
  have := put_append3 pre a.data post v i h
  rw [← this]
  congr 1
  omega

/-- `actAs` with the place of the acting role. -/
theorem actAs_view {env : Env} {m : Mem} {metas : List Meta} {w : Wallet} {id : Nat} {payload dp : Bytes} {p : Parts} {v : RoleView}
    (hw : w.WF) (h : actAs env m metas w.parts id payload dp = .ok (p, v)) :
    ∃ r before after, w.roles = before ++ r :: after ∧ r.id = id ∧ (∀ x ∈ before, x.id ≠ id) ∧ (∀ x ∈ after, x.id ≠ id) ∧
      ActsAs env m metas w id payload dp r ∧ p = (w.used id).parts ∧ v.actions = encActs 0 r.actions ∧
      v.actsOff = rolesSize before + 16 + r.auth.length ∧ v.numActions = r.actions.length := by
  obtain ⟨r, h1, h2, h3, h4, _⟩ := actAs_enc hw h
  unfold actAs at h
  simp only [Wallet.parts] at h
  rcases getMutRole_enc id w.roles hw.rolesOk with ⟨r', before, after, g1, g2, g3, g4⟩ | ⟨g1, g2⟩
  · have hr : r = r' := by
      have := role?_split g1 g2 g3
      rw [h1] at this
      exact Option.some.inj this
    subst hr
    rw [g4] at h
    simp only [ok_bind] at h
    obtain ⟨auth, _, h6⟩ := bind_ok_iff.mp h
    obtain ⟨_, ha⟩ := hw.others g1
    refine ⟨r, before, after, g1, g2, g3, g2 ▸ ha, ⟨h1, h2⟩, h3, h4, ?_, ?_⟩
    · exact (congrArg (fun x => x.2.actsOff) (Except.ok.inj h6)).symm
    · exact (congrArg (fun x => x.2.numActions) (Except.ok.inj h6)).symm
  · rw [g2] at h
    simp at h

/-- One action of one role gets another payload. -/
def Wallet.setAct (w : Wallet) (id : Nat) (ab : List Act) (a : Act) (aa : List Act) (d : Bytes) : Wallet :=
  w.setActions id (ab ++ { a with data := d } :: aa)

theorem v2Key_none {a : Act} (h : a.ty < 22) : a.v2Key = none := by
  unfold Act.v2Key
  rw [if_neg (by omega), if_neg (by omega)]

theorem Wallet.setAct_wf {w : Wallet} (hw : w.WF) {id : Nat} {r : Role} {ab aa : List Act} {a : Act} {d : Bytes}
    (hr : w.role? id = some r) (ha : r.actions = ab ++ a :: aa) (hd : d.length = a.data.length) (hty : a.ty < 22) :
    (w.setAct id ab a aa d).WF := by
  have hm := role?_mem hr
  have hrw := hw.roles r hm.1
  have hsz : actsSize (ab ++ ({ a with data := d } : Act) :: aa) = actsSize r.actions := by
    simp [ha, actsSize_append, Act.size, hd]
  refine Wallet.setActions_wf hw ?_ ?_ ?_ ?_ ?_
  · intro x hx
    simp only [List.mem_append, List.mem_cons] at hx
    rcases hx with hx | rfl | hx
    · exact hrw.acts x (by simp [ha, hx])
    · show actionLen a.ty = some d.length
      rw [hd]; exact hrw.acts a (by simp [ha])
    · exact hrw.acts x (by simp [ha, hx])
  · simp; omega
  · have := hrw.atMost
    rw [ha] at this
    simpa using this
  · have := hrw.v2
    rw [ha] at this
    unfold NoV2Dup at this ⊢
    have h1 : ({ a with data := d } : Act).v2Key = none := v2Key_none hty
    have h2 : a.v2Key = none := v2Key_none hty
    simpa [List.filterMap_append, List.filterMap_cons, h1, h2] using this
  · have h1 := setActions_size hw hr (as := ab ++ ({ a with data := d } : Act) :: aa)
    have := hw.size
    omega

theorem Wallet.setActions_header (w : Wallet) (id : Nat) (as : List Act) : (w.setActions id as).header = w.header := by
  simp [Wallet.setActions, Wallet.mapRole, Wallet.header]

/-- Writing through the pointer to an action of a role of the wallet. -/
theorem putAct_enc {w : Wallet} (hw : w.WF) {id : Nat} {r : Role} {before after : List Role} {ab aa : List Act} {a : Act} {i : Nat}
    {b : Bytes} {v : RoleView} (g1 : w.roles = before ++ r :: after) (g2 : r.id = id)
    (hv : v.actsOff = rolesSize before + 16 + r.auth.length) (ha : r.actions = ab ++ a :: aa)
    (hb : i + b.length ≤ a.data.length) :
    putAct w.parts v (actsSize ab + 8 + i) b = (w.setAct id ab a aa (put a.data i b)).parts := by
  obtain ⟨h1, h2⟩ := hw.others g1
  have es : (w.setAct id ab a aa (put a.data i b)).roles = _ := mapRole_split id _ g1 g2 (g2 ▸ h1) (g2 ▸ h2)
  unfold putAct Wallet.parts
  rw [es, hv]
  have := put_encRoles_act before after r ab aa a i b ha hb
  rw [← g1] at this
  rw [this]
  congr 1
  exact (Wallet.setActions_header w id _).symm

/-- The used wallet seen as a split. -/
theorem Wallet.used_split {w : Wallet} {before after : List Role} {r : Role} {id : Nat}
    (g1 : w.roles = before ++ r :: after) (g2 : r.id = id) (g3 : ∀ x ∈ before, x.id ≠ id) (g4 : ∀ x ∈ after, x.id ≠ id) :
    (w.used id).roles = before ++ { r with auth := usedCred r.authType r.auth } :: after := mapRole_split id _ g1 g2 g3 g4

/-- Looking up a V1 sub-account without an address finds the first one not created yet. -/
theorem matchSub_nil (a : Act) : matchData P.subAccount a.data [] = matchData P.subAccount a.data (zeros 32) := by
  have h1 : matchData P.subAccount a.data [] = .ok (sl a.data 0 32 == zeros 32) := rfl
  have h2 : matchData P.subAccount a.data (zeros 32) = .ok (sl a.data 0 32 == zeros 32) := rfl
  rw [h1, h2]

theorem getActionGo_congr {ty : Nat} {k1 k2 acts : Bytes} (h : ∀ d, matchData ty d k1 = matchData ty d k2) :
    ∀ (fuel c : Nat), getActionGo ty k1 acts fuel c = getActionGo ty k2 acts fuel c := by
  intro fuel
  induction fuel with
  | zero => intro c; rfl
  | succ n ih =>
    intro c
    simp only [getActionGo, h, ih]

theorem getSub_nil (acts : Bytes) : getActionMut P.subAccount [] acts = getActionMut P.subAccount (zeros 32) acts :=
  getActionGo_congr (fun d => matchSub_nil ⟨0, d⟩) _ _

end Verif
