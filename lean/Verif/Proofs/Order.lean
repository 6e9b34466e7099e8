import Verif.Spec.Order
import Verif.Proofs.History
import Verif.Proofs.ClientBuild

/-! The edits a management request makes to the wallet, and which of them commute. -/

namespace Verif

/-- One edit of a wallet. -/
inductive Edit where
  | use (id : Nat)
  | map (id : Nat) (f : Role → Role)
  | remove (id : Nat)
  | add (ty : Nat) (auth : Bytes) (as : List Act)
  | claim (k : Key)
  | bump (b : UInt8)

def Edit.apply (w : Wallet) : Edit → Wallet
  | .use id => w.used id
  | .map id f => w.mapRole id f
  | .remove id => w.removeRole id
  | .add ty auth as => w.addRole ty auth as
  | .claim k => w.setClaimer k
  | .bump b => w.migrated b

def applyAll (es : List Edit) (w : Wallet) : Wallet := es.foldl Edit.apply w

/-- The edits of an accepted request. -/
inductive Edits (q : Request) (w : Wallet) : List Edit → Prop
  | add {a : AddIx} {cred : Auth} {as : List Act} : rd q.2 0 2 = 1 → parseAdd q.2 = .ok a → initialAuth a.newType a.authData = some cred →
      Submits a.actions as → Edits q w [.use a.acting, .add a.newType cred.encode as]
  | remove {a : RemoveIx} : rd q.2 0 2 = 2 → parseRemove q.2 = .ok a → Edits q w [.use a.acting, .remove a.target]
  | update {a : UpdateIx} {t : Role} {as : List Act} : rd q.2 0 2 = 3 → parseUpdate q.2 = .ok a → w.role? a.target = some t →
      a.op.Result t.actions as → Edits q w [.use a.acting, .map a.target fun r => { r with actions := as }]
  | session {a : SessionIx} {r : Role} {auth : Auth} {s : Session} : rd q.2 0 2 = 5 → parseSession q.2 = .ok a → w.role? a.role = some r →
      auth.WF → auth.ty = r.authType → auth.encode = r.auth → auth.session = some s →
      Edits q w [.map a.role fun r => { r with auth := (⟨auth.cred.used, some ⟨a.key, s.max, (q.1 + a.duration) % 2 ^ 64⟩⟩ : Auth).encode }]
  | migrate {a : RoleIx} : rd q.2 0 2 = 12 → parseRoleIx q.2 E.invalidSwigCreateInstructionDataTooShort = .ok a →
      Edits q w [.use a.role, .bump (q.2.getD 2 0)]
  | replace {a : ReplaceIx} {t : Role} {auth : Auth} {key : Bytes} : rd q.2 0 2 = 16 → parseReplace q.2 = .ok a →
      w.role? a.target = some t → auth.WF → auth.ty = t.authType → auth.encode = t.auth → auth.cred.newKey a.newAuth = some key →
      Edits q w [.use a.acting, .map a.target fun r => { r with auth := (auth.withKey key).encode }]
  | claim {a : ClaimerIx} : rd q.2 0 2 = 17 → parseClaimer q.2 = .ok a → Edits q w [.use a.role, .claim a.claimer]

/-- Where an edit comes from. -/
def From (q : Request) : Edit → Prop
  | .use id => id = actingRole q.2
  | .map id f => changedRole q.2 = some id ∧ ∀ r, (f r).id = r.id
  | .remove id => changedRole q.2 = some id
  | .add .. => rd q.2 0 2 = 1
  | .claim _ => rd q.2 0 2 = 17
  | .bump _ => rd q.2 0 2 = 12

theorem Edits.src {q : Request} {w : Wallet} {es : List Edit} (h : Edits q w es) : ∀ e ∈ es, From q e := by
  cases h with
  | add h hp => simp [From, parseAdd_acting hp, actingRole, h]
  | remove h hp => simp [From, (parseRemove_roles hp).1, (parseRemove_roles hp).2, actingRole, changedRole, h]
  | update h hp => simp [From, (parseUpdate_roles hp).1, (parseUpdate_roles hp).2, actingRole, changedRole, h]
  | session h hp => simp [From, parseSession_role hp, changedRole, h]
  | migrate h hp => simp [From, parseRoleIx_role hp, actingRole, h]
  | replace h hp => simp [From, (parseReplace_roles hp).1, (parseReplace_roles hp).2, actingRole, changedRole, h]
  | claim h hp => simp [From, parseClaimer_role hp, actingRole, h]

/-- The edits depend on the wallet only through the role changed. -/
theorem Edits.congr {q : Request} {w v : Wallet} {es : List Edit} (h : Edits q w es)
    (hr : ∀ t, changedRole q.2 = some t → v.role? t = w.role? t) : Edits q v es := by
  cases h with
  | add h1 h2 h3 h4 => exact .add h1 h2 h3 h4
  | remove h1 h2 => exact .remove h1 h2
  | update h1 h2 h3 h4 =>
    exact .update h1 h2 ((hr _ (by simp [changedRole, h1, (parseUpdate_roles h2).2])).trans h3) h4
  | session h1 h2 h3 h4 h5 h6 h7 =>
    exact .session h1 h2 ((hr _ (by simp [changedRole, h1, parseSession_role h2])).trans h3) h4 h5 h6 h7
  | migrate h1 h2 => exact .migrate h1 h2
  | replace h1 h2 h3 h4 h5 h6 h7 =>
    exact .replace h1 h2 ((hr _ (by simp [changedRole, h1, (parseReplace_roles h2).2])).trans h3) h4 h5 h6 h7
  | claim h1 h2 => exact .claim h1 h2

theorem UpdateOp.Result.unique {op : UpdateOp} {old as bs : List Act} (h1 : op.Result old as) (h2 : op.Result old bs) : as = bs := by
  revert h1 h2
  cases op with
  | replaceAll x => intro a1 a2; exact Submits.inj a1 a2
  | add x =>
    rintro ⟨x1, a1, rfl⟩ ⟨x2, a2, rfl⟩
    rw [Submits.inj a1 a2]
  | removeTypes x => intro a1 a2; exact Eq.trans a1 (Eq.symm a2)
  | removeIndices x => intro a1 a2; exact Eq.trans a1 (Eq.symm a2)

theorem Edits.unique {q : Request} {w : Wallet} {es es' : List Edit} (h : Edits q w es) (h' : Edits q w es') : es = es' := by
  cases h with
  | add h1 h2 h3 h4 =>
    cases h' with
    | add k1 k2 k3 k4 =>
      cases h2.symm.trans k2
      cases h3.symm.trans k3
      cases Submits.inj h4 k4
      rfl
    | _ => omega
  | remove h1 h2 =>
    cases h' with
    | remove k1 k2 => cases h2.symm.trans k2; rfl
    | _ => omega
  | update h1 h2 h3 h4 =>
    cases h' with
    | update k1 k2 k3 k4 =>
      cases h2.symm.trans k2
      cases h3.symm.trans k3
      cases h4.unique k4
      rfl
    | _ => omega
  | session h1 h2 h3 h4 h5 h6 h7 =>
    cases h' with
    | session k1 k2 k3 k4 k5 k6 k7 =>
      cases h2.symm.trans k2
      cases h3.symm.trans k3
      cases Auth.encode_inj h4 k4 (h5.trans k5.symm) (h6.trans k6.symm)
      cases h7.symm.trans k7
      rfl
    | _ => omega
  | migrate h1 h2 =>
    cases h' with
    | migrate k1 k2 => cases h2.symm.trans k2; rfl
    | _ => omega
  | replace h1 h2 h3 h4 h5 h6 h7 =>
    cases h' with
    | replace k1 k2 k3 k4 k5 k6 k7 =>
      cases h2.symm.trans k2
      cases h3.symm.trans k3
      cases Auth.encode_inj h4 k4 (h5.trans k5.symm) (h6.trans k6.symm)
      cases h7.symm.trans k7
      rfl
    | _ => omega
  | claim h1 h2 =>
    cases h' with
    | claim k1 k2 => cases h2.symm.trans k2; rfl
    | _ => omega

/-! An accepted management request makes its edits. -/

theorem process_edits {env : Env} {cpi : Cpi} {m m' : Mem} {swig : Meta} {rest0 : List Meta} {ix : Bytes} {w : Wallet} (hw : w.WF)
    (hd : (m swig.key).data = w.encode) (hcount : w.roles.length + 1 < 2 ^ 16) (hctr : w.roleCounter + 1 < 2 ^ 32) (hm : Manages ix)
    (e : process env cpi m (swig :: rest0) ix = .ok m') :
    ∃ es, Edits (env.slot, ix) w es ∧ (m' swig.key).data = (applyAll es w).encode ∧ (applyAll es w).WF := by
  simp only [Manages, List.mem_cons, List.not_mem_nil, or_false] at hm
  unfold process at e
  obtain ⟨_, _, e1⟩ := bind_ok_iff.mp e
  clear e
  obtain ⟨cls, _, e⟩ := bind_ok_iff.mp e1
  clear e1
  unfold dispatch at e
  split at e
  · cases e
  split at e
  · rename_i hix
    match rest0, e with
    | payer :: sys :: rest, e =>
      obtain ⟨a, _, cred, as, hp, _, _, g1, g2, _, _, _, _, h1, h2, h3⟩ := addAuthorityV1_enc hw hd hcount hctr e
      exact ⟨_, .add hix hp g1 g2, h1, h2⟩
    | [_], e => cases e
    | [], e => cases e
  · rename_i hix
    match rest0, e with
    | payer :: sys :: rest, e =>
      obtain ⟨a, _, _, hp, h0, _, _, _, h1, h2, h3, _⟩ := removeAuthorityV1_enc hw hd e
      exact ⟨_, .remove hix hp, h1, h2⟩
    | [_], e => cases e
    | [], e => cases e
  · rename_i hix
    match rest0, e with
    | payer :: sys :: rest, e =>
      obtain ⟨a, _, _, as, hp, _, _, g1, g2, _, _, _, _, h1, h2, h3⟩ := updateAuthorityV1_enc hw hd e
      exact ⟨_, .update hix hp g1 g2, h1, h2⟩
    | [_], e => cases e
    | [], e => cases e
  · cases e
  · rename_i hix
    match rest0, e with
    | payer :: sys :: rest, e =>
      obtain ⟨a, r, auth, s, hp, g1, g2, g3, g4, g5, _, _, h1, h2, h3⟩ := createSessionV1_enc hw hd e
      exact ⟨_, .session hix hp g1 g2 g3 g4 g5, h1, h2⟩
    | [_], e => cases e
    | [], e => cases e
  all_goals try (rename_i hix; omega)
  · rename_i hix
    match rest0, e with
    | auth :: payer :: wallet :: sys :: rest, e =>
      obtain ⟨a, r, hp, _, _, _, h1, h3⟩ := migrateV1_enc hw hd e
      exact ⟨_, .migrate hix hp, h1, Wallet.migrated_wf (Wallet.used_wf hw _) _⟩
    | [_, _, _], e => cases e
    | [_, _], e => cases e
    | [_], e => cases e
    | [], e => cases e
  · rename_i hix
    obtain ⟨a, r, t, auth, key, hp, _, _, g1, g2, g3, g4, g5, _, _, h1, h2, _⟩ := replaceAuthorityV1_enc hw hd e
    exact ⟨_, .replace hix hp g1 g2 g3 g4 g5, h1, h2⟩
  · rename_i hix
    match rest0, e with
    | payer :: sys :: rest, e =>
      obtain ⟨a, r, wallet, hp, _, _, _, _, _, _, _, h1, h2, _⟩ := setRentClaimerV1_enc hw hd e
      exact ⟨_, .claim hix hp, h1, h2⟩
    | [_], e => cases e
    | [], e => cases e
  · exfalso
    rcases hm with h | h | h | h | h | h | h <;> contradiction

/-! Commutation. -/

theorem mapRole_comm (w : Wallet) (i j : Nat) (f g : Role → Role) (hf : ∀ r, (f r).id = r.id) (hg : ∀ r, (g r).id = r.id)
    (h : i ≠ j) : (w.mapRole i f).mapRole j g = (w.mapRole j g).mapRole i f := by
  unfold Wallet.mapRole
  simp only [List.map_map, Wallet.mk.injEq, true_and, and_true]
  refine List.map_congr_left fun r _ => ?_
  simp only [Function.comp_apply]
  by_cases h1 : r.id = i
  · have h2 : r.id ≠ j := fun c => h (h1.symm.trans c)
    rw [if_pos h1, if_neg h2, if_neg (by rw [hf]; exact h2), if_pos h1]
  · rw [if_neg h1]
    by_cases h2 : r.id = j
    · rw [if_pos h2, if_neg (by rw [hg]; exact h1)]
    · rw [if_neg h2, if_neg h1]

theorem mapRole_remove (w : Wallet) (i j : Nat) (f : Role → Role) (hf : ∀ r, (f r).id = r.id) :
    (w.mapRole i f).removeRole j = (w.removeRole j).mapRole i f := by
  unfold Wallet.mapRole Wallet.removeRole
  simp only [Wallet.mk.injEq, true_and, and_true, List.filter_map]
  congr 1
  refine List.filter_congr fun r _ => ?_
  simp only [Function.comp_apply]
  by_cases h1 : r.id = i
  · rw [if_pos h1, hf]
  · rw [if_neg h1]

theorem mapRole_add (w : Wallet) (i : Nat) (f : Role → Role) (hi : i < w.roleCounter) (ty : Nat) (auth : Bytes) (as : List Act) :
    (w.mapRole i f).addRole ty auth as = (w.addRole ty auth as).mapRole i f := by
  unfold Wallet.mapRole Wallet.addRole
  simp only [List.map_append, List.map_cons, List.map_nil]
  rw [if_neg (by omega)]

theorem remove_add (w : Wallet) (i : Nat) (hi : i < w.roleCounter) (ty : Nat) (auth : Bytes) (as : List Act) :
    (w.removeRole i).addRole ty auth as = (w.addRole ty auth as).removeRole i := by
  unfold Wallet.removeRole Wallet.addRole
  simp only [List.filter_append, Wallet.mk.injEq, true_and, and_true]
  congr 1
  rw [List.filter_cons_of_pos (by simp; omega)]
  rfl

theorem remove_comm (w : Wallet) (i j : Nat) : (w.removeRole i).removeRole j = (w.removeRole j).removeRole i := by
  unfold Wallet.removeRole
  simp only [Wallet.mk.injEq, true_and, and_true, List.filter_filter]
  refine List.filter_congr fun r _ => ?_
  exact Bool.and_comm _ _

theorem used_comm (w : Wallet) (i j : Nat) : (w.used i).used j = (w.used j).used i := by
  by_cases h : i = j
  · rw [h]
  · exact mapRole_comm w i j _ _ (fun _ => rfl) (fun _ => rfl) h

/-- Edits of independent requests commute. -/
theorem Edit.comm {p q : Request} {d e : Edit} {w : Wallet} (hi : Independent p.2 q.2) (hp : Existed w.roleCounter p.2)
    (hq : Existed w.roleCounter q.2) (hd : From p d) (he : From q e) : (d.apply w |> fun v => e.apply v) = (e.apply w |> fun v => d.apply v) := by
  dsimp only
  cases d with
  | use i =>
    cases e with
    | use j => exact used_comm w i j
    | map j f => exact mapRole_comm w i j _ _ (fun _ => rfl) he.2 fun c => (hi.right _ he.1).2 (c ▸ hd.symm)
    | remove j => exact mapRole_remove w i j _ (fun _ => rfl)
    | add ty auth as => exact mapRole_add w i _ (by rw [show i = _ from hd]; exact hp.1) ty auth as
    | claim k => rfl
    | bump b => rfl
  | map i f =>
    cases e with
    | use j => exact mapRole_comm w i j _ _ hd.2 (fun _ => rfl) fun c => (hi.left _ hd.1).2 (c ▸ he.symm)
    | map j g => exact mapRole_comm w i j _ _ hd.2 he.2 fun c => (hi.left _ hd.1).1 (c ▸ he.1)
    | remove j => exact mapRole_remove w i j _ hd.2
    | add ty auth as => exact mapRole_add w i _ (hp.2 _ hd.1) ty auth as
    | claim k => rfl
    | bump b => rfl
  | remove i =>
    cases e with
    | use j => exact (mapRole_remove w j i (fun r => { r with auth := usedCred r.authType r.auth }) (fun _ => rfl)).symm
    | map j g => exact (mapRole_remove w j i _ he.2).symm
    | remove j => exact remove_comm w i j
    | add ty auth as => exact remove_add w i (hp.2 _ hd) ty auth as
    | claim k => rfl
    | bump b => rfl
  | add ty auth as =>
    cases e with
    | use j => exact (mapRole_add w j _ (by rw [show j = _ from he]; exact hq.1) ty auth as).symm
    | map j g => exact (mapRole_add w j _ (hq.2 _ he.1) ty auth as).symm
    | remove j => exact (remove_add w j (hq.2 _ he) ty auth as).symm
    | add ty auth as => exact absurd ⟨hd.trans he.symm, by simp [show rd p.2 0 2 = 1 from hd]⟩ hi.single
    | claim k => rfl
    | bump b => rfl
  | claim k =>
    cases e with
    | claim k' => exact absurd ⟨hd.trans he.symm, by simp [show rd p.2 0 2 = 17 from hd]⟩ hi.single
    | _ => rfl
  | bump b =>
    cases e with
    | bump b' => exact absurd ⟨hd.trans he.symm, by simp [show rd p.2 0 2 = 12 from hd]⟩ hi.single
    | _ => rfl

theorem Edit.counter (e : Edit) (w : Wallet) : w.roleCounter ≤ (e.apply w).roleCounter ∧ (e.apply w).roleCounter ≤ w.roleCounter + 1 ∧
    (e.apply w).roles.length ≤ w.roles.length + 1 := by
  cases e with
  | add => exact ⟨Nat.le_succ _, Nat.le_refl _, by simp [Edit.apply, Wallet.addRole]⟩
  | remove => exact ⟨Nat.le_refl _, Nat.le_succ _, Nat.le_succ_of_le (List.length_filter_le _ _)⟩
  | use => exact ⟨Nat.le_refl _, Nat.le_succ _, by simp [Edit.apply, Wallet.used, Wallet.mapRole]⟩
  | map => exact ⟨Nat.le_refl _, Nat.le_succ _, by simp [Edit.apply, Wallet.mapRole]⟩
  | _ => exact ⟨Nat.le_refl _, Nat.le_succ _, Nat.le_succ _⟩

theorem counter_applyAll (es : List Edit) (w : Wallet) : w.roleCounter ≤ (applyAll es w).roleCounter := by
  induction es generalizing w with
  | nil => exact Nat.le_refl _
  | cons e es ih => exact Nat.le_trans (e.counter w).1 (ih _)

theorem Edits.grows {q : Request} {w v : Wallet} {es : List Edit} (h : Edits q v es) :
    (applyAll es w).roleCounter ≤ w.roleCounter + 1 ∧ (applyAll es w).roles.length ≤ w.roles.length + 1 := by
  have hu : ∀ i, (w.used i).roleCounter = w.roleCounter ∧ (w.used i).roles.length = w.roles.length :=
    fun i => ⟨rfl, by simp [Wallet.used, Wallet.mapRole]⟩
  have key : ∀ i e, (applyAll [.use i, e] w).roleCounter ≤ w.roleCounter + 1 ∧ (applyAll [.use i, e] w).roles.length ≤ w.roles.length + 1 := by
    intro i e
    have h1 := e.counter (w.used i)
    rw [(hu i).1, (hu i).2] at h1
    exact h1.2
  cases h with
  | @session a r auth s =>
    exact (Edit.counter (.map a.role fun r =>
      { r with auth := (⟨auth.cred.used, some ⟨a.key, s.max, (q.1 + a.duration) % 2 ^ 64⟩⟩ : Auth).encode }) w).2
  | _ => exact key _ _

theorem Existed.mono {n n' : Nat} {ix : Bytes} (h : Existed n ix) (hn : n ≤ n') : Existed n' ix :=
  ⟨Nat.lt_of_lt_of_le h.1 hn, fun t ht => Nat.lt_of_lt_of_le (h.2 t ht) hn⟩

theorem comm_one {p q : Request} {d : Edit} {es : List Edit} {w : Wallet} (hi : Independent p.2 q.2) (hp : Existed w.roleCounter p.2)
    (hq : Existed w.roleCounter q.2) (hd : From p d) (he : ∀ e ∈ es, From q e) :
    applyAll es (d.apply w) = d.apply (applyAll es w) := by
  induction es generalizing w with
  | nil => rfl
  | cons e es ih =>
    have h := Edit.comm hi hp hq hd (he e (by simp))
    dsimp only at h
    have hc := (e.counter w).1
    show applyAll es (e.apply (d.apply w)) = d.apply (applyAll es (e.apply w))
    rw [h, ih (hp.mono hc) (hq.mono hc) fun x hx => he x (by simp [hx])]

theorem comm_all {p q : Request} {ds es : List Edit} {w : Wallet} (hi : Independent p.2 q.2) (hp : Existed w.roleCounter p.2)
    (hq : Existed w.roleCounter q.2) (hd : ∀ d ∈ ds, From p d) (he : ∀ e ∈ es, From q e) :
    applyAll es (applyAll ds w) = applyAll ds (applyAll es w) := by
  induction ds generalizing w with
  | nil => rfl
  | cons d ds ih =>
    have hc := (d.counter w).1
    show applyAll es (applyAll ds (d.apply w)) = applyAll ds (d.apply (applyAll es w))
    rw [ih (hp.mono hc) (hq.mono hc) fun x hx => hd x (by simp [hx]), comm_one hi hp hq (hd d (by simp)) he]

/-- An edit leaves the roles it is not about. -/
theorem Edit.role? {p : Request} {e : Edit} {w : Wallet} {t : Nat} (he : From p e) (h1 : changedRole p.2 ≠ some t)
    (h2 : actingRole p.2 ≠ t) (ht : t < w.roleCounter) : (e.apply w).role? t = w.role? t := by
  have hmap : ∀ (i : Nat) (f : Role → Role), (∀ r, (f r).id = r.id) → i ≠ t → (w.mapRole i f).role? t = w.role? t := by
    intro i f hf hit
    unfold Wallet.role? Wallet.mapRole
    dsimp only
    induction w.roles with
    | nil => rfl
    | cons r l ih =>
      simp only [List.map_cons, List.find?_cons]
      by_cases hr : r.id = i
      · have hrt : r.id ≠ t := fun c => hit (hr.symm.trans c)
        rw [if_pos hr, hf]
        simp only [decide_eq_false hrt]
        exact ih
      · rw [if_neg hr, ih]
  cases e with
  | use i => exact hmap i _ (fun _ => rfl) (by rw [show i = _ from he]; exact h2)
  | map i f => exact hmap i f he.2 fun c => h1 (c ▸ he.1)
  | remove i =>
    have hit : i ≠ t := fun c => h1 (c ▸ he)
    show (w.removeRole i).role? t = _
    unfold Wallet.role? Wallet.removeRole
    dsimp only
    induction w.roles with
    | nil => rfl
    | cons r l ih =>
      by_cases hr : r.id = i
      · have hrt : r.id ≠ t := fun c => hit (hr.symm.trans c)
        rw [List.filter_cons_of_neg (by simp [hr]), ih, List.find?_cons]
        simp only [decide_eq_false hrt]
      · rw [List.filter_cons_of_pos (by simp [hr]), List.find?_cons, List.find?_cons, ih]
  | add ty auth as =>
    show (w.addRole ty auth as).role? t = _
    unfold Wallet.role? Wallet.addRole
    dsimp only
    rw [List.find?_append, List.find?_cons]
    have hne : w.roleCounter ≠ t := by omega
    simp only [decide_eq_false hne, List.find?_nil, Option.or_none]
  | claim => rfl
  | bump => rfl

theorem role?_applyAll {p : Request} {es : List Edit} {w : Wallet} {t : Nat} (he : ∀ e ∈ es, From p e) (h1 : changedRole p.2 ≠ some t)
    (h2 : actingRole p.2 ≠ t) (ht : t < w.roleCounter) : (applyAll es w).role? t = w.role? t := by
  induction es generalizing w with
  | nil => rfl
  | cons e es ih =>
    show (applyAll es (e.apply w)).role? t = _
    rw [ih (fun x hx => he x (by simp [hx])) (Nat.lt_of_lt_of_le ht (e.counter w).1), Edit.role? (he e (by simp)) h1 h2 ht]

/-! Lists of requests. -/

def applyEach (F : Request → List Edit) (l : List Request) (w : Wallet) : Wallet := l.foldl (fun w q => applyAll (F q) w) w

theorem runs_edits {k : Key} {n : Nat} (F : Request → List Edit) {l : List Request} {m m' : Mem} (h : Handled k m l m') :
    ∀ {w : Wallet}, w.WF → (m k).data = w.encode → w.roles.length + l.length < 2 ^ 16 → w.roleCounter + l.length < 2 ^ 32 →
    n ≤ w.roleCounter → (∀ q ∈ l, Manages q.2 ∧ Existed n q.2) → l.Pairwise (fun p q => Independent p.2 q.2) →
    (∀ q ∈ l, ∀ es, Edits q w es → es = F q) → (m' k).data = (applyEach F l w).encode ∧ (applyEach F l w).WF := by
  induction h with
  | nil e => intro w hw hd _ _ _ _ _ _; exact ⟨e.trans hd, hw⟩
  | @cons m m0 m1 m' env cpi swig rest ix l e hk hp _ ih =>
    subst hk
    intro w hw hd hc1 hc2 hn hq hpw hF
    simp only [List.length_cons] at hc1 hc2
    obtain ⟨es, he, h1, h2⟩ := process_edits hw (e.trans hd) (by omega) (by omega) (hq (env.slot, ix) (by simp)).1 hp
    have hes := hF (env.slot, ix) (by simp) es he
    have hg := he.grows (w := w)
    obtain ⟨hp1, hp2⟩ := List.pairwise_cons.mp hpw
    have := ih (w := applyAll es w) h2 h1 (by omega) (by omega) (Nat.le_trans hn (counter_applyAll es w))
      (fun q hm => hq q (by simp [hm])) hp2 (by
        intro q hm es' he'
        refine hF q (by simp [hm]) es' (he'.congr fun t ht => ?_)
        have hi := (hp1 q hm).right t ht
        exact (role?_applyAll he.src hi.1 hi.2 (Nat.lt_of_lt_of_le ((hq q (by simp [hm])).2.2 t ht) hn)).symm)
    show _ = (applyEach F l (applyAll (F (env.slot, ix)) w)).encode ∧ (applyEach F l (applyAll (F (env.slot, ix)) w)).WF
    rw [← hes]
    exact this

theorem Independent.symm {x y : Bytes} (h : Independent x y) : Independent y x :=
  ⟨h.right, h.left, fun ⟨c1, c2⟩ => h.single ⟨c1.symm, c1 ▸ c2⟩⟩

theorem applyEach_perm (F : Request → List Edit) (hF : ∀ q, ∀ e ∈ F q, From q e) {l l' : List Request} (h : l.Perm l') :
    ∀ {w : Wallet}, (∀ q ∈ l, Existed w.roleCounter q.2) → l.Pairwise (fun p q => Independent p.2 q.2) →
    applyEach F l w = applyEach F l' w := by
  induction h with
  | nil => intro w _ _; rfl
  | @cons q l l' _ ih =>
    intro w hq hpw
    show applyEach F l (applyAll (F q) w) = applyEach F l' (applyAll (F q) w)
    exact ih (fun x hx => (hq x (by simp [hx])).mono (counter_applyAll _ _)) (List.pairwise_cons.mp hpw).2
  | swap x y l =>
    intro w hq hpw
    show applyEach F l (applyAll (F x) (applyAll (F y) w)) = applyEach F l (applyAll (F y) (applyAll (F x) w))
    have hi := (List.pairwise_cons.mp hpw).1 x (by simp)
    rw [comm_all hi (hq y (by simp)) (hq x (by simp)) (hF y) (hF x)]
  | @trans l1 l2 l3 p1 _ ih1 ih2 =>
    intro w hq hpw
    rw [ih1 hq hpw]
    exact ih2 (fun x hx => hq x (p1.mem_iff.mpr hx)) ((p1.pairwise_iff fun h => Independent.symm h).mp hpw)

theorem runs_perm {k : Key} {a b a' b' : Mem} {w : Wallet} {l l' : List Request} (hp : l.Perm l') (hw : w.WF)
    (ha : (a k).data = w.encode) (hb : (b k).data = w.encode) (hc1 : w.roles.length + l.length < 2 ^ 16)
    (hc2 : w.roleCounter + l.length < 2 ^ 32) (hq : ∀ q ∈ l, Manages q.2 ∧ Existed w.roleCounter q.2)
    (hpw : l.Pairwise (fun p q => Independent p.2 q.2)) (h : Handled k a l a') (h' : Handled k b l' b') :
    (a' k).data = (b' k).data := by
  classical
  let F : Request → List Edit := fun q => if h : ∃ es, Edits q w es then h.choose else []
  have hF : ∀ q es, Edits q w es → es = F q := by
    intro q es he
    have hx : ∃ es, Edits q w es := ⟨es, he⟩
    simp only [F, dif_pos hx]
    exact he.unique hx.choose_spec
  have hS : ∀ q, ∀ e ∈ F q, From q e := by
    intro q
    by_cases hx : ∃ es, Edits q w es
    · simp only [F, dif_pos hx]
      exact hx.choose_spec.src
    · simp only [F, dif_neg hx]
      exact fun e he => absurd he (by simp)
  have h1 := runs_edits F h hw ha hc1 hc2 (Nat.le_refl _) hq hpw fun q _ es => hF q es
  have h2 := runs_edits F h' hw hb (by rw [← hp.length_eq]; exact hc1) (by rw [← hp.length_eq]; exact hc2) (Nat.le_refl _)
    (fun q hm => hq q (hp.mem_iff.mpr hm)) ((hp.pairwise_iff fun h => Independent.symm h).mp hpw) fun q _ es => hF q es
  rw [h1.1, h2.1, applyEach_perm F hS hp (fun q hm => (hq q hm).2) hpw]

/-- What a list of requests leaves of the wallet: the roles none of them is about. -/
theorem runs_role {k : Key} {l : List Request} {m m' : Mem} (h : Handled k m l m') :
    ∀ {w : Wallet}, w.WF → (m k).data = w.encode → w.roles.length + l.length < 2 ^ 16 → w.roleCounter + l.length < 2 ^ 32 →
    (∀ q ∈ l, Manages q.2) → ∃ v : Wallet, v.WF ∧ (m' k).data = v.encode ∧
      ∀ t, t < w.roleCounter → (∀ q ∈ l, changedRole q.2 ≠ some t ∧ actingRole q.2 ≠ t) → v.role? t = w.role? t := by
  induction h with
  | nil e => intro w hw hd _ _ _; exact ⟨w, hw, e.trans hd, fun _ _ _ => rfl⟩
  | @cons m m0 m1 m' env cpi swig rest ix l e hk hp _ ih =>
    subst hk
    intro w hw hd hc1 hc2 hq
    simp only [List.length_cons] at hc1 hc2
    obtain ⟨es, he, h1, h2⟩ := process_edits hw (e.trans hd) (by omega) (by omega) (hq (env.slot, ix) (by simp)) hp
    have hg := he.grows (w := w)
    obtain ⟨v, g1, g2, g3⟩ := ih (w := applyAll es w) h2 h1 (by omega) (by omega) fun q hm => hq q (by simp [hm])
    refine ⟨v, g1, g2, fun t ht hn => ?_⟩
    rw [g3 t (Nat.lt_of_lt_of_le ht (counter_applyAll es w)) fun q hm => hn q (by simp [hm])]
    have := hn (env.slot, ix) (by simp)
    exact role?_applyAll he.src this.1 this.2 ht

theorem role?_addRole {w : Wallet} (hw : w.WF) (ty : Nat) (auth : Bytes) (as : List Act) :
    (w.addRole ty auth as).role? w.roleCounter = some ⟨ty, w.roleCounter, auth, as⟩ := by
  unfold Wallet.role? Wallet.addRole
  dsimp only
  have hn : w.roles.find? (fun r => r.id = w.roleCounter) = none := by
    rw [List.find?_eq_none]
    intro r hr
    have := hw.idsLt r hr
    simp only [decide_eq_true_eq]
    omega
  rw [List.find?_append, hn, List.find?_cons]
  simp

end Verif
