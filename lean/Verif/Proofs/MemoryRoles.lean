import Verif.Proofs.MemoryAuth
import Verif.Proofs.UpdateHandler
import Verif.Proofs.Sub

/-!
Lookups of roles and actions in a stored wallet stay inside it, and so do the handlers that only look up and change roles.
-/

namespace Verif

theorem getActionGo_safe (ty : Nat) (key : Bytes) : ∀ (as : List Act) (pre : Bytes) (fuel : Nat),
    (∀ a ∈ as, a.WF) → pre.length + actsSize as < 2 ^ 32 →
    Safe (getActionGo ty key (pre ++ encActs pre.length as) fuel pre.length) := by
  intro as
  induction as with
  | nil =>
    intro pre fuel _ _
    cases fuel <;> simp [getActionGo, encActs] <;> exact .ok _
  | cons a as ih =>
    intro pre fuel hwf hsz
    have ha := hwf a (by simp)
    have hb := ha.bounds
    simp only [actsSize_cons] at hsz
    obtain ⟨f1, f2, f3, f4⟩ := act_fields pre a as ha (by omega)
    have hlen : (pre ++ encActs pre.length (a :: as)).length = pre.length + (a.size + actsSize as) := by simp
    have hs : a.size = 8 + a.data.length := rfl
    cases fuel with
    | zero => unfold getActionGo; safe
    | succ fuel =>
      have hrec : Safe (getActionGo ty key (pre ++ encActs pre.length (a :: as)) fuel (pre.length + a.size)) := by
        have e : (pre ++ encAct (pre.length + a.size) a).length = pre.length + a.size := by simp
        have hstep : pre ++ encActs pre.length (a :: as) = (pre ++ encAct (pre.length + a.size) a) ++
            encActs (pre ++ encAct (pre.length + a.size) a).length as := by
          have := acts_step pre [] a as
          simpa using this
        have := ih (pre ++ encAct (pre.length + a.size) a) fuel (fun x hx => hwf x (by simp [hx])) (by simp; omega)
        rw [← hstep, e] at this
        exact this
      simp only [getActionGo, f1, f3, hlen]
      rw [if_pos (by omega), if_neg (by omega), permission_ok (by omega)]
      simp only [ok_bind]
      refine .ite (fun hty => ?_) fun _ => hrec
      have hal : (actionLen ty).getD 0 = a.data.length := by rw [← hty, ha]; rfl
      rw [hal, if_neg (by omega)]
      exact .ite (fun _ => .ok _) fun _ => .bind (by safe) fun _ _ => .ite (fun _ => .ok _) fun _ => hrec

/-- Stored actions. -/
structure GoodActs (b : Bytes) : Prop where
  acts : ∃ as : List Act, (∀ a ∈ as, a.WF) ∧ actsSize as < 2 ^ 32 ∧ b = encActs 0 as

section
variable {b : Bytes} (h : GoodActs b)
include h

theorem getActionMut_safe {ty : Nat} {key : Bytes} : Safe (getActionMut ty key b) := by
  obtain ⟨as, h1, h2, rfl⟩ := h.acts
  exact getActionGo_safe ty key as [] _ h1 (by simpa using h2)

theorem getAction_safe {ty : Nat} {key : Bytes} : Safe (getAction ty key b) := by
  unfold getAction
  exact .ite (fun _ => .error (by decide)) fun _ => .bind (getActionMut_safe h) fun _ _ => by safe

theorem hasAction_safe {ty : Nat} {key : Bytes} : Safe (hasAction ty key b) := .bind (getAction_safe h) fun _ _ => .ok _

theorem hasManage_safe : Safe (hasManage b) := .bind (hasAction_safe h) fun _ _ => .bind (hasAction_safe h) fun _ _ => .ok _

theorem hasClose_safe : Safe (hasClose b) :=
  .bind (hasAction_safe h) fun _ _ => .bind (hasAction_safe h) fun _ _ => .bind (hasAction_safe h) fun _ _ => .ok _

theorem mayReplace_safe {t : Nat} : Safe (mayReplace b t) :=
  .bind (hasAction_safe h) fun _ _ => .ite (fun _ => .ok _) fun _ =>
    .bind (hasAction_safe h) fun _ _ => .ite (fun _ => .ok _) fun _ => hasAction_safe h

end

theorem getMutRole_safe {w : Wallet} (hw : w.WF) {id : Nat} : Safe (getMutRole (encRoles 0 w.roles) id) := by
  rcases getMutRole_enc id w.roles hw.rolesOk with ⟨_, _, _, _, _, _, g⟩ | ⟨_, g⟩ <;> exact .of_ok g

theorem Wallet.WF.good {w : Wallet} (hw : w.WF) {r : Role} (hr : r ∈ w.roles) : GoodActs (encActs 0 r.actions) :=
  ⟨r.actions, (hw.roles r hr).acts, (hw.actsSize_lt hr).2, rfl⟩

/-- The role found in a stored wallet has stored actions. -/
theorem getMutRole_good {w : Wallet} (hw : w.WF) {id : Nat} {v : RoleView}
    (h : getMutRole (encRoles 0 w.roles) id = .ok (some v)) : GoodActs v.actions := by
  rcases getMutRole_enc id w.roles hw.rolesOk with ⟨r, before, after, g1, _, _, g⟩ | ⟨_, g⟩
  · rw [g] at h; cases h
    exact hw.good (r := r) (by rw [g1]; simp)
  · rw [g] at h; cases h

theorem findOffsets_safe {w : Wallet} (hw : w.WF) {id : Nat} :
    Safe (findOffsetsGo (encRoles 0 w.roles) id w.roles.length 0) := by
  by_cases hx : ∀ x ∈ w.roles, x.id ≠ id
  · have := findOffsetsGo_absent id w.roles [] hw.rolesOk hx
    simp only [List.nil_append, List.length_nil] at this
    rw [this]; exact .error (by decide)
  · rcases getMutRole_enc id w.roles hw.rolesOk with ⟨r, before, after, g1, g2, g3, g⟩ | ⟨g1, _⟩
    · have := findOffsetsGo_enc id r after g2 before [] (by have := hw.rolesOk; rw [g1] at this; exact this) g3
      rw [← g1] at this
      exact .of_ok this
    · exact absurd g1 hx

/-! ## Opening the account and acting -/

theorem openSwig_disc {d : Bytes} {p : Parts} (h : openSwig d = .ok p) : d.getD 0 0 = 1 := by
  unfold openSwig at h
  split at h
  · cases h
  · split at h
    · cases h
    · rename_i e; exact Decidable.of_not_not e

section
variable {env : Env} {m : Mem} {metas : List Meta} {k : Key} {p : Parts} {id : Nat} {pl dp : Bytes}

theorem Opened.parts (ho : Opened m k) (h : openSwig (m k).data = .ok p) :
    ∃ w : Wallet, w.WF ∧ (m k).data = w.encode ∧ w.Sane m ∧ p = w.parts := by
  obtain ⟨w, h1, h2, h3⟩ := ho.wallet (openSwig_disc h)
  rw [h2, openSwig_enc h1] at h
  cases h
  exact ⟨w, h1, h2, h3, rfl⟩

theorem actAs_safe (hx : TxData (m instructionsSysvarId).data) {w : Wallet} (hw : w.WF) :
    Safe (actAs env m metas w.parts id pl dp) := by
  unfold actAs
  refine .bind (getMutRole_safe hw) fun r _ => ?_
  split
  · exact .error (by decide)
  · exact .bind (authRole_safe hx) fun _ _ => .ok _

/-- Opening, then acting as a role. -/
theorem Opened.act (ho : Opened m k) (hx : TxData (m instructionsSysvarId).data) (h : openSwig (m k).data = .ok p) {α : Type}
    {f : Parts × RoleView → R α}
    (hf : ∀ (w : Wallet) (r : Role) (v : RoleView), w.WF → (m k).data = w.encode → w.Sane m → w.role? id = some r → GoodActs v.actions →
      v.actions = encActs 0 r.actions → actAs env m metas w.parts id pl dp = .ok ((w.used id).parts, v) →
      Safe (f ((w.used id).parts, v))) :
    Safe (actAs env m metas p id pl dp >>= f) := by
  obtain ⟨w, h1, h2, h3, rfl⟩ := ho.parts h
  refine .bind (actAs_safe hx h1) fun ⟨q, v⟩ hq => ?_
  obtain ⟨r, g1, _, g3, g4, _⟩ := actAs_enc h1 hq
  subst g3
  exact hf w r v h1 h2 h3 g1 (by rw [g4]; exact h1.good (role?_mem g1).1) g4 hq

end

theorem loadProof_safe {env : Env} {m : Mem} {a b : Meta} {metas : List Meta} {pl : Bytes}
    (hx : TxData (m instructionsSysvarId).data) : Safe (loadProof env m a b metas pl) := by
  obtain ⟨ixs, cur, hx, e⟩ := hx.tx
  unfold loadProof
  rw [e]
  refine .bind (by safe) fun x _ => ?_
  obtain ⟨x, _⟩ := x
  dsimp only
  refine .bind (by safe) fun _ _ => .bind (by safe) fun _ _ => .bind (by safe) fun _ _ => .bind (by safe) fun _ _ => ?_
  rw [sysCurrent_enc hx, ok_bind]
  refine .bind (by safe) fun _ hlt => ?_
  obtain ⟨o, p, n, h1, h2, h3, h4, h5, h6, h7⟩ := TxData.at hx (require_ok_iff.mp hlt)
  rw [h1, ok_bind, h3, ok_bind]
  dsimp only
  refine .bind h5 fun _ _ => .bind (by safe) fun _ _ => .bind ?_ fun _ _ => .bind (by safe) fun _ _ => .bind h6 fun _ _ =>
    .bind h7 fun _ _ => .bind (by safe) fun _ _ => .bind (by safe) fun _ _ => .ok _
  unfold sysDataAt at h3
  constructor
  intro h
  rw [h] at h3
  cases h3

theorem toggleRole_safe {env : Env} {m : Mem} {metas : List Meta} {k : Key} {p : Parts} {role auth : Nat} {pl dp : Bytes}
    (ho : Opened m k) (hx : TxData (m instructionsSysvarId).data) (hp : openSwig (m k).data = .ok p) :
    Safe (toggleRole env m metas p role auth pl dp) ∧
      ∀ q t, toggleRole env m metas p role auth pl dp = .ok (q, t) → GoodActs t.actions := by
  constructor
  · unfold toggleRole
    refine ho.act hx hp fun w r v hw hd hs hr hg hv hq => ?_
    exact .ite (fun _ => .bind (hasManage_safe hg) fun _ _ => .bind (by safe) fun _ _ =>
      .bind (getMutRole_safe (Wallet.used_wf hw _)) fun _ _ => by safe) fun _ => .ok _
  · intro q t ht
    unfold toggleRole at ht
    obtain ⟨w, h1, h2, h3, rfl⟩ := ho.parts hp
    obtain ⟨⟨q', v⟩, hq, ht⟩ := bind_ok_iff.mp ht
    obtain ⟨r, g1, _, g3, g4, _⟩ := actAs_enc h1 hq
    subst g3
    have hg : GoodActs v.actions := by rw [g4]; exact h1.good (role?_mem g1).1
    dsimp only at ht
    split at ht
    · obtain ⟨_, _, ht⟩ := bind_ok_iff.mp ht
      obtain ⟨_, _, ht⟩ := bind_ok_iff.mp ht
      obtain ⟨tt, k1, ht⟩ := bind_ok_iff.mp ht
      obtain ⟨t', k2, ht⟩ := bind_ok_iff.mp ht
      have k2 := orErr_ok k2
      subst k2
      cases ht
      exact getMutRole_good (Wallet.used_wf h1 _) k1
    · cases ht; exact hg

section
variable {env : Env} {m : Mem} {metas : List Meta} {ix : Bytes}
variable (hx : TxData (m instructionsSysvarId).data)
  (ho : ∀ a, metas.head? = some a → (m a.key).owner = swigId → Opened m a.key)
include hx ho

theorem addAuthorityV1_safe : Safe (addAuthorityV1 env m metas ix) := by
  unfold addAuthorityV1
  split
  · refine .bind (by safe) fun _ h1 => .bind (by safe) fun _ _ => .bind (by safe) fun a _ => .bind (by safe) fun ty _ =>
      .bind (by safe) fun p hp => .bind (by safe) fun tail _ => ?_
    refine (ho _ rfl (require_ok_iff.mp h1)).act hx hp fun w r v hw hd hs hr hg hv hq => ?_
    exact .bind (hasManage_safe hg) fun _ _ => by safe
  · safe

theorem removeAuthorityV1_safe : Safe (removeAuthorityV1 env m metas ix) := by
  unfold removeAuthorityV1
  split
  · refine .bind (by safe) fun _ h1 => .bind (by safe) fun _ _ => .bind (by safe) fun a _ => .bind (by safe) fun _ _ => ?_
    dsimp only
    refine .bind (by safe) fun p hp => .bind (by safe) fun tail _ => ?_
    refine (ho _ rfl (require_ok_iff.mp h1)).act hx hp fun w r v hw hd hs hr hg hv hq => ?_
    exact .bind (hasManage_safe hg) fun _ _ => .bind (by safe) fun _ _ =>
      .bind (getMutRole_safe (Wallet.used_wf hw _)) fun _ _ => by safe
  · safe

theorem updateAuthorityV1_safe : Safe (updateAuthorityV1 env m metas ix) := by
  unfold updateAuthorityV1
  split
  · refine .bind (by safe) fun _ h1 => .bind (by safe) fun _ _ => .bind (by safe) fun a _ => ?_
    refine .bind (by safe) fun p hp => .bind (by safe) fun tail _ => ?_
    refine (ho _ rfl (require_ok_iff.mp h1)).act hx hp fun w r v hw hd hs hr hg hv hq => ?_
    refine .bind (hasManage_safe hg) fun _ _ => .bind (by safe) fun _ _ => .bind ?_ fun _ _ => by safe
    exact findOffsets_safe (Wallet.used_wf hw _)
  · safe

theorem setRentClaimerV1_safe : Safe (setRentClaimerV1 env m metas ix) := by
  unfold setRentClaimerV1
  split
  · refine .bind (by safe) fun _ h1 => .bind (by safe) fun _ _ => .bind (by safe) fun a _ => .bind (by safe) fun _ _ =>
      .bind (by safe) fun _ _ => ?_
    dsimp only
    refine .bind (by safe) fun p hp => .bind (by safe) fun _ _ => .bind (by safe) fun _ _ => ?_
    refine (ho _ rfl (require_ok_iff.mp h1)).act hx hp fun w r v hw hd hs hr hg hv hq => ?_
    exact .bind (hasAction_safe hg) fun _ _ => .bind (hasAction_safe hg) fun _ _ => by safe
  · safe

theorem createSessionV1_safe : Safe (createSessionV1 env m metas ix) := by
  unfold createSessionV1
  split
  · refine .bind (by safe) fun _ h1 => .bind (by safe) fun a _ => ?_
    have ho := ho _ rfl (require_ok_iff.mp h1)
    refine .bind (openSwigU_safe ho.nonempty) fun p hp => ?_
    obtain ⟨w, h1, h2, h3, rfl⟩ := ho.parts (openSwigU_ok hp)
    refine .bind (getMutRole_safe h1) fun r _ => .bind (by safe) fun r _ => .bind ?_ fun _ _ => by safe
    exact .bind (by safe) fun _ _ => .bind (authenticate_safe hx) fun _ _ => by safe
  · safe

theorem replaceAuthorityV1_safe : Safe (replaceAuthorityV1 env m metas ix) := by
  unfold replaceAuthorityV1
  split
  · refine .bind (by safe) fun _ h1 => .bind (by safe) fun a _ => .bind (by safe) fun p hp => ?_
    refine (ho _ rfl (require_ok_iff.mp h1)).act hx hp fun w r v hw hd hs hr hg hv hq => ?_
    dsimp only
    refine .bind (mayReplace_safe hg) fun _ _ => .bind (by safe) fun _ _ => .bind ?_ fun pr _ => .bind ?_ fun _ _ => .ok _
    · unfold requiredProof
      exact .ite (fun _ => .bind (by safe) fun _ _ => .bind (loadProof_safe hx) fun _ _ => .ok _) fun _ => .ok _
    · generalize (w.used a.acting).parts.header.roles = n
      generalize 0 = c
      generalize (w.used a.acting).parts.roles = b
      induction n generalizing c with
      | zero => unfold replaceTargetGo; safe
      | succ n ih => unfold replaceTargetGo normalizeSigner replaceChecks; safe; all_goals apply ih
  · safe

theorem closeSwigV1_safe : Safe (closeSwigV1 env m metas ix) := by
  unfold closeSwigV1
  split
  · refine .bind (by safe) fun _ h1 => .bind (by safe) fun _ _ => .bind (parseRoleIx_safe (by decide)) fun a _ =>
      .bind (by safe) fun p hp => .bind (by safe) fun _ _ => .bind (by safe) fun x _ => ?_
    obtain ⟨x, _⟩ := x
    dsimp only
    refine .bind (by safe) fun _ _ => ?_
    refine (ho _ rfl (require_ok_iff.mp h1)).act hx hp fun w r v hw hd hs hr hg hv hq => ?_
    exact .bind (hasClose_safe hg) fun _ _ => by safe
  · safe

theorem migrateV1_safe (hm : ∀ a, metas.head? = some a → (m a.key).owner = swigId) : Safe (migrateV1 env m metas ix) := by
  unfold migrateV1
  split
  · refine .bind (parseRoleIx_safe (by decide)) fun a _ => .bind (by safe) fun _ _ => .bind (by safe) fun _ _ =>
      .bind (by safe) fun _ _ => .bind (by safe) fun p hp => ?_
    refine (ho _ rfl (hm _ rfl)).act hx hp fun w r v hw hd hs hr hg hv hq => ?_
    refine .bind (hasManage_safe hg) fun _ _ => ?_
    refine .bind (by safe) fun _ _ => .bind (by safe) fun _ _ => .bind (by safe) fun _ _ =>
      .bind (checkSelfPda_safe (by decide)) fun _ _ => by safe
  · safe

theorem createSubV1_safe : Safe (createSubV1 env m metas ix) := by
  unfold createSubV1
  split
  · refine .bind (by safe) fun _ h1 => .bind (by safe) fun _ _ => .bind (by safe) fun _ _ => ?_
    have ho := ho _ rfl (require_ok_iff.mp h1)
    refine .bind (openSwigU_safe ho.nonempty) fun p hp => ?_
    refine ho.act hx (openSwigU_ok hp) fun w r v hw hd hs hr hg hv hq => ?_
    refine .bind (getActionMut_safe hg) fun _ _ => .bind (by safe) fun _ _ =>
      .bind (checkSelfPda_safe (by decide)) fun _ _ => by safe
  · safe

theorem toggleSubV1_safe (hf : ix.getD 2 0 = 0 ∨ ix.getD 2 0 = 1) : Safe (toggleSubV1 env m metas ix) := by
  unfold toggleSubV1
  split
  · refine .bind (by safe) fun _ h1 => .bind (by safe) fun _ _ => .bind (by safe) fun _ _ => ?_
    refine .bind ?_ fun _ _ => ?_
    · unfold readBool
      rcases hf with e | e <;> rw [e] <;> simp <;> exact .ok _
    have ho := ho _ rfl (require_ok_iff.mp h1)
    refine .bind (openSwigU_safe ho.nonempty) fun p hp => ?_
    obtain ⟨k1, k2⟩ := toggleRole_safe ho hx (openSwigU_ok hp)
    refine .bind k1 fun x hx' => ?_
    obtain ⟨q, t⟩ := x
    dsimp only
    exact .bind (getActionMut_safe (k2 q t hx')) fun _ _ => by safe
  · safe

end

end Verif
