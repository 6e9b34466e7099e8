import Verif.Proofs.SdkTypes
import Verif.Model.SdkWallet
import Verif.Spec.SampleSdk
import Verif.Spec.SampleCpi
import Verif.Props.Roles
import Verif.Props.Client

/-!
# Properties C80 - C82: permissions as the Rust SDK shows, grants and changes them

`Permission.Names p a` (Verif/Spec/Sdk.lean) says that the stored action `a` is the one the permission `p` describes.
-/

namespace Verif
open Client Sdk

/-! ## C80: the permissions listed for a role are those it holds -/

theorem rolePermissions_wallet {w : Wallet} (hw : w.WF) {id : Nat} {r : Role} (hr : w.role? id = some r) :
    ∃ l, rolePermissions w.encode id = .ok (some l) ∧ ∀ p, p ∈ l ↔ ∃ a, Listed r.actions a ∧ dec a.ty a.data = some p := by
  have hm := (hw.role?_iff.mp hr).1
  have hrw := hw.roles r hm
  obtain ⟨l, h1, h2⟩ := fromRole_enc hrw.acts hrw.nonempty (hw.actsSize_lt hm).2
  rcases getRole_wallet hw id with ⟨hn, _⟩ | ⟨r', v, k1, k2, _, _, _, _, k7⟩
  · rw [hr] at hn; cases hn
  · rw [hr] at k1
    cases k1
    exact ⟨l, by simp [rolePermissions, withRole, k2, k7, h1], h2⟩

theorem Sdk.Listed.mem {as : List Act} {a : Act} (h : Listed as a) : a ∈ as := by
  unfold Listed at h
  split at h
  · exact List.mem_of_find?_eq_some h
  · split at h
    · exact List.mem_of_find?_eq_some h
    · split at h
      · exact h
      · exact List.mem_of_find?_eq_some h

theorem Sdk.Listed.of_first {before after : List Act} {a : Act} (h4 : a.ty ≠ P.programScope) (h9 : a.ty ≠ P.subAccount)
    (h : repeatable a.ty = true ∨ ∀ b ∈ before, b.ty ≠ a.ty) : Listed (before ++ a :: after) a := by
  unfold Listed
  rw [if_neg h4, if_neg h9]
  split
  · simp
  · rename_i hn
    rw [List.find?_append, List.find?_eq_none.mpr]
    · simp [Act.grants, hn]
    · intro b hb
      rcases h with h | h
      · exact absurd h hn
      · simp [Act.grants, h b hb]

theorem dec_some {a : Act} (h : a.WF) (h20 : a.ty ≠ P.closeSwigAuthority) : ∃ p, dec a.ty a.data = some p := by
  obtain ⟨ty, d⟩ := a
  have h0 : ty = 1 ∨ ty = 2 ∨ ty = 3 ∨ ty = 4 ∨ ty = 5 ∨ ty = 6 ∨ ty = 7 ∨ ty = 8 ∨ ty = 9 ∨ ty = 10 ∨ ty = 11 ∨ ty = 12 ∨ ty = 13 ∨
      ty = 14 ∨ ty = 15 ∨ ty = 16 ∨ ty = 17 ∨ ty = 18 ∨ ty = 19 ∨ ty = 21 ∨ ty = 22 ∨ ty = 23 ∨ ty = 24 ∨ ty = 25 ∨ ty = 26 := by
    have := h.bounds
    simp only [P.closeSwigAuthority] at h20 this ⊢
    omega
  rcases h0 with h | h | h | h | h | h | h | h | h | h | h | h | h | h | h | h | h | h | h | h | h | h | h | h | h <;> subst h <;>
    exact ⟨_, rfl⟩

/-- Everything listed is held: each listed permission names an action of the role, exactly.  Scopes have limits below 2^64 (otherwise see
`C80_scope_limit_cut`). -/
theorem C80_sound_partial {w : Wallet} (hw : w.WF) {id : Nat} {r : Role} (hr : w.role? id = some r)
    (hscope : ∀ a ∈ r.actions, a.ty = P.programScope → rd a.data 16 16 < 2 ^ 64) :
    ∃ l, rolePermissions w.encode id = .ok (some l) ∧ ∀ p ∈ l, p.InRange ∧ ∃ a ∈ r.actions, p.Names a := by
  obtain ⟨l, h1, h2⟩ := rolePermissions_wallet hw hr
  refine ⟨l, h1, fun p hp => ?_⟩
  obtain ⟨a, ha, hd⟩ := (h2 p).mp hp
  have hm := ha.mem
  obtain ⟨k1, k2⟩ := dec_names ((hw.roles r (hw.role?_iff.mp hr).1).acts a hm) hd (hscope a hm)
  exact ⟨k1, a, hm, k2⟩

/-- Everything held is listed, with these exceptions: program scopes, sub-accounts (V1), the right to close the wallet, and of permissions
that count only once all but the first. -/
theorem C80_complete_partial {w : Wallet} (hw : w.WF) {id : Nat} {r : Role} (hr : w.role? id = some r) :
    ∃ l, rolePermissions w.encode id = .ok (some l) ∧ ∀ before a after, r.actions = before ++ a :: after →
      a.ty ≠ P.programScope → a.ty ≠ P.subAccount → a.ty ≠ P.closeSwigAuthority →
      (repeatable a.ty = true ∨ ∀ b ∈ before, b.ty ≠ a.ty) → ∃ p ∈ l, p.Names a := by
  obtain ⟨l, h1, h2⟩ := rolePermissions_wallet hw hr
  refine ⟨l, h1, fun before a after e h4 h9 h20 hfirst => ?_⟩
  have hm : a ∈ r.actions := by simp [e]
  have hwf := (hw.roles r (hw.role?_iff.mp hr).1).acts a hm
  obtain ⟨p, hp⟩ := dec_some hwf h20
  exact ⟨p, (h2 p).mpr ⟨a, by rw [e]; exact Listed.of_first h4 h9 hfirst, hp⟩, (dec_names hwf hp (fun h => absurd h h4)).2⟩

/-- Nothing is listed for a role that does not exist. -/
theorem C80_no_role {w : Wallet} (hw : w.WF) {id : Nat} (hr : w.role? id = none) : rolePermissions w.encode id = .ok none := by
  rcases getRole_wallet hw id with ⟨_, h⟩ | ⟨r', v, k1, _⟩
  · simp [rolePermissions, withRole, h]
  · rw [hr] at k1; cases k1

/-- `role_has_permission` says yes only of permissions the role holds. -/
theorem C80_ask_sound_partial {w : Wallet} (hw : w.WF) {id : Nat} {r : Role} (hr : w.role? id = some r)
    (hscope : ∀ a ∈ r.actions, a.ty = P.programScope → rd a.data 16 16 < 2 ^ 64) {p : Permission}
    (h : roleHasPermission w.encode id p = .ok (some true)) : ∃ a ∈ r.actions, p.Names a := by
  obtain ⟨l, h1, h2⟩ := C80_sound_partial hw hr hscope
  simp only [roleHasPermission, h1, ok_bind, Option.map_some, Except.ok.injEq, Option.some.injEq, List.contains_iff_mem] at h
  exact (h2 p h).2

/-- And of each permission the role holds, with the exceptions of `C80_complete_partial`, it says yes. -/
theorem C80_ask_complete_partial {w : Wallet} (hw : w.WF) {id : Nat} {r : Role} (hr : w.role? id = some r) {before after : List Act} {a : Act}
    (e : r.actions = before ++ a :: after) (h4 : a.ty ≠ P.programScope) (h9 : a.ty ≠ P.subAccount) (h20 : a.ty ≠ P.closeSwigAuthority)
    (hf : repeatable a.ty = true ∨ ∀ b ∈ before, b.ty ≠ a.ty) :
    ∃ p, p.Names a ∧ roleHasPermission w.encode id p = .ok (some true) := by
  obtain ⟨l, h1, h2⟩ := C80_complete_partial hw hr
  obtain ⟨p, hp, hn⟩ := h2 before a after e h4 h9 h20 hf
  exact ⟨p, hn, by simp [roleHasPermission, h1, hp]⟩

/-- Of a role that does not exist it reports that. -/
theorem C80_ask_no_role {w : Wallet} (hw : w.WF) {id : Nat} (hr : w.role? id = none) (p : Permission) :
    roleHasPermission w.encode id p = .ok none := by
  simp [roleHasPermission, C80_no_role hw hr]

/-- The member may call the program 30; it may not manage authorities. -/
example : roleHasPermission SampleSdk.wallet.encode 1 (.program (Sample.K 30)) = .ok (some true) ∧
    roleHasPermission SampleSdk.wallet.encode 1 .manageAuthority = .ok (some false) := by decide +kernel

/-- Program scopes are looked up by the address of the Token program instead of that of the account they are about: of a role without a
scope for that address none is listed. -/
theorem C80_scopes_hidden {w : Wallet} (hw : w.WF) {id : Nat} {r : Role} (hr : w.role? id = some r)
    (hno : ∀ a ∈ r.actions, ¬ a.grants P.programScope tokenId) :
    ∃ l, rolePermissions w.encode id = .ok (some l) ∧ ∀ p t n lim win s e, Permission.programScope p t n lim win s e ∉ l := by
  obtain ⟨l, h1, h2⟩ := rolePermissions_wallet hw hr
  refine ⟨l, h1, fun p t n lim win s e hp => ?_⟩
  obtain ⟨a, ha, hd⟩ := (h2 _).mp hp
  have h4 : a.ty = P.programScope := by
    unfold dec at hd
    split at hd <;> first | assumption | cases hd
  unfold Listed at ha
  rw [if_pos h4] at ha
  exact hno a (find_grants ha).1 (find_grants ha).2

/-- Sub-accounts (V1) are looked up by the zero address: once the sub-account exists, the permission for it is no longer listed. -/
theorem C80_sub_accounts_hidden {w : Wallet} (hw : w.WF) {id : Nat} {r : Role} (hr : w.role? id = some r)
    (hno : ∀ a ∈ r.actions, ¬ a.grants P.subAccount (zeros 32)) :
    ∃ l, rolePermissions w.encode id = .ok (some l) ∧ ∀ k, Permission.subAccount k ∉ l := by
  obtain ⟨l, h1, h2⟩ := rolePermissions_wallet hw hr
  refine ⟨l, h1, fun k hp => ?_⟩
  obtain ⟨a, ha, hd⟩ := (h2 _).mp hp
  have h9 : a.ty = P.subAccount := by
    unfold dec at hd
    split at hd <;> first | assumption | cases hd
  unfold Listed at ha
  rw [if_neg (by rw [h9]; decide), if_pos h9] at ha
  exact hno a (find_grants ha).1 (find_grants ha).2

/-- The SDK has no permission for the right to close the wallet. -/
theorem C80_close_not_expressible (p : Permission) : ¬ p.Names Action.closeSwigAuthority.toAct := by
  intro h
  cases p with
  | token m a rec => cases rec <;> exact absurd (congrArg Act.ty h) (Nat.ne_of_beq_eq_false rfl)
  | tokenDestination m d a rec => cases rec <;> exact absurd (congrArg Act.ty h) (Nat.ne_of_beq_eq_false rfl)
  | sol a rec => cases rec <;> exact absurd (congrArg Act.ty h) (Nat.ne_of_beq_eq_false rfl)
  | solDestination d a rec => cases rec <;> exact absurd (congrArg Act.ty h) (Nat.ne_of_beq_eq_false rfl)
  | stake a rec => cases rec <;> exact absurd (congrArg Act.ty h) (Nat.ne_of_beq_eq_false rfl)
  | replaceAuthority r => obtain ⟨_, _, h⟩ := h; exact absurd (congrArg Act.ty h) (Nat.ne_of_beq_eq_false rfl)
  | programCurated => obtain ⟨_, _, h⟩ := h; exact absurd (congrArg Act.ty h) (Nat.ne_of_beq_eq_false rfl)
  | programScope => obtain ⟨_, _, _, _, _, _, _, _, h, _⟩ := h; exact absurd (congrArg Act.ty h) (Nat.ne_of_beq_eq_false rfl)
  | subAccount k => exact absurd h.1 (by decide)
  | subAccountV2All i => obtain ⟨_, _, h⟩ := h; exact absurd (congrArg Act.ty h) (Nat.ne_of_beq_eq_false rfl)
  | subAccountV2Sign i => obtain ⟨_, _, h⟩ := h; exact absurd (congrArg Act.ty h) (Nat.ne_of_beq_eq_false rfl)
  | subAccountV2Withdraw i => obtain ⟨_, _, h⟩ := h; exact absurd (congrArg Act.ty h) (Nat.ne_of_beq_eq_false rfl)
  | subAccountV2Toggle i => obtain ⟨_, _, h⟩ := h; exact absurd (congrArg Act.ty h) (Nat.ne_of_beq_eq_false rfl)
  | _ => exact absurd (congrArg Act.ty h) (Nat.ne_of_beq_eq_false rfl)

/-- A role may hold three permissions of which none is listed: a limited program scope, a sub-account and the right to close the
wallet. -/
theorem C80_refuted : ∃ (w : Wallet) (r : Role), w.WF ∧ w.role? 2 = some r ∧ r.actions.length = 3 ∧
    rolePermissions w.encode 2 = .ok (some []) :=
  ⟨SampleSdk.wallet, SampleSdk.hidden, SampleSdk.wallet_wf, by decide +kernel, by decide +kernel, by decide +kernel⟩

/-- The limit of a listed program scope is cut to 64 bits: a limit of 2^64 + 5 is listed as 5. -/
theorem C80_scope_limit_cut : ∃ a : Action, a.InRange ∧ a = .programScope 0 (2 ^ 64 + 5) 0 0 (Sample.K 30) tokenId 1 3 8 16 ∧
    fromRole (encActs 0 [a.toAct]) = .ok [.programScope (Sample.K 30) tokenId 3 (some 5) none (some 8) (some 16)] :=
  ⟨.programScope 0 (2 ^ 64 + 5) 0 0 (Sample.K 30) tokenId 1 3 8 16, by decide +kernel, rfl, by decide +kernel⟩

section
open Sample SampleSdk

/-- The member's five permissions are listed. -/
example : rolePermissions SampleSdk.wallet.encode 1 = .ok (some
    [.sol 70 none, .sol 50 (some ⟨100, 1000, 20⟩), .token (K 5) 30 none, .token (K 6) 40 none, .program (K 30)]) := by decide +kernel

example : ∃ l, rolePermissions SampleSdk.wallet.encode 1 = .ok (some l) ∧ ∀ p ∈ l, p.InRange ∧ ∃ a ∈ member.actions, p.Names a :=
  C80_sound_partial SampleSdk.wallet_wf (by decide +kernel) (by decide +kernel)

example : ∃ l, rolePermissions SampleSdk.wallet.encode 1 = .ok (some l) ∧ ∃ p ∈ l, p.Names (Action.tokenLimit (K 6) 40).toAct := by
  obtain ⟨l, h1, h2⟩ := C80_complete_partial SampleSdk.wallet_wf (id := 1) (r := member) (by decide +kernel)
  exact ⟨l, h1, h2 (memberActs.take 2) _ (memberActs.drop 3) rfl (by decide) (by decide) (by decide) (Or.inl (by decide))⟩

example : rolePermissions SampleSdk.wallet.encode 3 = .ok none := C80_no_role SampleSdk.wallet_wf (by decide +kernel)

example : ∃ l, rolePermissions SampleSdk.wallet.encode 2 = .ok (some l) ∧ ∀ p t n lim win s e, Permission.programScope p t n lim win s e ∉ l :=
  C80_scopes_hidden SampleSdk.wallet_wf (r := SampleSdk.hidden) (by decide +kernel) (by decide +kernel)

example : ∃ l, rolePermissions SampleSdk.wallet.encode 2 = .ok (some l) ∧ ∀ k, Permission.subAccount k ∉ l :=
  C80_sub_accounts_hidden SampleSdk.wallet_wf (r := SampleSdk.hidden) (by decide +kernel) (by decide +kernel)

end

/-! ## C81: what is granted -/

/-- Every permission is turned into one action; what that action is described by is the permission, except that a recurring limit starts
full with last reset 0, and that a program scope without limit loses its window and has fields 0 where none were given. -/
theorem C81_granted (p : Permission) (h : p.InRange) : p.toAction.InRange ∧ p.granted.InRange ∧ p.granted.Names p.toAction.toAct := by
  have z : (0 : Nat) < 2 ^ 64 := by decide
  have z128 : (0 : Nat) < 2 ^ 128 := by decide
  have l4 : (zeros 4).length = 4 := rfl
  cases p with
  | token m a rec =>
    cases rec with
    | none => exact ⟨⟨h.1, h.2.1⟩, h, rfl⟩
    | some c =>
      have hc := h.2.2 c rfl
      exact ⟨⟨h.1, hc.1, h.2.1, h.2.1, z⟩, ⟨h.1, h.2.1, fun x hx => by cases hx; exact ⟨hc.1, z, h.2.1⟩⟩, rfl⟩
  | tokenDestination m d a rec =>
    cases rec with
    | none => exact ⟨⟨h.1, h.2.1, h.2.2.1⟩, h, rfl⟩
    | some c =>
      have hc := h.2.2.2 c rfl
      exact ⟨⟨h.1, h.2.1, h.2.2.1, hc.1, z, h.2.2.1⟩, ⟨h.1, h.2.1, h.2.2.1, fun x hx => by cases hx; exact ⟨hc.1, z, h.2.2.1⟩⟩, rfl⟩
  | sol a rec =>
    cases rec with
    | none => exact ⟨h.1, h, rfl⟩
    | some c =>
      have hc := h.2 c rfl
      exact ⟨⟨h.1, hc.1, z, h.1⟩, ⟨h.1, fun x hx => by cases hx; exact ⟨hc.1, z, h.1⟩⟩, rfl⟩
  | stake a rec =>
    cases rec with
    | none => exact ⟨h.1, h, rfl⟩
    | some c =>
      have hc := h.2 c rfl
      exact ⟨⟨h.1, hc.1, z, h.1⟩, ⟨h.1, fun x hx => by cases hx; exact ⟨hc.1, z, h.1⟩⟩, rfl⟩
  | solDestination d a rec =>
    cases rec with
    | none => exact ⟨⟨h.1, h.2.1⟩, h, rfl⟩
    | some c =>
      have hc := h.2.2 c rfl
      exact ⟨⟨h.1, h.2.1, hc.1, z, h.2.1⟩, ⟨h.1, h.2.1, fun x hx => by cases hx; exact ⟨hc.1, z, h.2.1⟩⟩, rfl⟩
  | programScope p t n lim win s e =>
    obtain ⟨h1, h2, h3, h4, h5, h6, h7⟩ := h
    have hs : s.getD 0 < 2 ^ 64 := by cases s with
      | none => exact z
      | some x => exact h6 x rfl
    have he : e.getD 0 < 2 ^ 64 := by cases e with
      | none => exact z
      | some x => exact h7 x rfl
    have hin : (Permission.programScope p t n lim win s e).toAction.InRange := by
      have big : (2 : Nat) ^ 64 < 2 ^ 128 := by decide
      cases lim with
      | none => cases win <;> exact ⟨z128, z128, z, z, h1, h2, z, h3, hs, he⟩
      | some l =>
        have hl := Nat.lt_trans (h4 l rfl) big
        cases win with
        | none => exact ⟨z128, hl, z, z, h1, h2, show (1 : Nat) < 2 ^ 64 by decide, h3, hs, he⟩
        | some x => exact ⟨z128, hl, h5 x rfl, z, h1, h2, show (2 : Nat) < 2 ^ 64 by decide, h3, hs, he⟩
    refine ⟨hin, ⟨h1, h2, h3, h4, ?_, fun x hx => by cases hx; exact hs, fun x hx => by cases hx; exact he⟩,
      _, _, _, _, _, _, _, hin, rfl, ?_, ?_, rfl, rfl⟩
    · split
      · intro x hx; cases hx
      · exact h5
    · cases lim <;> cases win <;> rfl
    · cases lim <;> cases win <;> rfl
  | subAccount k =>
    have hk : k.length = 32 := h
    refine ⟨⟨h, rfl, by decide, by decide +kernel⟩, h, rfl, ?_, ?_⟩
    · simp [Permission.toAction, Action.toAct, Action.bytes, hk]
    · simp [Permission.toAction, Action.toAct, Action.bytes, ← hk]
  | replaceAuthority r => exact ⟨⟨h, l4⟩, h, _, l4, rfl⟩
  | programCurated => exact ⟨by decide +kernel, h, zeros 32, by decide +kernel, rfl⟩
  | program k => exact ⟨h, h, rfl⟩
  | subAccountV2All i => exact ⟨⟨h, l4⟩, h, _, l4, rfl⟩
  | subAccountV2Sign i => exact ⟨⟨h, l4⟩, h, _, l4, rfl⟩
  | subAccountV2Withdraw i => exact ⟨⟨h, l4⟩, h, _, l4, rfl⟩
  | subAccountV2Toggle i => exact ⟨⟨h, l4⟩, h, _, l4, rfl⟩
  | _ => exact ⟨trivial, trivial, rfl⟩

/-- The number used to remove a permission is the type of the action it is granted as. -/
theorem C81_type (p : Permission) : p.toActionType = p.toAction.toAct.ty := by
  cases p with
  | token m a rec => cases rec <;> rfl
  | tokenDestination m d a rec => cases rec <;> rfl
  | sol a rec => cases rec <;> rfl
  | solDestination d a rec => cases rec <;> rfl
  | stake a rec => cases rec <;> rfl
  | _ => rfl

theorem fresh_plain {a : Act} (h : a.WF) (h2 : a.ty ≠ 2) (h11 : a.ty ≠ 11) (h6 : a.ty ≠ 6) (h17 : a.ty ≠ 17) (h19 : a.ty ≠ 19)
    (h9 : a.ty ≠ 9) : a.Fresh :=
  ⟨h, fun x => absurd x (fun x => x.elim h2 h11), fun x => absurd x h6, fun x => absurd x h17, fun x => absurd x h19,
    fun x => absurd x h9⟩

/-- The program takes these actions, unless a recurring destination limit has window 0 or a sub-account has an address. -/
theorem C81_acceptable (p : Permission) (h : p.InRange)
    (hd : ∀ d a c, p = .solDestination d a (some c) → c.window ≠ 0) (ht : ∀ m d a c, p = .tokenDestination m d a (some c) → c.window ≠ 0)
    (hs : ∀ k, p = .subAccount k → k = zeros 32) : p.toAction.toAct.Fresh := by
  have hin := (C81_granted p h).1
  have hwf := Action.wf hin
  have ne : ∀ {a b : Nat}, Nat.beq a b = false → a ≠ b := fun h => Nat.ne_of_beq_eq_false h
  have z8 : natLE 8 0 = zeros 8 := by decide
  cases p with
  | sol a rec =>
    cases rec with
    | none => exact fresh_plain hwf (ne rfl) (ne rfl) (ne rfl) (ne rfl) (ne rfl) (ne rfl)
    | some c =>
      refine ⟨hwf, fun _ => ?_, fun x => absurd x (ne rfl), fun x => absurd x (ne rfl), fun x => absurd x (ne rfl), fun x => absurd x (ne rfl)⟩
      simp [Permission.toAction, Action.toAct, Action.bytes, Client.sl_skip, Client.sl_here, Client.sl_only, z8]
  | stake a rec =>
    cases rec with
    | none => exact fresh_plain hwf (ne rfl) (ne rfl) (ne rfl) (ne rfl) (ne rfl) (ne rfl)
    | some c =>
      refine ⟨hwf, fun _ => ?_, fun x => absurd x (ne rfl), fun x => absurd x (ne rfl), fun x => absurd x (ne rfl), fun x => absurd x (ne rfl)⟩
      simp [Permission.toAction, Action.toAct, Action.bytes, Client.sl_skip, Client.sl_here, Client.sl_only, z8]
  | token m a rec =>
    cases rec with
    | none => exact fresh_plain hwf (ne rfl) (ne rfl) (ne rfl) (ne rfl) (ne rfl) (ne rfl)
    | some c =>
      refine ⟨hwf, fun x => absurd x (fun x => x.elim (ne rfl) (ne rfl)), fun _ => ?_, fun x => absurd x (ne rfl), fun x => absurd x (ne rfl),
        fun x => absurd x (ne rfl)⟩
      simp [Permission.toAction, Action.toAct, Action.bytes, Client.sl_skip, Client.sl_here, Client.sl_only, z8, h.1]
  | solDestination d a rec =>
    cases rec with
    | none => exact fresh_plain hwf (ne rfl) (ne rfl) (ne rfl) (ne rfl) (ne rfl) (ne rfl)
    | some c =>
      refine ⟨hwf, fun x => absurd x (fun x => x.elim (ne rfl) (ne rfl)), fun x => absurd x (ne rfl), fun _ => ?_, fun x => absurd x (ne rfl),
        fun x => absurd x (ne rfl)⟩
      have hw := hd d a c rfl
      have hc := h.2.2 c rfl
      simp [Permission.toAction, Action.toAct, Action.bytes, Client.rd_skip, Client.rd_here, Client.rd_only, h.1, h.2.1, hc.1, hw]
  | tokenDestination m d a rec =>
    cases rec with
    | none => exact fresh_plain hwf (ne rfl) (ne rfl) (ne rfl) (ne rfl) (ne rfl) (ne rfl)
    | some c =>
      refine ⟨hwf, fun x => absurd x (fun x => x.elim (ne rfl) (ne rfl)), fun x => absurd x (ne rfl), fun x => absurd x (ne rfl), fun _ => ?_,
        fun x => absurd x (ne rfl)⟩
      have hw := ht m d a c rfl
      have hc := h.2.2.2 c rfl
      simp [Permission.toAction, Action.toAct, Action.bytes, Client.rd_skip, Client.rd_here, Client.rd_only, h.1, h.2.1, h.2.2.1, hc.1, hw]
  | subAccount k =>
    refine ⟨hwf, fun x => absurd x (fun x => x.elim (ne rfl) (ne rfl)), fun x => absurd x (ne rfl), fun x => absurd x (ne rfl),
      fun x => absurd x (ne rfl), fun _ => ?_⟩
    have hk := hs k rfl
    simp [Permission.toAction, Action.toAct, Action.bytes, Client.sl_here, hk]
  | _ => exact fresh_plain hwf (ne rfl) (ne rfl) (ne rfl) (ne rfl) (ne rfl) (ne rfl)

/-- A program scope granted without a limit, with or without a window, allows any amount at any time and counts nothing. -/
theorem C81_scope_without_limit (p t : Key) (num : Nat) (win s e : Option Nat) (n slot : Nat) :
    (Permission.programScope p t num none win s e).toAction.spend n slot = some (Permission.programScope p t num none win s e).toAction := by
  cases win <;> rfl

/-- A recurring limit granted for `amount` allows spending up to `amount` at once, as a fixed limit does. -/
theorem C81_recurring_starts_full (amount n slot : Nat) (c : Recurring) (hw : c.window ≠ 0) :
    ((Permission.sol amount (some c)).toAction.spend n slot).isSome = decide (n ≤ amount) ∧
      ((Permission.sol amount none).toAction.spend n slot).isSome = decide (n ≤ amount) := by
  have hfst : (refilled amount c.window 0 amount n slot).1 = amount := by
    unfold refilled
    split <;> rfl
  constructor
  · simp only [Permission.toAction, Action.spend, hfst]
    by_cases hn : n ≤ amount
    · rw [if_pos ⟨hn, fun h => hw h.1⟩]; simp [hn]
    · rw [if_neg (fun h => hn h.1)]; simp [hn]
  · simp only [Permission.toAction, Action.spend]
    split <;> simp_all

theorem dec_granted {p : Permission} (h : p.InRange) : dec p.toAction.toAct.ty p.toAction.toAct.data = some p.granted :=
  names_dec (C81_granted p h).2.1 (C81_granted p h).2.2

/-- What is listed for a role with granted permissions. -/
theorem listed_granted {ps : List Permission} (h : ∀ p ∈ ps, p.InRange) {l : List Permission}
    (hl : ∀ q, q ∈ l ↔ ∃ a, Listed ((toClientActions ps).map Action.toAct) a ∧ dec a.ty a.data = some q) :
    (∀ q ∈ l, ∃ p ∈ ps, q = p.granted) ∧ ∀ before p after, ps = before ++ p :: after → p.toActionType ≠ P.programScope →
      p.toActionType ≠ P.subAccount → (repeatable p.toActionType = true ∨ ∀ b ∈ before, b.toActionType ≠ p.toActionType) →
      p.granted ∈ l := by
  constructor
  · intro q hq
    obtain ⟨a, ha, hd⟩ := (hl q).mp hq
    have hm := ha.mem
    simp only [toClientActions, List.map_map, List.mem_map, Function.comp] at hm
    obtain ⟨p, hp, rfl⟩ := hm
    rw [dec_granted (h p hp)] at hd
    exact ⟨p, hp, (Option.some.inj hd).symm⟩
  · intro before p after e h4 h9 hr
    refine (hl _).mpr ⟨p.toAction.toAct, ?_, dec_granted (h p (by simp [e]))⟩
    simp only [C81_type] at h4 h9 hr
    have : (toClientActions ps).map Action.toAct =
        (toClientActions before).map Action.toAct ++ p.toAction.toAct :: (toClientActions after).map Action.toAct := by
      simp [e, toClientActions]
    rw [this]
    refine Listed.of_first h4 h9 ?_
    rcases hr with hr | hr
    · exact Or.inl hr
    · right
      intro b hb
      simp only [toClientActions, List.map_map, List.mem_map, Function.comp] at hb
      obtain ⟨x, hx, rfl⟩ := hb
      have := hr x hx
      simpa [C81_type] using this

/-- A role added through the SDK with the permissions `ps` is listed with these permissions as granted: nothing else is listed, and
everything is, except program scopes, sub-accounts and, of the kinds that count once, all but the first. -/
theorem C81_add_reads_back {env : Env} {cpi : Cpi} {m : Mem} {metas : List Meta} {swig payer : Key} {w : Wallet} {acting ty : Nat} {r : Role}
    {a auth : Auth} {cred : Bytes} {ps : List Permission} {c : Caller} {pre post : List TxIx} (hh : HashLength env)
    (hr : Ready env m swig w acting r a metas (addAuthority env swig payer acting ty cred (toClientActions ps) c) pre post)
    (ho : ActsFor env a metas (addAuthority env swig payer acting ty cred (toClientActions ps) c) pre c)
    (hperm : r.holds P.all ∨ r.holds P.manageAuthority) (hcred : initialAuth ty cred = some auth)
    (hin : ∀ p ∈ ps, p.InRange) (hd : ∀ d a c, Permission.solDestination d a (some c) ∈ ps → c.window ≠ 0)
    (ht : ∀ m d a c, Permission.tokenDestination m d a (some c) ∈ ps → c.window ≠ 0)
    (hs : ∀ k, Permission.subAccount k ∈ ps → k = zeros 32) (h1 : 1 ≤ ps.length) (h255 : ps.length ≤ 255)
    (hdup : NoV2Dup ((toClientActions ps).map Action.toAct)) (hlen : (writeActions (toClientActions ps)).length < 2 ^ 16)
    (hcount : w.roles.length + 1 < 2 ^ 16) (hctr : w.roleCounter + 1 < 2 ^ 32)
    (hsize : MayGrow w.encode.length (16 + auth.encode.length + (writeActions (toClientActions ps)).length))
    (hpay : Pays env m payer swig (w.encode.length + (16 + auth.encode.length + (writeActions (toClientActions ps)).length))) :
    ∃ m' l, process env cpi m metas (addAuthority env swig payer acting ty cred (toClientActions ps) c).data = .ok m' ∧
      rolePermissions (m' swig).data w.roleCounter = .ok (some l) ∧ (∀ q ∈ l, ∃ p ∈ ps, q = p.granted) ∧
      ∀ before p after, ps = before ++ p :: after → p.toActionType ≠ P.programScope → p.toActionType ≠ P.subAccount →
        (repeatable p.toActionType = true ∨ ∀ b ∈ before, b.toActionType ≠ p.toActionType) → p.granted ∈ l := by
  have hin' : ∀ x ∈ toClientActions ps, x.InRange := by
    intro x hx
    simp only [toClientActions, List.mem_map] at hx
    obtain ⟨p, hp, rfl⟩ := hx
    exact (C81_granted p (hin p hp)).1
  have hfr : ∀ x ∈ toClientActions ps, x.toAct.Fresh := by
    intro x hx
    simp only [toClientActions, List.mem_map] at hx
    obtain ⟨p, hp, rfl⟩ := hx
    exact C81_acceptable p (hin p hp) (fun d a c e => hd d a c (e ▸ hp)) (fun m d a c e => ht m d a c (e ▸ hp)) (fun k e => hs k (e ▸ hp))
  have hl : (toClientActions ps).length = ps.length := by simp [toClientActions]
  obtain ⟨m', g1, g2, _, hw2⟩ := C70_add (cpi := cpi) hh hr ho hperm hcred hin' hfr (by omega) (by omega) hdup hlen hcount hctr hsize hpay
  have hfind : ((w.used acting).addRole ty auth.encode ((toClientActions ps).map Action.toAct)).role? w.roleCounter =
      some ⟨ty, w.roleCounter, auth.encode, (toClientActions ps).map Action.toAct⟩ :=
    hw2.role?_iff.mpr ⟨by simp [Wallet.addRole, Wallet.used, Wallet.mapRole], rfl⟩
  obtain ⟨l, k1, k2⟩ := rolePermissions_wallet hw2 hfind
  exact ⟨m', l, g1, by rw [g2]; exact k1, (listed_granted hin k2).1, (listed_granted hin k2).2⟩

/-! ## C82: what is changed -/

/-- Removing by kind leaves exactly the permissions of other kinds. -/
theorem C82_remove_keeps_other_kinds (ps : List Permission) (old : List Act) (hwf : ∀ a ∈ old, a.WF) :
    (UpdateData.removeByType ps).toChange.result old = old.filter fun a => ∀ p ∈ ps, p.toAction.toAct.ty ≠ a.ty := by
  simp only [UpdateData.toChange, Change.result]
  refine List.filter_congr fun a ha => ?_
  rw [decide_eq_decide]
  have hb := (hwf a ha).bounds
  constructor
  · intro h p hp e
    refine h (List.mem_map.mpr ⟨p, hp, ?_⟩)
    rw [C81_type, e]
  · intro h hm
    obtain ⟨p, hp, e⟩ := List.mem_map.mp hm
    refine h p hp ?_
    have hlt : p.toActionType < 27 := by
      cases p <;> simp only [Permission.toActionType] <;> (try split) <;> decide
    rw [← C81_type]
    have := congrArg UInt8.toNat e
    simp only [UInt8.toNat_ofNat'] at this
    omega

theorem names_type {p : Permission} {a : Act} (h : p.Names a) : p.toActionType = a.ty := by
  cases p with
  | token m a rec => cases rec <;> (rw [h]; rfl)
  | tokenDestination m d a rec => cases rec <;> (rw [h]; rfl)
  | sol a rec => cases rec <;> (rw [h]; rfl)
  | solDestination d a rec => cases rec <;> (rw [h]; rfl)
  | stake a rec => cases rec <;> (rw [h]; rfl)
  | replaceAuthority r => obtain ⟨_, _, h⟩ := h; rw [h]; rfl
  | programCurated => obtain ⟨_, _, h⟩ := h; rw [h]; rfl
  | programScope => obtain ⟨_, _, _, _, _, _, _, _, h, _⟩ := h; rw [h]; rfl
  | subAccount k => exact h.1.symm
  | subAccountV2All i => obtain ⟨_, _, h⟩ := h; rw [h]; rfl
  | subAccountV2Sign i => obtain ⟨_, _, h⟩ := h; rw [h]; rfl
  | subAccountV2Withdraw i => obtain ⟨_, _, h⟩ := h; rw [h]; rfl
  | subAccountV2Toggle i => obtain ⟨_, _, h⟩ := h; rw [h]; rfl
  | _ => rw [h]; rfl

/-- What the user names is gone. -/
theorem C82_named_are_removed {ps : List Permission} {old : List Act} (hwf : ∀ a ∈ old, a.WF) {p : Permission} (hp : p ∈ ps) {a : Act}
    (hn : p.Names a) : a ∉ (UpdateData.removeByType ps).toChange.result old := by
  rw [C82_remove_keeps_other_kinds ps old hwf]
  intro h
  have h2 := (List.mem_filter.mp h).2
  simp only [decide_eq_true_eq] at h2
  refine h2 p hp ?_
  rw [← C81_type]
  exact names_type hn

/-- Permissions removed by kind through the SDK: the role keeps exactly its permissions of other kinds. -/
theorem C82_remove {env : Env} {cpi : Cpi} {m : Mem} {metas : List Meta} {swig payer : Key} {w : Wallet} {acting target : Nat}
    {r t : Role} {a : Auth} {ps : List Permission} {c : Caller} {pre post : List TxIx} (hh : HashLength env)
    (hr : Ready env m swig w acting r a metas (updateAuthority env swig payer acting target (UpdateData.removeByType ps).toChange c) pre post)
    (ho : ActsFor env a metas (updateAuthority env swig payer acting target (UpdateData.removeByType ps).toChange c) pre c)
    (hperm : r.holds P.all ∨ r.holds P.manageAuthority) (ht : w.role? target = some t) (hlen : ps.length < 2 ^ 16 - 1)
    (hfr : ∀ x ∈ t.actions, (∀ p ∈ ps, p.toAction.toAct.ty ≠ x.ty) → x.Fresh)
    (h1 : ∃ x ∈ t.actions, ∀ p ∈ ps, p.toAction.toAct.ty ≠ x.ty) :
    ∃ m', process env cpi m metas (updateAuthority env swig payer acting target (UpdateData.removeByType ps).toChange c).data = .ok m' ∧
      (m' swig).data = ((w.used acting).setActions target (t.actions.filter fun a => ∀ p ∈ ps, p.toAction.toAct.ty ≠ a.ty)).encode := by
  have htw := hr.wf.roles t (hr.wf.role?_iff.mp ht).1
  have e := C82_remove_keeps_other_kinds ps t.actions htw.acts
  have hsub : (t.actions.filter fun a => ∀ p ∈ ps, p.toAction.toAct.ty ≠ a.ty).Sublist t.actions := List.filter_sublist
  obtain ⟨m', g1, g2, _⟩ := C70_update (cpi := cpi) hh hr ho hperm ht (by simp [UpdateData.toChange, Change.acts])
    (by simp [UpdateData.toChange, Change.indices])
    (by simp only [UpdateData.toChange, Change.bytes, List.length_cons, List.length_map]; omega)
    (by
      rw [e]
      intro x hx
      obtain ⟨k1, k2⟩ := List.mem_filter.mp hx
      exact hfr x k1 (by simpa using k2))
    (by
      rw [e]
      obtain ⟨x, k1, k2⟩ := h1
      exact List.length_pos_of_mem (List.mem_filter.mpr ⟨k1, by simpa using k2⟩))
    (by rw [e]; exact Nat.le_trans hsub.length_le htw.atMost)
    (by rw [e]; exact List.Sublist.nodup (hsub.filterMap _) htw.v2)
    (by intro h; simp [UpdateData.toChange, Change.op, UpdateOp.growth] at h)
  exact ⟨m', g1, by rw [g2, e]⟩

/-- All permissions of a role replaced through the SDK: it is then listed with the given ones as granted, as in
`C81_add_reads_back`. -/
theorem C82_replace_reads_back {env : Env} {cpi : Cpi} {m : Mem} {metas : List Meta} {swig payer : Key} {w : Wallet} {acting target : Nat}
    {r t : Role} {a : Auth} {ps : List Permission} {c : Caller} {pre post : List TxIx} (hh : HashLength env)
    (hr : Ready env m swig w acting r a metas (updateAuthority env swig payer acting target (UpdateData.replaceAll ps).toChange c) pre post)
    (ho : ActsFor env a metas (updateAuthority env swig payer acting target (UpdateData.replaceAll ps).toChange c) pre c)
    (hperm : r.holds P.all ∨ r.holds P.manageAuthority) (ht : w.role? target = some t)
    (hin : ∀ p ∈ ps, p.InRange) (hd : ∀ d a c, Permission.solDestination d a (some c) ∈ ps → c.window ≠ 0)
    (htd : ∀ m d a c, Permission.tokenDestination m d a (some c) ∈ ps → c.window ≠ 0)
    (hs : ∀ k, Permission.subAccount k ∈ ps → k = zeros 32) (h1 : 1 ≤ ps.length) (h255 : ps.length ≤ 255)
    (hdup : NoV2Dup ((toClientActions ps).map Action.toAct)) (hlen : (writeActions (toClientActions ps)).length < 2 ^ 16 - 1)
    (hgrow : (UpdateData.replaceAll ps).toChange.op.growth (actsSize t.actions) > 0 →
      MayGrow w.encode.length ((UpdateData.replaceAll ps).toChange.op.growth (actsSize t.actions)) ∧
      Pays env m payer swig (w.encode.length + (UpdateData.replaceAll ps).toChange.op.growth (actsSize t.actions))) :
    ∃ m' l, process env cpi m metas (updateAuthority env swig payer acting target (UpdateData.replaceAll ps).toChange c).data = .ok m' ∧
      rolePermissions (m' swig).data target = .ok (some l) ∧ (∀ q ∈ l, ∃ p ∈ ps, q = p.granted) ∧
      ∀ before p after, ps = before ++ p :: after → p.toActionType ≠ P.programScope → p.toActionType ≠ P.subAccount →
        (repeatable p.toActionType = true ∨ ∀ b ∈ before, b.toActionType ≠ p.toActionType) → p.granted ∈ l := by
  have hin' : ∀ x ∈ toClientActions ps, x.InRange := by
    intro x hx
    simp only [toClientActions, List.mem_map] at hx
    obtain ⟨p, hp, rfl⟩ := hx
    exact (C81_granted p (hin p hp)).1
  have hfr : ∀ x ∈ toClientActions ps, x.toAct.Fresh := by
    intro x hx
    simp only [toClientActions, List.mem_map] at hx
    obtain ⟨p, hp, rfl⟩ := hx
    exact C81_acceptable p (hin p hp) (fun d a c e => hd d a c (e ▸ hp)) (fun m d a c e => htd m d a c (e ▸ hp)) (fun k e => hs k (e ▸ hp))
  have hl : (toClientActions ps).length = ps.length := by simp [toClientActions]
  obtain ⟨m', g1, g2, _, hw2⟩ := C70_update (cpi := cpi) hh hr ho hperm ht hin' (by simp [UpdateData.toChange, Change.indices])
    (by simp only [UpdateData.toChange, Change.bytes, List.length_cons]; omega)
    (by simp only [UpdateData.toChange, Change.result, List.mem_map]; rintro x ⟨y, hy, rfl⟩; exact hfr y hy)
    (by simp only [UpdateData.toChange, Change.result, List.length_map]; omega)
    (by simp only [UpdateData.toChange, Change.result, List.length_map]; omega) hdup hgrow
  have hfind : ((w.used acting).setActions target ((toClientActions ps).map Action.toAct)).role? target =
      some { (if t.id = acting then { t with auth := usedCred t.authType t.auth } else t) with
        actions := (toClientActions ps).map Action.toAct } := by
    obtain ⟨k1, k2⟩ := hr.wf.role?_iff.mp ht
    refine hw2.role?_iff.mpr ⟨?_, ?_⟩
    · simp only [Wallet.setActions, Wallet.mapRole, Wallet.used, List.map_map, List.mem_map, Function.comp]
      refine ⟨t, k1, ?_⟩
      split <;> simp [k2, UpdateData.toChange, Change.result]
    · split <;> exact k2
  obtain ⟨l, k1, k2⟩ := rolePermissions_wallet hw2 hfind
  exact ⟨m', l, g1, by rw [g2]; exact k1, (listed_granted hin k2).1, (listed_granted hin k2).2⟩

section
open Sample SampleClient SampleSdk

/-- "Only the named permission is removed" is false: the holder of limits for two tokens loses both when one of them is removed. -/
theorem C82_refuted : ∃ (env : Env) (cpi : Cpi) (w : Wallet) (l : List Permission) (p q : Permission) (m' : Mem), w.WF ∧
    rolePermissions w.encode 1 = .ok (some l) ∧ p ∈ l ∧ q ∈ l ∧ p ≠ q ∧
    process env cpi (mem w) (updateAuthority env (K 1) (K 10) 0 1 (UpdateData.removeByType [p]).toChange callerEd).accounts
      (updateAuthority env (K 1) (K 10) 0 1 (UpdateData.removeByType [p]).toChange callerEd).data = .ok m' ∧
    ∃ l', rolePermissions (m' (K 1)).data 1 = .ok (some l') ∧ p ∉ l' ∧ q ∉ l' := by
  obtain ⟨m', h1, h2⟩ := exists_of_leads (x := process env1 demoCpi (mem wallet2)
    (updateAuthority env1 (K 1) (K 10) 0 1 (UpdateData.removeByType [.token (K 5) 30 none]).toChange callerEd).accounts
      (updateAuthority env1 (K 1) (K 10) 0 1 (UpdateData.removeByType [.token (K 5) 30 none]).toChange callerEd).data)
    (p := fun m' => decide (rolePermissions (m' (K 1)).data 1 = .ok (some [.program (K 30)]))) (by decide +kernel)
  exact ⟨env1, demoCpi, wallet2, [.token (K 5) 30 none, .token (K 6) 40 none, .program (K 30)], .token (K 5) 30 none, .token (K 6) 40 none,
    m', wallet2_wf, by decide +kernel, by decide, by decide, by decide, h1, _, of_decide_eq_true h2, by decide, by decide⟩

/-- "Writing back the listed permissions changes nothing" is false: a recurring limit of which 20 of 50 were left is full again, and the
right to close the wallet is lost. -/
theorem C82_write_back_refuted : ∃ (env : Env) (cpi : Cpi) (w : Wallet) (l : List Permission) (m' : Mem), w.WF ∧
    rolePermissions w.encode 2 = .ok (some l) ∧ l = [.sol 50 (some ⟨100, 90, 20⟩)] ∧
    (∃ r, w.role? 2 = some r ∧ r.holds P.closeSwigAuthority) ∧
    process env cpi (mem w) (updateAuthority env (K 1) (K 10) 0 2 (UpdateData.replaceAll l).toChange callerEd).accounts
      (updateAuthority env (K 1) (K 10) 0 2 (UpdateData.replaceAll l).toChange callerEd).data = .ok m' ∧
    (m' (K 1)).data = (w.setActions 2 [(Action.solRecurringLimit 50 100 0 50).toAct]).encode := by
  obtain ⟨m', h1, h2⟩ := exists_of_leads (x := process env1 demoCpi (mem wallet2)
    (updateAuthority env1 (K 1) (K 10) 0 2 (UpdateData.replaceAll [.sol 50 (some ⟨100, 90, 20⟩)]).toChange callerEd).accounts
      (updateAuthority env1 (K 1) (K 10) 0 2 (UpdateData.replaceAll [.sol 50 (some ⟨100, 90, 20⟩)]).toChange callerEd).data)
    (p := fun m' => decide ((m' (K 1)).data = (wallet2.setActions 2 [(Action.solRecurringLimit 50 100 0 50).toAct]).encode))
    (by decide +kernel)
  exact ⟨env1, demoCpi, wallet2, _, m', wallet2_wf, by decide +kernel, rfl, ⟨closer, by decide +kernel, by decide +kernel⟩, h1,
    of_decide_eq_true h2⟩

/-- Permissions a role can be given. -/
def given : List Permission :=
  [.sol 50 (some ⟨100, 7, 8⟩), .token (K 5) 30 none, .tokenDestination (K 5) (K 6) 9 (some ⟨10, 0, 0⟩),
    .programScope (K 30) (K 50) 3 (some 500) none (some 8) (some 16), .subAccountV2Sign 4]

/-- Every sample caller can add a role with them. -/
example (cpi : Cpi) (acting : Nat) (r : Role) (a : Auth) (c : Caller) (h : sampleCase acting = some (r, a, c)) :
    ∃ m' l, process env1 cpi (memOf (addAuthority env1 (K 1) (K 10) acting 1 (K 13) (toClientActions given) c))
        (addAuthority env1 (K 1) (K 10) acting 1 (K 13) (toClientActions given) c).accounts
        (addAuthority env1 (K 1) (K 10) acting 1 (K 13) (toClientActions given) c).data = .ok m' ∧
      rolePermissions (m' (K 1)).data 5 = .ok (some l) ∧ Permission.sol 50 (some ⟨100, 0, 50⟩) ∈ l ∧ Permission.sol 50 none ∉ l := by
  have hl := sample_cases h
  have hready := sample_ready (data := Client.addData acting 1 (K 13) (toClientActions given)) h
    (by rcases hl with ⟨rfl, _, _, rfl⟩ | ⟨rfl, _, _, rfl⟩ | ⟨rfl, _, _, rfl⟩ | ⟨rfl, _, _, rfl⟩ | ⟨rfl, _, _, rfl⟩ <;> decide +kernel)
  obtain ⟨m', l, h1, h2, h3, h4⟩ := C81_add_reads_back (cpi := cpi) (ps := given) hash1 hready (sample_acts h).2.2
    (by rcases hl with ⟨_, rfl, _⟩ | ⟨_, rfl, _⟩ | ⟨_, rfl, _⟩ | ⟨_, rfl, _⟩ | ⟨_, rfl, _⟩ <;> decide +kernel)
    (auth := ⟨.ed25519 (K 13), none⟩) (by decide +kernel) (by decide +kernel) (by simp [given]) (by simp [given]; rintro _ _ _ _ rfl rfl rfl rfl; decide) (by simp [given])
    (by decide +kernel) (by decide +kernel) (by decide +kernel) (by decide +kernel) (by decide +kernel) (by decide +kernel)
    (by decide +kernel) (sample_pays (by decide +kernel))
  refine ⟨m', l, h1, h2, h4 [] _ (given.drop 1) rfl (by decide) (by decide) (Or.inr (by simp)), fun hm => ?_⟩
  obtain ⟨p, hp, e⟩ := h3 _ hm
  revert p
  decide +kernel

/-- Every sample caller can take the SOL limit from role 4 and give it others. -/
example (cpi : Cpi) (acting : Nat) (r : Role) (a : Auth) (c : Caller) (h : sampleCase acting = some (r, a, c)) :
    ∃ m', process env1 cpi (memOf (updateAuthority env1 (K 1) (K 10) acting 4 (UpdateData.removeByType [.sol 1 none]).toChange c))
        (updateAuthority env1 (K 1) (K 10) acting 4 (UpdateData.removeByType [.sol 1 none]).toChange c).accounts
        (updateAuthority env1 (K 1) (K 10) acting 4 (UpdateData.removeByType [.sol 1 none]).toChange c).data = .ok m' ∧
      (m' (K 1)).data = ((wallet1.used acting).setActions 4 [⟨P.manageAuthority, []⟩]).encode := by
  have hl := sample_cases h
  have hready := sample_ready (data := Client.updateData acting 4 (UpdateData.removeByType [.sol 1 none]).toChange) h
    (by rcases hl with ⟨rfl, _, _, rfl⟩ | ⟨rfl, _, _, rfl⟩ | ⟨rfl, _, _, rfl⟩ | ⟨rfl, _, _, rfl⟩ | ⟨rfl, _, _, rfl⟩ <;> decide +kernel)
  obtain ⟨m', h1, h2⟩ := C82_remove (cpi := cpi) (ps := [.sol 1 none]) hash1 hready (sample_acts h).2.2
    (by rcases hl with ⟨_, rfl, _⟩ | ⟨_, rfl, _⟩ | ⟨_, rfl, _⟩ | ⟨_, rfl, _⟩ | ⟨_, rfl, _⟩ <;> decide +kernel)
    (show wallet1.role? 4 = some role4 by decide +kernel) (by decide) (by decide +kernel) (by decide +kernel)
  exact ⟨m', h1, h2⟩

example (cpi : Cpi) (acting : Nat) (r : Role) (a : Auth) (c : Caller) (h : sampleCase acting = some (r, a, c)) :
    ∃ m' l, process env1 cpi (memOf (updateAuthority env1 (K 1) (K 10) acting 4 (UpdateData.replaceAll given).toChange c))
        (updateAuthority env1 (K 1) (K 10) acting 4 (UpdateData.replaceAll given).toChange c).accounts
        (updateAuthority env1 (K 1) (K 10) acting 4 (UpdateData.replaceAll given).toChange c).data = .ok m' ∧
      rolePermissions (m' (K 1)).data 4 = .ok (some l) ∧ Permission.sol 50 (some ⟨100, 0, 50⟩) ∈ l ∧ Permission.manageAuthority ∉ l := by
  have hl := sample_cases h
  have hready := sample_ready (data := Client.updateData acting 4 (UpdateData.replaceAll given).toChange) h
    (by rcases hl with ⟨rfl, _, _, rfl⟩ | ⟨rfl, _, _, rfl⟩ | ⟨rfl, _, _, rfl⟩ | ⟨rfl, _, _, rfl⟩ | ⟨rfl, _, _, rfl⟩ <;> decide +kernel)
  obtain ⟨m', l, h1, h2, h3, h4⟩ := C82_replace_reads_back (cpi := cpi) (ps := given) hash1 hready (sample_acts h).2.2
    (by rcases hl with ⟨_, rfl, _⟩ | ⟨_, rfl, _⟩ | ⟨_, rfl, _⟩ | ⟨_, rfl, _⟩ | ⟨_, rfl, _⟩ <;> decide +kernel)
    (show wallet1.role? 4 = some role4 by decide +kernel) (by decide +kernel) (by simp [given]) (by simp [given]; rintro _ _ _ _ rfl rfl rfl rfl; decide) (by simp [given])
    (by decide +kernel) (by decide +kernel) (by decide +kernel) (by decide +kernel)
    (fun _ => ⟨by decide +kernel, sample_pays (by decide +kernel)⟩)
  refine ⟨m', l, h1, h2, h4 [] _ (given.drop 1) rfl (by decide) (by decide) (Or.inr (by simp)), fun hm => ?_⟩
  obtain ⟨p, hp, e⟩ := h3 _ hm
  revert p
  decide +kernel

end

end Verif
