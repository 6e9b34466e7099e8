import Verif.Spec.Evolve
import Verif.Proofs.Frame
import Verif.Proofs.SignOut

/-! Every request keeps a wallet on the abstract state machine of `Spec/Evolve.lean`. -/

namespace Verif

theorem Trace.append {a b c : Wallet} {ks ks' : List Kind} (h : Trace a ks b) (h' : Trace b ks' c) : Trace a (ks ++ ks') c := by
  induction h' with
  | nil => rw [List.append_nil]; exact h
  | snoc _ h2 ih => rw [← List.append_assoc]; exact .snoc ih h2

theorem Changes.refl {allow : Kind → Prop} {w : Wallet} : Changes allow w w := ⟨[], .nil, fun _ h => nomatch h⟩

theorem Changes.tail {allow : Kind → Prop} {w a b : Wallet} {kd : Kind} (h : Changes allow w a) (hk : allow kd) (hc : Change a kd b) :
    Changes allow w b := by
  obtain ⟨ks, h1, h2⟩ := h
  refine ⟨_, .snoc h1 hc, ?_⟩
  intro x hx
  rcases List.mem_append.mp hx with h | h
  · exact h2 x h
  · rw [List.mem_singleton.mp h]; exact hk

theorem Changes.induct {allow : Kind → Prop} {w w' : Wallet} {Q : Wallet → Prop} (h : Changes allow w w') (h0 : Q w)
    (hs : ∀ a kd b, Q a → allow kd → Change a kd b → Q b) : Q w' := by
  obtain ⟨ks, h1, h2⟩ := h
  induction h1 with
  | nil => exact h0
  | snoc _ hc ih =>
    exact hs _ _ _ (ih fun x hx => h2 x (List.mem_append_left _ hx)) (h2 _ (List.mem_append_right _ (List.mem_singleton.mpr rfl))) hc

theorem Changes.mono {allow allow' : Kind → Prop} {w w' : Wallet} (h : Changes allow w w') (hm : ∀ kd, allow kd → allow' kd) :
    Changes allow' w w' := by
  obtain ⟨ks, h1, h2⟩ := h
  exact ⟨ks, h1, fun x hx => hm x (h2 x hx)⟩

/-- Data of an account that was once the wallet `w0`: a successor of it, or closed. -/
def Hist (mig : Kind → Prop) (w0 : Wallet) (d : Bytes) : Prop := (∃ w, w.WF ∧ Changes mig w0 w ∧ d = w.encode) ∨ (mig .closed ∧ d = [255])

theorem Wallet.encode_head (w : Wallet) : w.encode.getD 0 0 = 1 := rfl

theorem Hist.notState {mig : Kind → Prop} {w0 : Wallet} (d : Bytes) (h : Hist mig w0 d) : d.getD 0 0 ≠ 2 := by
  rcases h with ⟨w, _, _, rfl⟩ | ⟨_, rfl⟩
  · rw [Wallet.encode_head]; decide
  · decide

theorem closed_open {d : Bytes} (h : d = [255]) {p : Parts} (e : openSwig d = .ok p) : False := by
  subst h; revert e; unfold openSwig; simp

section
variable {env : Env} {cpi : Cpi} {m m' : Mem} {k : Key} {mig : Kind → Prop}

theorem closed_openV2 {d : Bytes} (h : d = [255]) {p : Parts} (e : openSwigV2 d = .ok p) : False := by
  unfold openSwigV2 at e
  obtain ⟨_, _, e⟩ := bind_ok_iff.mp e
  obtain ⟨_, _, e⟩ := bind_ok_iff.mp e
  obtain ⟨_, _, e⟩ := bind_ok_iff.mp e
  obtain ⟨_, _, e⟩ := bind_ok_iff.mp e
  exact closed_open h e

theorem closed_scoped {metas : List Meta} {role perm id : Nat} {pl da : Bytes} {x : Parts × RoleView}
    (h : (m k).data = [255]) (e : actScoped env m metas k role perm id pl da = .ok x) : False := by
  unfold actScoped at e
  obtain ⟨_, h1, e⟩ := bind_ok_iff.mp e
  exact closed_openV2 h h1

/-- No request whose first account is a closed configuration account succeeds. -/
theorem process_closed {metas : List Meta} {ix : Bytes} (hk : FirstIs metas k) (ho : (m k).owner = swigId) (hd : (m k).data = [255])
    (e : process env cpi m metas ix = .ok m') : False := by
  obtain ⟨swig, rest0, rfl, rfl⟩ := hk
  unfold process at e
  obtain ⟨_, _, e1⟩ := bind_ok_iff.mp e
  clear e
  obtain ⟨cls, _, e⟩ := bind_ok_iff.mp e1
  clear e1
  unfold dispatch at e
  split at e
  · cases e
  split at e
  · unfold addAuthorityV1 at e; split at e
    · rename_i he; cases he
      obtain ⟨_, _, e⟩ := bind_ok_iff.mp e
      obtain ⟨_, _, e⟩ := bind_ok_iff.mp e
      obtain ⟨_, _, e⟩ := bind_ok_iff.mp e
      obtain ⟨_, _, e⟩ := bind_ok_iff.mp e
      obtain ⟨_, h1, _⟩ := bind_ok_iff.mp e
      exact closed_open hd h1
    · cases e
  · unfold removeAuthorityV1 at e; split at e
    · rename_i he; cases he
      obtain ⟨_, _, e⟩ := bind_ok_iff.mp e
      obtain ⟨_, _, e⟩ := bind_ok_iff.mp e
      obtain ⟨_, _, e⟩ := bind_ok_iff.mp e
      obtain ⟨_, _, e⟩ := bind_ok_iff.mp e
      obtain ⟨_, h1, _⟩ := bind_ok_iff.mp e
      exact closed_open hd h1
    · cases e
  · unfold updateAuthorityV1 at e; split at e
    · rename_i he; cases he
      obtain ⟨_, _, e⟩ := bind_ok_iff.mp e
      obtain ⟨_, _, e⟩ := bind_ok_iff.mp e
      obtain ⟨_, _, e⟩ := bind_ok_iff.mp e
      obtain ⟨_, h1, _⟩ := bind_ok_iff.mp e
      exact closed_open hd h1
    · cases e
  · cases e
  · unfold createSessionV1 at e; split at e
    · rename_i he; cases he
      obtain ⟨_, _, e⟩ := bind_ok_iff.mp e
      obtain ⟨_, _, e⟩ := bind_ok_iff.mp e
      obtain ⟨_, h1, _⟩ := bind_ok_iff.mp e
      exact closed_open hd (openSwigU_ok h1)
    · cases e
  · unfold createSubV1 at e; split at e
    · rename_i he; cases he
      obtain ⟨_, _, e⟩ := bind_ok_iff.mp e
      obtain ⟨_, _, e⟩ := bind_ok_iff.mp e
      obtain ⟨_, _, e⟩ := bind_ok_iff.mp e
      obtain ⟨_, h1, _⟩ := bind_ok_iff.mp e
      exact closed_open hd (openSwigU_ok h1)
    · cases e
  · unfold withdrawSubV1 at e; split at e
    · rename_i he; cases he
      obtain ⟨_, _, e⟩ := bind_ok_iff.mp e
      obtain ⟨_, _, e⟩ := bind_ok_iff.mp e
      obtain ⟨_, _, e⟩ := bind_ok_iff.mp e
      obtain ⟨_, _, e⟩ := bind_ok_iff.mp e
      obtain ⟨_, h1, _⟩ := bind_ok_iff.mp e
      exact closed_open hd h1
    · cases e
  · unfold subSignV1 at e; split at e
    · rename_i he; cases he
      obtain ⟨_, _, e⟩ := bind_ok_iff.mp e
      obtain ⟨_, _, e⟩ := bind_ok_iff.mp e
      obtain ⟨_, _, e⟩ := bind_ok_iff.mp e
      obtain ⟨_, _, e⟩ := bind_ok_iff.mp e
      obtain ⟨_, h1, _⟩ := bind_ok_iff.mp e
      exact closed_open hd (openSwigU_ok h1)
    · cases e
  · unfold toggleSubV1 at e; split at e
    · rename_i he; cases he
      obtain ⟨_, _, e⟩ := bind_ok_iff.mp e
      obtain ⟨_, _, e⟩ := bind_ok_iff.mp e
      obtain ⟨_, _, e⟩ := bind_ok_iff.mp e
      obtain ⟨_, _, e⟩ := bind_ok_iff.mp e
      obtain ⟨_, h1, _⟩ := bind_ok_iff.mp e
      exact closed_open hd (openSwigU_ok h1)
    · cases e
  · unfold signV2 at e; split at e
    · rename_i he; cases he
      obtain ⟨_, _, e⟩ := bind_ok_iff.mp e
      obtain ⟨_, _, e⟩ := bind_ok_iff.mp e
      obtain ⟨_, _, e⟩ := bind_ok_iff.mp e
      obtain ⟨_, _, e⟩ := bind_ok_iff.mp e
      obtain ⟨_, h1, _⟩ := bind_ok_iff.mp e
      exact closed_open hd h1
    · cases e
  · unfold migrateV1 at e; split at e
    · rename_i he; cases he
      obtain ⟨_, _, e⟩ := bind_ok_iff.mp e
      obtain ⟨_, h1, _⟩ := bind_ok_iff.mp e
      have := require_ok_iff.mp h1
      rw [hd] at this
      revert this; decide
    · cases e
  · unfold transferAssetsV1 at e; split at e
    · rename_i he; cases he
      obtain ⟨_, _, e⟩ := bind_ok_iff.mp e
      obtain ⟨_, _, e⟩ := bind_ok_iff.mp e
      obtain ⟨_, h1, _⟩ := bind_ok_iff.mp e
      exact closed_open hd h1
    · cases e
  · unfold closeTokenV1 at e; split at e
    · rename_i he; cases he
      obtain ⟨_, _, e⟩ := bind_ok_iff.mp e
      obtain ⟨_, _, e⟩ := bind_ok_iff.mp e
      obtain ⟨_, h1, _⟩ := bind_ok_iff.mp e
      have := require_ok_iff.mp h1
      rw [hd] at this
      revert this; decide
    · cases e
  · unfold closeSwigV1 at e; split at e
    · rename_i he; cases he
      obtain ⟨_, _, e⟩ := bind_ok_iff.mp e
      obtain ⟨_, _, e⟩ := bind_ok_iff.mp e
      obtain ⟨_, _, e⟩ := bind_ok_iff.mp e
      obtain ⟨_, h1, _⟩ := bind_ok_iff.mp e
      exact closed_open hd h1
    · cases e
  · simp only [replaceAuthorityV1] at e
    obtain ⟨_, _, e⟩ := bind_ok_iff.mp e
    obtain ⟨_, _, e⟩ := bind_ok_iff.mp e
    obtain ⟨_, h1, _⟩ := bind_ok_iff.mp e
    exact closed_open hd h1
  · unfold setRentClaimerV1 at e; split at e
    · rename_i he; cases he
      obtain ⟨_, _, e⟩ := bind_ok_iff.mp e
      obtain ⟨_, _, e⟩ := bind_ok_iff.mp e
      obtain ⟨_, _, e⟩ := bind_ok_iff.mp e
      obtain ⟨_, _, e⟩ := bind_ok_iff.mp e
      obtain ⟨_, _, e⟩ := bind_ok_iff.mp e
      obtain ⟨_, h1, _⟩ := bind_ok_iff.mp e
      exact closed_open hd h1
    · cases e
  · unfold createSubV2 at e; split at e
    · rename_i he; cases he
      obtain ⟨_, _, e⟩ := bind_ok_iff.mp e
      obtain ⟨_, _, e⟩ := bind_ok_iff.mp e
      obtain ⟨_, _, e⟩ := bind_ok_iff.mp e
      obtain ⟨_, _, e⟩ := bind_ok_iff.mp e
      obtain ⟨_, _, e⟩ := bind_ok_iff.mp e
      obtain ⟨_, _, e⟩ := bind_ok_iff.mp e
      obtain ⟨_, h1, _⟩ := bind_ok_iff.mp e
      unfold drawSubId at h1
      obtain ⟨_, h1, _⟩ := bind_ok_iff.mp h1
      exact closed_openV2 hd h1
    · cases e
  · unfold toggleSubV2 at e; split at e
    · rename_i he; cases he
      obtain ⟨_, _, e⟩ := bind_ok_iff.mp e
      obtain ⟨_, _, e⟩ := bind_ok_iff.mp e
      obtain ⟨_, _, e⟩ := bind_ok_iff.mp e
      obtain ⟨_, _, e⟩ := bind_ok_iff.mp e
      obtain ⟨_, h1, _⟩ := bind_ok_iff.mp e
      exact closed_scoped hd h1
    · cases e
  · unfold subSignV2 at e; split at e
    · rename_i he; cases he
      obtain ⟨_, _, e⟩ := bind_ok_iff.mp e
      obtain ⟨_, _, e⟩ := bind_ok_iff.mp e
      obtain ⟨_, _, e⟩ := bind_ok_iff.mp e
      obtain ⟨_, _, e⟩ := bind_ok_iff.mp e
      obtain ⟨_, h1, _⟩ := bind_ok_iff.mp e
      exact closed_scoped hd h1
    · cases e
  · unfold withdrawSubV2 at e; split at e
    · rename_i he; cases he
      obtain ⟨_, _, e⟩ := bind_ok_iff.mp e
      obtain ⟨_, _, e⟩ := bind_ok_iff.mp e
      obtain ⟨_, _, e⟩ := bind_ok_iff.mp e
      obtain ⟨_, _, e⟩ := bind_ok_iff.mp e
      obtain ⟨_, h1, _⟩ := bind_ok_iff.mp e
      exact closed_scoped hd h1
    · cases e
  · unfold createV1 at e; split at e
    · rename_i he; cases he
      obtain ⟨_, h0, _⟩ := bind_ok_iff.mp e
      unfold createChecks at h0
      obtain ⟨_, h0, _⟩ := bind_ok_iff.mp h0
      have := require_ok_iff.mp h0
      rw [ho] at this
      revert this; decide
    · cases e

theorem used_setAuth_same (w : Wallet) (id : Nat) (x : Bytes) : (w.used id).setAuth id x = w.setAuth id x := by
  unfold Wallet.used Wallet.setAuth Wallet.mapRole
  simp only [List.map_map, Wallet.mk.injEq, true_and, and_true]
  apply List.map_congr_left
  intro r _
  by_cases h : r.id = id <;> simp [h]

theorem own_changed {w0 w' : Wallet} (hw : w'.WF) (h : Changes mig w0 w') (hd : (m' k).data = w'.encode) (ho : (m' k).owner = swigId) :
    Has k (Hist mig w0) m' := ⟨ho, .inl ⟨w', hw, h, hd⟩⟩

theorem own_used {w0 w : Wallet} (hw : w.WF) {id : Nat} (h : Changes mig w0 (w.used id)) (ho : (m k).owner = swigId) :
    Has k (Hist mig w0) (m.setData k (w.used id).encode) :=
  own_changed (Wallet.used_wf hw id) h (by simp) (by simpa using ho)

theorem role?_used {w : Wallet} {id : Nat} {r : Role} (h : w.role? id = some r) :
    (w.used id).role? id = some { r with auth := usedCred r.authType r.auth } := by
  rw [Wallet.used_find, h]
  simp [(role?_mem h).2]

theorem All2.map_ty {as bs : List Act} (h : All2 Act.Charged as bs) : bs.map Act.ty = as.map Act.ty := by
  induction h with
  | nil => rfl
  | cons h _ ih => rw [List.map_cons, List.map_cons, h.1, ih]

theorem parseAdd_acting {ix : Bytes} {a : AddIx} (h : parseAdd ix = .ok a) : a.acting = rd ix 12 4 := by
  unfold parseAdd at h
  split at h
  · cases h
  · dsimp only at h
    split at h
    · cases h
    · cases h; rfl

theorem parseRemove_roles {ix : Bytes} {a : RemoveIx} (h : parseRemove ix = .ok a) : a.acting = rd ix 8 4 ∧ a.target = rd ix 12 4 := by
  unfold parseRemove at h
  split at h
  · cases h
  · cases h; exact ⟨rfl, rfl⟩

theorem parseUpdate_roles {ix : Bytes} {a : UpdateIx} (h : parseUpdate ix = .ok a) : a.acting = rd ix 8 4 ∧ a.target = rd ix 12 4 := by
  unfold parseUpdate at h
  split at h
  · cases h
  · dsimp only at h
    split at h
    · cases h
    · obtain ⟨_, _, h⟩ := bind_ok_iff.mp h
      cases h; exact ⟨rfl, rfl⟩

theorem parseSession_role {ix : Bytes} {a : SessionIx} (h : parseSession ix = .ok a) : a.role = rd ix 4 4 := by
  unfold parseSession at h
  split at h
  · cases h
  · cases h; rfl

theorem parseClaimer_role {ix : Bytes} {a : ClaimerIx} (h : parseClaimer ix = .ok a) : a.role = rd ix 4 4 := by
  unfold parseClaimer at h
  split at h
  · cases h
  · cases h; rfl

theorem parseReplace_roles {ix : Bytes} {a : ReplaceIx} (h : parseReplace ix = .ok a) : a.acting = rd ix 4 4 ∧ a.target = rd ix 8 4 := by
  unfold parseReplace at h
  split at h
  · cases h
  · dsimp only at h
    repeat' split at h
    all_goals cases h
    all_goals exact ⟨rfl, rfl⟩

theorem parseRoleIx_role {ix : Bytes} {er : Err} {a : RoleIx} (h : parseRoleIx ix er = .ok a) : a.role = rd ix 4 4 := by
  unfold parseRoleIx at h
  split at h
  · cases h
  · cases h; rfl

theorem parseSubSign_role {ix : Bytes} {a : SubSignIx} (h : parseSubSign ix = .ok a) : a.role = rd ix 4 4 := by
  unfold parseSubSign at h
  split at h
  · cases h
  · dsimp only at h
    split at h
    · cases h
    · cases h; rfl

theorem parseSubSignV2_role {ix : Bytes} {a : SubSignV2Ix} (h : parseSubSignV2 ix = .ok a) : a.role = rd ix 4 4 := by
  unfold parseSubSignV2 at h
  split at h
  · cases h
  · dsimp only at h
    split at h
    · cases h
    · cases h; rfl

/-- Changes other than the use of a credential. -/
def Kind.beside : Kind → Bool
  | .used _ => false
  | _ => true

/-- A request for the wallet itself. -/
theorem process_own' {w0 w : Wallet} {swig : Meta} {rest0 : List Meta} {ix : Bytes} (ho : (m swig.key).owner = swigId) (hw : w.WF)
    (hd : (m swig.key).data = w.encode) (hl : rd ix 0 2 = 5 ∨ (rd ix 0 2 = 16 ∧ rd ix 8 4 = actingRole ix) → Changes mig w0 w)
    (hu' : rd ix 0 2 ≠ 5 → ¬ (rd ix 0 2 = 16 ∧ rd ix 8 4 = actingRole ix) → Changes mig w0 (w.used (actingRole ix)))
    (hm : ∀ kd, kd.beside = true → Does ix kd → mig kd) (hf : Fine env cpi m (swig :: rest0) ix)
    (hc : ∀ a ix b, Has swig.key (Hist mig w0) a → cpi a ix = .ok b → Has swig.key (Hist mig w0) b)
    (e : process env cpi m (swig :: rest0) ix = .ok m') : Has swig.key (Hist mig w0) m' := by
  have he := e
  obtain ⟨hcount, hctr⟩ := hf.room _ _ _ rfl ⟨ho, hw, hd⟩
  have hrt := hf.runtime _ _ rfl
  have hu : rd ix 0 2 ≠ 5 ∧ rd ix 0 2 ≠ 16 → ∀ id, id = actingRole ix → Changes mig w0 (w.used id) := by
    rintro ⟨h5, h16⟩ id rfl
    exact hu' h5 fun h => h16 h.1
  unfold process at e
  obtain ⟨_, _, e1⟩ := bind_ok_iff.mp e
  clear e
  obtain ⟨cls, _, e⟩ := bind_ok_iff.mp e1
  clear e1
  unfold dispatch at e
  split at e
  · cases e
  split at e
  · rename_i hix
    match rest0, hrt, hf, e with
    | payer :: sys :: rest, hrt, hf, e =>
      obtain ⟨a, _, cred, as, hp, _, _, _, _, _, _, _, _, h1, h2, h3⟩ := addAuthorityV1_enc hw hd hcount hctr e
      exact own_changed h2 (.tail (hu ⟨by omega, by omega⟩ _ (by rw [parseAdd_acting hp]; simp [actingRole, hix])) (hm .added rfl hix) (.added _ _ _)) h1 (by rw [(h3 _).1]; exact ho)
    | [_], _, _, e => cases e
    | [], _, _, e => cases e
  · rename_i hix
    match rest0, hrt, hf, e with
    | payer :: sys :: rest, hrt, hf, e =>
      obtain ⟨a, _, _, hp, h0, _, _, _, h1, h2, h3, _⟩ := removeAuthorityV1_enc hw hd e
      exact own_changed h2 (.tail (hu ⟨by omega, by omega⟩ _ (by rw [(parseRemove_roles hp).1]; simp [actingRole, hix]))
        (hm (.removed _) rfl ⟨hix, (parseRemove_roles hp).2⟩) (.removed _ h0)) h1 (by rw [(h3 _).1]; exact ho)
    | [_], _, _, e => cases e
    | [], _, _, e => cases e
  · rename_i hix
    match rest0, hrt, hf, e with
    | payer :: sys :: rest, hrt, hf, e =>
      obtain ⟨a, _, _, as, hp, _, _, _, _, _, _, _, _, h1, h2, h3⟩ := updateAuthorityV1_enc hw hd e
      exact own_changed h2 (.tail (hu ⟨by omega, by omega⟩ _ (by rw [(parseUpdate_roles hp).1]; simp [actingRole, hix]))
        (hm (.updated _) rfl ⟨hix, (parseUpdate_roles hp).2⟩) (.updated _ _)) h1 (by rw [(h3 _).1]; exact ho)
    | [_], _, _, e => cases e
    | [], _, _, e => cases e
  · cases e
  · rename_i hix
    match rest0, hrt, hf, e with
    | payer :: sys :: rest, hrt, hf, e =>
      obtain ⟨a, r, auth, s, hp, g1, g2, g3, g4, g5, _, _, h1, h2, h3⟩ := createSessionV1_enc hw hd e
      refine own_changed h2 (.tail (hl (.inl hix)) (hm (.session _) rfl ⟨hix, by rw [parseSession_role hp]; simp [actingRole, hix]⟩)
        (.session _ r auth s _ g1 g2 g4 g3 g5 ?_)) h1 (by rw [h3]; simpa using ho)
      rfl
    | [_], _, _, e => cases e
    | [], _, _, e => cases e
  · rename_i hix
    match rest0, hrt, hf, e with
    | payer :: sub :: sys :: rest, hrt, hf, e =>
      obtain ⟨r, ab, a, aa, hr, g1, g2, _, _, _, _, h1, h2, h3⟩ := createSubV1_enc hw hd (hrt.keys sub (by simp)) e
      have hac : rd ix 4 4 = actingRole ix := by simp [actingRole, hix]
      exact own_changed h2 (.tail (hu ⟨by omega, by omega⟩ _ hac) (hm (.v1Sub _) rfl (.inl ⟨hix, hac⟩)) (.v1Sub _ _ ab a _ aa (role?_used hr.1) g1 g2 g2)) h1 (by rw [(h3 _).1]; exact ho)
    | [_, _], _, _, e => cases e
    | [_], _, _, e => cases e
    | [], _, _, e => cases e
  · rename_i hix
    match rest0, hrt, hf, e with
    | auth :: sub :: x3 :: wallet :: x5 :: rest, hrt, hf, e =>
      obtain ⟨r, s, role, bump, b, _, _, _, _, _, _, _, h1⟩ := withdrawSubV1_enc hw hd (hrt.keys sub (by simp)) e
      have h := own_used (m := m) hw (hu ⟨by omega, by omega⟩ (rd ix 4 4) (by simp [actingRole, hix])) ho
      split at h1
      · exact Has.withdrawTokenV1 hc h h1
      · exact h.withdrawSol h1
    | [_, _, _, _], _, _, e => cases e
    | [_, _, _], _, _, e => cases e
    | [_, _], _, _, e => cases e
    | [_], _, _, e => cases e
    | [], _, _, e => cases e
  · rename_i hix
    match rest0, hrt, hf, e with
    | sub :: sys :: rest, hrt, hf, e =>
      obtain ⟨q, r, a, ixs, m1, hp, _, _, _, _, _, _, _, _, h1, h2⟩ := subSignV1_enc hw hd (hrt.keys sub (by simp)) e
      exact Has.checkRent (Has.execAll hc (own_used hw (hu ⟨by omega, by omega⟩ _ (by rw [parseSubSign_role hp]; simp [actingRole, hix])) ho) h1) h2
    | [_], _, _, e => cases e
    | [], _, _, e => cases e
  · rename_i hix
    match rest0, hrt, hf, e with
    | payer :: sub :: rest, hrt, hf, e =>
      obtain ⟨r, t, ab, a, aa, _, _, g0, g1, g2, _, _, _, h2, h3⟩ := toggleSubV1_enc hw hd (hrt.keys sub (by simp)) e
      exact own_changed h2 (.tail (hu ⟨by omega, by omega⟩ _ (by simp [actingRole, hix])) (hm (.v1Sub _) rfl (.inr ⟨hix, rfl⟩))
        (.v1Sub _ _ ab a _ aa g0 g1 g2 g2)) (by rw [h3]; simp) (by rw [h3]; simpa using ho)
    | [_], _, _, e => cases e
    | [], _, _, e => cases e
  · rename_i hix
    match rest0, hrt, hf, he, e with
    | wallet :: x3 :: rest, hrt, hf, he, e =>
      obtain ⟨a, r, before, after, ixs, h1, h2, h3, h4, h5, h6, h7, h8⟩ := signV2_enc hw hd e
      by_cases hres : Restricted r
      · have hr : w.role? (rd ix 4 4) = some r := by
          have := h5.1
          rwa [(parseSign_ok h1).1] at this
        obtain ⟨ixs', m1, g1, g2⟩ := RestrictedSign.out ⟨hw, hd, hix, hr, hres, hrt, he⟩
        rcases g2 with g2 | ⟨x, cls', hs, total, acc, as', g2⟩
        · exact (hf.noCollision _ _ _ _ _ _ rfl hix ⟨ho, hw, hd⟩ g1 g2).elim
        · have hac : rd ix 4 4 = actingRole ix := by simp [actingRole, hix]
          have hown := Has.execAll hc (own_used (m := m) hw (hu ⟨by omega, by omega⟩ _ hac) ho) g1.2
          exact own_changed g2.stored.1 (.tail (hu ⟨by omega, by omega⟩ _ hac) (hm (.charged _) rfl ⟨hix, hac⟩)
            (.charged _ _ _ (role?_used hr) g2.charged.map_ty)) g2.stored.2.1 (by rw [g2.own]; exact hown.1)
      · rcases signWith_ok h7 (by simp) h8 with ⟨_, g⟩ | ⟨g, _⟩
        · exact Has.execAll hc (own_used hw (hu ⟨by omega, by omega⟩ _ (by rw [(parseSign_ok h1).1]; simp [actingRole, hix])) ho) g
        · exact (hres g).elim
    | [_], _, _, _, e => cases e
    | [], _, _, _, e => cases e
  · rename_i hix
    match rest0, hrt, hf, e with
    | auth :: payer :: wallet :: sys :: rest, hrt, hf, e =>
      obtain ⟨a, r, hp, _, _, _, h1, h3⟩ := migrateV1_enc hw hd e
      exact own_changed (Wallet.migrated_wf (Wallet.used_wf hw _) _) (.tail (hu ⟨by omega, by omega⟩ _ (by rw [parseRoleIx_role hp]; simp [actingRole, hix]))
        (hm .migrated rfl hix) (.migrated _)) h1 (by rw [(h3 _).1]; exact ho)
    | [_, _, _], _, _, e => cases e
    | [_, _], _, _, e => cases e
    | [_], _, _, e => cases e
    | [], _, _, e => cases e
  · rename_i hix
    match rest0, hrt, hf, e with
    | wallet :: payer :: sys :: rest, hrt, hf, e =>
      obtain ⟨a, r, hp, _, _, _, _, _, h1⟩ := transferAssetsV1_enc hw hd e
      have hown := own_used (m := m) hw (hu ⟨by omega, by omega⟩ a.role (by rw [parseRoleIx_role hp]; simp [actingRole, hix])) ho
      refine Has.transferTokensGo hc _ (Nat.le_refl _) ?_ h1
      unfold transferSol
      dsimp only
      split
      · exact (hown.setLamports _ _).setLamports _ _
      · exact hown
    | [_, _], _, _, e => cases e
    | [_], _, _, e => cases e
    | [], _, _, e => cases e
  · rename_i hix
    match rest0, hrt, hf, e with
    | wallet :: dst :: prog :: rest, hrt, hf, e =>
      obtain ⟨a, r, b, hp, _, _, _, _, _, h1⟩ := closeTokenV1_enc hw hd e
      exact Has.closeTokensGo hc (own_used hw (hu ⟨by omega, by omega⟩ _ (by rw [parseRoleIx_role hp]; simp [actingRole, hix])) ho) h1
    | [_, _], _, _, e => cases e
    | [_], _, _, e => cases e
    | [], _, _, e => cases e
  · rename_i hix
    match rest0, hrt, hf, e with
    | wallet :: dst :: sys :: rest, hrt, hf, e =>
      obtain ⟨a, r, m1, b, hp, _, _, _, _, _, _, _, h1, h2⟩ := closeSwigV1_enc hw hd e
      have hown := own_used (m := m) hw (hu ⟨by omega, by omega⟩ a.role (by rw [parseRoleIx_role hp]; simp [actingRole, hix])) ho
      have h : Has swig.key (Hist mig w0) m1 := by
        unfold drainWallet at h1
        split at h1
        · exact hown.signedTransfer h1
        · cases h1; exact hown
      refine ⟨?_, .inr ⟨hm .closed rfl hix, by rw [h2]; simp⟩⟩
      rw [h2, Mem.setData_owner]
      unfold closeLamports
      simpa using h.1
    | [_, _], _, _, e => cases e
    | [_], _, _, e => cases e
    | [], _, _, e => cases e
  · rename_i hix
    obtain ⟨a, r, t, auth, key, hp, _, _, g1, g2, g3, g4, _, g6, _, h1, h2, h3⟩ := replaceAuthorityV1_enc hw hd e
    have hac : a.acting = actingRole ix := by rw [(parseReplace_roles hp).1]; simp [actingRole, hix]
    have htg := (parseReplace_roles hp).2
    have hdo : mig (.replaced a.target) := hm (.replaced _) rfl ⟨hix, htg⟩
    by_cases hat : a.acting = a.target
    · rw [hat, used_setAuth_same] at h1 h2
      refine own_changed h2 ((hl (.inr ⟨hix, ?_⟩)).tail hdo (.replaced _ t auth key g1 g2 g4 g3 g6)) h1 (by rw [h3]; simpa using ho)
      rw [← htg, ← hat, hac]
    · have ht : (w.used a.acting).role? a.target = some t := by
        rw [Wallet.used_find, g1]
        simp [(role?_mem g1).2, Ne.symm hat]
      have hu2 : Changes mig w0 (w.used a.acting) := by
        rw [hac]
        exact hu' (by omega) fun h => hat (by rw [hac, htg, h.2])
      exact own_changed h2 (hu2.tail hdo (.replaced _ t auth key ht g2 g4 g3 g6)) h1 (by rw [h3]; simpa using ho)
  · rename_i hix
    match rest0, hrt, hf, e with
    | payer :: sys :: rest, hrt, hf, e =>
      obtain ⟨a, r, _, hp, _, _, _, _, _, _, hn, h1, h2, h3⟩ := setRentClaimerV1_enc hw hd e
      exact own_changed h2 (.tail (hu ⟨by omega, by omega⟩ _ (by rw [parseClaimer_role hp]; simp [actingRole, hix])) (hm .claimed rfl hix) (.claimed _ hn)) h1 (by rw [(h3 _).1]; exact ho)
    | [_], _, _, e => cases e
    | [], _, _, e => cases e
  · rename_i hix
    match rest0, hrt, hf, e with
    | payer :: state :: sub :: sys :: rest, hrt, hf, e =>
      obtain ⟨r, hr, _, _, hctr2, _, _, _, _, _, h1, h2, h3, _⟩ := createSubV2_enc hw hd e
      have hac : rd ix 4 4 = actingRole ix := by simp [actingRole, hix]
      have hdr : Changes mig w0 (w.used (rd ix 4 4)).drawn := .tail (hu ⟨by omega, by omega⟩ _ hac) (hm .issued rfl hix) .issued
      have hrole : (w.used (rd ix 4 4)).drawn.role? (rd ix 4 4) = some { r with auth := usedCred r.authType r.auth } := role?_used hr.1
      refine own_changed h2 ?_ h1 h3
      unfold Role.withAll
      split
      · rename_i hsc
        have hs : (w.used (rd ix 4 4)).drawn.setActions (rd ix 4 4) r.actions = (w.used (rd ix 4 4)).drawn := by
          exact setActions_self (r := { r with auth := usedCred r.authType r.auth }) (Wallet.drawn_wf (Wallet.used_wf hw _) hctr2) hrole
        rw [hs]; exact hdr
      · exact hdr.tail (hm (.granted _) rfl ⟨hix, hac⟩) (.granted _ { r with auth := usedCred r.authType r.auth } _ hrole rfl)
    | [_, _, _], _, _, e => cases e
    | [_, _], _, _, e => cases e
    | [_], _, _, e => cases e
    | [], _, _, e => cases e
  · rename_i hix
    match rest0, hrt, hf, e with
    | auth :: state :: rest, hrt, hf, e =>
      obtain ⟨r, _, _, hne, _, _, _, _, _, _, _, _, h1⟩ := toggleSubV2_enc hw hd e
      rw [h1]
      exact (own_used hw (hu ⟨by omega, by omega⟩ _ (by simp [actingRole, hix])) ho).setData (Ne.symm hne) _
    | [_], _, _, e => cases e
    | [], _, _, e => cases e
  · rename_i hix
    match rest0, hrt, hf, e with
    | state :: sub :: sys :: rest, hrt, hf, e =>
      obtain ⟨a, r, ixs, m1, hp, _, _, _, _, _, _, _, _, _, h1, h2⟩ := subSignV2_enc hw hd e
      exact Has.checkRent (Has.execAll hc (own_used hw (hu ⟨by omega, by omega⟩ _ (by rw [parseSubSignV2_role hp]; simp [actingRole, hix])) ho) h1) h2
    | [_, _], _, _, e => cases e
    | [_], _, _, e => cases e
    | [], _, _, e => cases e
  · rename_i hix
    match rest0, hrt, hf, e with
    | auth :: state :: sub :: wallet :: x6 :: x7 :: rest, hrt, hf, e =>
      obtain ⟨r, _, _, _, _, _, _, _, _, _, h1⟩ := withdrawSubV2_enc hw hd e
      have h := own_used (m := m) hw (hu ⟨by omega, by omega⟩ (rd ix 4 4) (by simp [actingRole, hix])) ho
      unfold withdrawV2 at h1
      split at h1
      · obtain ⟨_, _, h1⟩ := bind_ok_iff.mp h1
        obtain ⟨_, _, h1⟩ := bind_ok_iff.mp h1
        obtain ⟨_, _, h1⟩ := bind_ok_iff.mp h1
        obtain ⟨_, _, h1⟩ := bind_ok_iff.mp h1
        exact Has.invokeSigned hc h h1
      · split at h1
        · exact h.withdrawSol h1
        · cases h1
    | [_, _, _, _, _], _, _, e => cases e
    | [_, _, _, _], _, _, e => cases e
    | [_, _, _], _, _, e => cases e
    | [_, _], _, _, e => cases e
    | [_], _, _, e => cases e
    | [], _, _, e => cases e
  · rename_i hix
    match rest0, hrt, hf, e with
    | payer :: wallet :: sys :: rest, hrt, hf, e =>
      obtain ⟨_, h0, _⟩ := bind_ok_iff.mp e
      unfold createChecks at h0
      obtain ⟨_, h0, _⟩ := bind_ok_iff.mp h0
      have := require_ok_iff.mp h0
      rw [ho] at this
      exact absurd this (by decide)
    | [_, _], _, _, e => cases e
    | [_], _, _, e => cases e
    | [], _, _, e => cases e

/-- The same when the use of the credential is among the changes followed. -/
theorem process_own {w0 w : Wallet} {swig : Meta} {rest0 : List Meta} {ix : Bytes} (ho : (m swig.key).owner = swigId) (hw : w.WF)
    (hd : (m swig.key).data = w.encode) (hl : rd ix 0 2 = 5 ∨ (rd ix 0 2 = 16 ∧ rd ix 8 4 = actingRole ix) → Changes mig w0 w)
    (hu' : rd ix 0 2 ≠ 5 → ¬ (rd ix 0 2 = 16 ∧ rd ix 8 4 = actingRole ix) → Changes mig w0 (w.used (actingRole ix)))
    (hm : ∀ kd, Does ix kd → mig kd) (hf : Fine env cpi m (swig :: rest0) ix)
    (hc : ∀ a ix b, Has swig.key (Hist mig w0) a → cpi a ix = .ok b → Has swig.key (Hist mig w0) b)
    (e : process env cpi m (swig :: rest0) ix = .ok m') : Has swig.key (Hist mig w0) m' :=
  process_own' ho hw hd hl hu' (fun kd _ => hm kd) hf hc e

/-- Every history keeps the account on the state machine. -/
theorem steps_hist {ok : Bytes → Prop} {w0 : Wallet} (hm : ∀ ix, ok ix → ∀ kd, Does ix kd → mig kd) (h : Steps ok k m m') :
    Has k (Hist mig w0) m → Has k (Hist mig w0) m' := by
  induction h with
  | refl m => exact id
  | trans _ _ i1 i2 => exact fun h => i2 (i1 h)
  | outside h1 h2 => exact fun h => h.congr ⟨h1, h2⟩
  | @request env cpi m m' metas ix _ hok hf e hc =>
    intro h
    by_cases hk : FirstIs metas k
    · obtain ⟨swig, rest, rfl, rfl⟩ := hk
      rcases h.2 with ⟨w, hw, hl, hd⟩ | ⟨_, hd⟩
      · exact process_own h.1 hw hd (fun _ => hl) (fun h5 _ => hl.tail (hm _ hok (.used _) ⟨h5, rfl⟩) (.used _)) (hm _ hok) hf (fun a ix b ha hb => hc a ix b ha.1 hb ha) e
      · exact (process_closed ⟨swig, rest, rfl, rfl⟩ h.1 hd e).elim
    · exact process_frame (fun a ix b ha hb => hc a ix b ha.1 hb ha) Hist.notState hk h e

/-- A closed account stays closed. -/
theorem steps_closed {ok : Bytes → Prop} (h : Steps ok k m m') : IsClosed m k → IsClosed m' k := by
  suffices hh : Has k (· = [255]) m → Has k (· = [255]) m' from fun g => let r := hh ⟨g.owner, g.data⟩; ⟨r.1, r.2⟩
  induction h with
  | refl m => exact id
  | trans _ _ i1 i2 => exact fun h => i2 (i1 h)
  | outside h1 h2 => exact fun h => h.congr ⟨h1, h2⟩
  | @request env cpi m m' metas ix _ hok hf e hc =>
    intro h
    by_cases hk : FirstIs metas k
    · exact (process_closed hk h.1 h.2 e).elim
    · exact process_frame (fun a ix b ha hb => hc a ix b ha.1 hb ha) (by rintro _ rfl; decide) hk h e

/-! ## Reading a wallet back -/

theorem append_inj_len {α : Type} {a b c d : List α} (hl : a.length = c.length) (h : a ++ b = c ++ d) : a = c ∧ b = d :=
  List.append_inj h hl

theorem encAct_inj {n n' : Nat} {a b : Act} {x y : Bytes} (ha : a.WF) (hb : b.WF) (h : encAct n a ++ x = encAct n' b ++ y) :
    a = b ∧ x = y := by
  unfold encAct at h
  simp only [List.append_assoc] at h
  obtain ⟨h1, h⟩ := append_inj_len (by simp) h
  obtain ⟨h2, h⟩ := append_inj_len (by simp) h
  obtain ⟨_, h⟩ := append_inj_len (by simp) h
  obtain ⟨a1, _, a2⟩ := ha.bounds
  obtain ⟨b1, _, b2⟩ := hb.bounds
  have e1 := natLE_inj (k := 2) (by omega) (by omega) h1
  have e2 := natLE_inj (k := 2) (by omega) (by omega) h2
  obtain ⟨e3, e4⟩ := append_inj_len e2 h
  refine ⟨?_, e4⟩
  cases a; cases b
  simp_all

theorem encActs_inj : ∀ {as bs : List Act} {n n' : Nat} {x y : Bytes}, (∀ a ∈ as, a.WF) → (∀ a ∈ bs, a.WF) → as.length = bs.length →
    encActs n as ++ x = encActs n' bs ++ y → as = bs ∧ x = y := by
  intro as
  induction as with
  | nil =>
    intro bs n n' x y _ _ hl h
    cases bs with
    | nil => exact ⟨rfl, by simpa [encActs] using h⟩
    | cons _ _ => simp at hl
  | cons a as ih =>
    intro bs n n' x y ha hb hl h
    cases bs with
    | nil => simp at hl
    | cons b bs =>
      simp only [encActs, List.append_assoc] at h
      obtain ⟨rfl, h'⟩ := encAct_inj (ha a (by simp)) (hb b (by simp)) h
      obtain ⟨rfl, h2⟩ := ih (fun a h => ha a (by simp [h])) (fun a h => hb a (by simp [h])) (by simpa using hl) h'
      exact ⟨rfl, h2⟩

theorem encRole_inj {n n' : Nat} {r s : Role} {x y : Bytes} (hr : r.WF) (hs : s.WF) (ir : r.id < 2 ^ 32) (is : s.id < 2 ^ 32)
    (h : encRole n r ++ x = encRole n' s ++ y) : r = s ∧ x = y := by
  unfold encRole encPos at h
  simp only [List.append_assoc] at h
  obtain ⟨h1, h⟩ := append_inj_len (by simp) h
  obtain ⟨h2, h⟩ := append_inj_len (by simp) h
  obtain ⟨h3, h⟩ := append_inj_len (by simp) h
  obtain ⟨_, h⟩ := append_inj_len (by simp) h
  obtain ⟨h4, h⟩ := append_inj_len (by simp) h
  obtain ⟨_, h⟩ := append_inj_len (by simp) h
  obtain ⟨r1, _, r2, _⟩ := authLen_lt hr.auth
  obtain ⟨s1, _, s2, _⟩ := authLen_lt hs.auth
  have e1 := natLE_inj (k := 2) (by omega) (by omega) h1
  have e2 := natLE_inj (k := 2) (by omega) (by omega) h2
  have e3 := natLE_inj (k := 2) (by have := hr.atMost; omega) (by have := hs.atMost; omega) h3
  have e4 := natLE_inj (k := 4) (by omega) (by omega) h4
  obtain ⟨e5, h⟩ := append_inj_len e2 h
  obtain ⟨e6, h⟩ := encActs_inj hr.acts hs.acts e3 h
  refine ⟨?_, h⟩
  cases r; cases s
  simp_all

theorem encRoles_inj : ∀ {rs ss : List Role} {n n' : Nat} {x y : Bytes}, (∀ r ∈ rs, r.WF ∧ r.id < 2 ^ 32) →
    (∀ r ∈ ss, r.WF ∧ r.id < 2 ^ 32) → rs.length = ss.length → encRoles n rs ++ x = encRoles n' ss ++ y → rs = ss ∧ x = y := by
  intro rs
  induction rs with
  | nil =>
    intro bs n n' x y _ _ hl h
    cases bs with
    | nil => exact ⟨rfl, by simpa [encRoles] using h⟩
    | cons _ _ => simp at hl
  | cons a as ih =>
    intro bs n n' x y ha hb hl h
    cases bs with
    | nil => simp at hl
    | cons b bs =>
      simp only [encRoles, List.append_assoc] at h
      obtain ⟨rfl, h'⟩ := encRole_inj (ha a (by simp)).1 (hb b (by simp)).1 (ha a (by simp)).2 (hb b (by simp)).2 h
      obtain ⟨rfl, h2⟩ := ih (fun a h => ha a (by simp [h])) (fun a h => hb a (by simp [h])) (by simpa using hl) h'
      exact ⟨rfl, h2⟩

theorem encTail_inj {a b : Option Key} (h : encTail a = encTail b) : a = b := by
  cases a <;> cases b
  · rfl
  · simp [encTail] at h
  · simp [encTail] at h
  · simpa [encTail] using h

/-- The account data determine the wallet. -/
theorem Wallet.encode_inj {w w' : Wallet} (hw : w.WF) (hw' : w'.WF) (h : w.encode = w'.encode) : w = w' := by
  have hh : w.header = w'.header := by
    have h1 := Wallet.encode_header hw
    rw [h, Wallet.encode_header hw'] at h1
    exact h1.symm
  unfold Wallet.encode at h
  rw [hh] at h
  have h := List.append_cancel_left h
  have hl : w.roles.length = w'.roles.length := congrArg Header.roles hh
  have b : ∀ {w : Wallet}, w.WF → ∀ r ∈ w.roles, r.WF ∧ r.id < 2 ^ 32 := fun hw r hr =>
    ⟨hw.roles r hr, Nat.lt_trans (hw.idsLt r hr) hw.counter⟩
  obtain ⟨e1, e2⟩ := encRoles_inj (b hw) (b hw') hl h
  have e3 := encTail_inj e2
  cases w; cases w'
  simp_all [Wallet.header]

theorem Open.unique {m : Mem} {k : Key} {w w' : Wallet} (h : Open m k w) (h' : Open m k w') : w = w' :=
  Wallet.encode_inj h.wf h'.wf (h.data ▸ h'.data)

end
end Verif
