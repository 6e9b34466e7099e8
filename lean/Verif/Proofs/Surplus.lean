import Verif.Spec.Surplus
import Verif.Proofs.History
import Verif.Proofs.MemorySub
import Verif.Proofs.ClientBuild
import Verif.Proofs.Batch

/-!
# Further accounts in a request

Lemmas for Verif/Props/Surplus.lean.
-/

namespace Verif
open Client

theorem bind_mono_ok {α β : Type} {x : R α} {f g : α → R β} {b : β} (h : (x >>= f) = .ok b) (hg : ∀ a, x = .ok a → f a = .ok b → g a = .ok b) :
    (x >>= g) = .ok b := by
  obtain ⟨a, h1, h2⟩ := bind_ok_iff.mp h
  exact bind_ok_iff.mpr ⟨a, h1, hg a h1 h2⟩

theorem bind_mono2_ok {α β : Type} {x y : R α} {f : α → R β} {b : β} (h : (x >>= f) = .ok b) (hx : ∀ a, x = .ok a → y = .ok a) : (y >>= f) = .ok b := by
  obtain ⟨a, h1, h2⟩ := bind_ok_iff.mp h
  exact bind_ok_iff.mpr ⟨a, hx a h1, h2⟩

theorem getOr_surplus {α : Type} {l more : List α} {i : Nat} {e : Err} {a : α} (h : getOr l i e = .ok a) : getOr (l ++ more) i e = .ok a := by
  unfold getOr at h ⊢
  cases hl : l[i]? with
  | none => rw [hl] at h; cases h
  | some b =>
    rw [hl] at h
    have : (l ++ more)[i]? = some b := by
      rw [List.getElem?_append_left (List.getElem?_eq_some_iff.mp hl).1]
      exact hl
    rw [this]
    exact h

section
variable {env : Env} {cpi : Cpi} {m m' : Mem} {metas more : List Meta}

/-! ## Credentials -/

theorem ed25519Auth_surplus {i : Nat} {k : Key} (h : ed25519Auth metas i k = .ok ()) : ed25519Auth (metas ++ more) i k = .ok () := by
  unfold ed25519Auth at h ⊢
  exact bind_mono2_ok h fun _ => getOr_surplus

theorem programExecAuth_surplus {sys program pfx : Bytes} {i n : Nat} {t : Option Nat} (h : programExecAuth metas sys i program pfx n t = .ok ()) :
    programExecAuth (metas ++ more) sys i program pfx n t = .ok () := by
  unfold programExecAuth at h ⊢
  obtain ⟨a, h1, h⟩ := bind_ok_iff.mp h
  refine bind_ok_iff.mpr ⟨a, getOr_surplus h1, ?_⟩
  split at h
  · cases h
  · rename_i hne
    rw [if_neg hne]
    obtain ⟨b, h2, h⟩ := bind_ok_iff.mp h
    refine bind_ok_iff.mpr ⟨b, getOr_surplus h2, ?_⟩
    obtain ⟨c, h3, h⟩ := bind_ok_iff.mp h
    exact bind_ok_iff.mpr ⟨c, getOr_surplus h3, h⟩

theorem execAuthenticate_surplus {auth sys payload : Bytes} (h : execAuthenticate auth metas sys payload = .ok ()) :
    execAuthenticate auth (metas ++ more) sys payload = .ok () := by
  unfold execAuthenticate at h ⊢
  split at h
  · cases h
  · rename_i hne
    rw [if_neg hne]
    exact programExecAuth_surplus h

theorem authRole_surplus {r : Role} {sys payload data x : Bytes} (hb : ByTransaction r)
    (h : authRole env r.authType r.auth metas sys payload data = .ok x) : authRole env r.authType r.auth (metas ++ more) sys payload data = .ok x := by
  unfold authRole at h ⊢
  by_cases hs : sessionBased r.authType
  · rw [if_pos hs] at h ⊢
    refine bind_mono2_ok h fun u hu => ?_
    unfold authenticateSession at hu ⊢
    rw [if_neg (by simp [hs])] at hu ⊢
    refine bind_mono_ok hu fun _ _ h => ?_
    split at h
    · cases h
    · rename_i h1
      split at h
      · cases h
      · rename_i h2
        rw [if_neg h1, if_neg h2]
        exact ed25519Auth_surplus h
  · rw [if_neg hs] at h ⊢
    unfold authenticate at h ⊢
    rcases hb with e | e | e
    · have h1 : r.authType = T.ed25519 ∨ r.authType = T.ed25519Session := .inl e
      rw [if_pos h1] at h ⊢
      split at h
      · cases h
      · rename_i h2
        rw [if_neg h2]
        exact bind_mono2_ok h fun _ hu => ed25519Auth_surplus hu
    · rw [e] at h ⊢
      rw [if_neg (by decide), if_neg (by decide), if_neg (by decide)] at h ⊢
      exact bind_mono2_ok h fun _ hu => execAuthenticate_surplus hu
    · exact absurd e hs

theorem actAs_surplus {w : Wallet} {id : Nat} {payload data : Bytes} {x : Parts × RoleView} (hw : w.WF) (hb : ∀ r, w.role? id = some r → ByTransaction r)
    (h : actAs env m metas w.parts id payload data = .ok x) : actAs env m (metas ++ more) w.parts id payload data = .ok x := by
  unfold actAs at h ⊢
  simp only [Wallet.parts] at h ⊢
  rcases getMutRole_enc id w.roles hw.rolesOk with ⟨r, before, after, g1, g2, g3, g4⟩ | ⟨_, g2⟩
  · rw [g4] at h ⊢
    simp only [ok_bind, viewOf] at h ⊢
    exact bind_mono2_ok h fun _ hu => authRole_surplus (hb r (role?_split g1 g2 g3)) hu
  · rw [g2] at h
    cases h

/-! ## Requests -/

/-- Who may act as the role with the accounts may do so with more. -/
def ActsWithMore (env : Env) (m : Mem) (metas more : List Meta) (k : Key) (id : Nat) : Prop :=
  ∀ (p : Parts) (payload data : Bytes) (x : Parts × RoleView), openSwig (m k).data = .ok p → actAs env m metas p id payload data = .ok x →
    actAs env m (metas ++ more) p id payload data = .ok x

theorem actsWithMore {swig : Key} {w : Wallet} {id : Nat} (ho : Open m swig w) (hb : ∀ r, w.role? id = some r → ByTransaction r) :
    ActsWithMore env m metas more swig id := by
  intro p payload data x hp h
  rw [ho.data, openSwig_enc ho.wf] at hp
  cases hp
  exact actAs_surplus ho.wf hb h

variable {swig : Meta} {rest : List Meta} {ix : Bytes}

theorem addAuthority_surplus (hm : ActsWithMore env m (swig :: rest) more swig.key (rd ix 12 4)) (h : addAuthorityV1 env m (swig :: rest) ix = .ok m') :
    addAuthorityV1 env m (swig :: rest ++ more) ix = .ok m' := by
  unfold addAuthorityV1 at h ⊢
  split at h
  · rename_i e
    cases e
    simp only [List.cons_append]
    refine bind_mono_ok h fun _ _ h => bind_mono_ok h fun _ _ h => bind_mono_ok h fun a ha h => bind_mono_ok h fun _ _ h => bind_mono_ok h fun p hp h =>
      bind_mono_ok h fun _ _ h => ?_
    rw [parseAdd_acting ha] at h ⊢
    exact bind_mono2_ok h fun x hx => hm _ _ _ _ hp hx
  · cases h

theorem removeAuthority_surplus (hm : ActsWithMore env m (swig :: rest) more swig.key (rd ix 8 4)) (h : removeAuthorityV1 env m (swig :: rest) ix = .ok m') :
    removeAuthorityV1 env m (swig :: rest ++ more) ix = .ok m' := by
  unfold removeAuthorityV1 at h ⊢
  split at h
  · rename_i e
    cases e
    simp only [List.cons_append]
    refine bind_mono_ok h fun _ _ h => bind_mono_ok h fun _ _ h => bind_mono_ok h fun a ha h => bind_mono_ok h fun _ _ h => bind_mono_ok h fun p hp h =>
      bind_mono_ok h fun _ _ h => ?_
    rw [(parseRemove_roles ha).1] at h ⊢
    exact bind_mono2_ok h fun x hx => hm _ _ _ _ hp hx
  · cases h

theorem updateAuthority_surplus (hm : ActsWithMore env m (swig :: rest) more swig.key (rd ix 8 4)) (h : updateAuthorityV1 env m (swig :: rest) ix = .ok m') :
    updateAuthorityV1 env m (swig :: rest ++ more) ix = .ok m' := by
  unfold updateAuthorityV1 at h ⊢
  split at h
  · rename_i e
    cases e
    simp only [List.cons_append]
    refine bind_mono_ok h fun _ _ h => bind_mono_ok h fun _ _ h => bind_mono_ok h fun a ha h => bind_mono_ok h fun p hp h => bind_mono_ok h fun _ _ h => ?_
    rw [(parseUpdate_roles ha).1] at h ⊢
    exact bind_mono2_ok h fun x hx => hm _ _ _ _ hp hx
  · cases h

theorem setRentClaimer_surplus (hm : ActsWithMore env m (swig :: rest) more swig.key (rd ix 4 4)) (h : setRentClaimerV1 env m (swig :: rest) ix = .ok m') :
    setRentClaimerV1 env m (swig :: rest ++ more) ix = .ok m' := by
  unfold setRentClaimerV1 at h ⊢
  split at h
  · rename_i e
    cases e
    simp only [List.cons_append]
    refine bind_mono_ok h fun _ _ h => bind_mono_ok h fun _ _ h => bind_mono_ok h fun a ha h => bind_mono_ok h fun _ _ h => bind_mono_ok h fun _ _ h =>
      bind_mono_ok h fun p hp h => bind_mono_ok h fun _ _ h => bind_mono_ok h fun _ _ h => ?_
    rw [parseClaimer_role ha] at h ⊢
    exact bind_mono2_ok h fun x hx => hm _ _ _ _ hp hx
  · cases h

theorem loadProof_surplus {wallet : Meta} {payload : Bytes} {x : Key × Bytes} (h : loadProof env m swig wallet metas payload = .ok x) :
    loadProof env m swig wallet (metas ++ more) payload = .ok x := by
  unfold loadProof at h ⊢
  refine bind_mono_ok h fun _ _ h => bind_mono_ok h fun _ _ h => bind_mono_ok h fun _ _ h => ?_
  exact bind_mono2_ok h fun x hx => getOr_surplus hx

theorem requiredProof_surplus {ty : Nat} {payload : Bytes} {x : Option (Key × Bytes)} (h : requiredProof env m swig metas ty payload = .ok x) :
    requiredProof env m swig (metas ++ more) ty payload = .ok x := by
  unfold requiredProof at h ⊢
  split at h
  · rename_i e
    rw [if_pos e]
    obtain ⟨a, h1, h⟩ := bind_ok_iff.mp h
    exact bind_ok_iff.mpr ⟨a, getOr_surplus h1, bind_mono2_ok h fun x hx => loadProof_surplus hx⟩
  · rename_i e
    rw [if_neg e]
    exact h

theorem replaceAuthority_surplus (hm : ActsWithMore env m (swig :: rest) more swig.key (rd ix 4 4)) (h : replaceAuthorityV1 env m (swig :: rest) ix = .ok m') :
    replaceAuthorityV1 env m (swig :: rest ++ more) ix = .ok m' := by
  unfold replaceAuthorityV1 at h ⊢
  refine bind_mono_ok h fun _ _ h => bind_mono_ok h fun a ha h => bind_mono_ok h fun p hp h => ?_
  rw [(parseReplace_roles ha).1] at h ⊢
  obtain ⟨x, h1, h⟩ := bind_ok_iff.mp h
  refine bind_ok_iff.mpr ⟨x, hm _ _ _ _ hp h1, ?_⟩
  refine bind_mono_ok h fun _ _ h => bind_mono_ok h fun _ _ h => ?_
  exact bind_mono2_ok h fun x hx => requiredProof_surplus hx

theorem closeSwig_surplus (hm : ActsWithMore env m (swig :: rest) more swig.key (rd ix 4 4)) (h : closeSwigV1 env m (swig :: rest) ix = .ok m') :
    closeSwigV1 env m (swig :: rest ++ more) ix = .ok m' := by
  unfold closeSwigV1 at h ⊢
  split at h
  · rename_i e
    cases e
    simp only [List.cons_append]
    refine bind_mono_ok h fun _ _ h => bind_mono_ok h fun _ _ h => bind_mono_ok h fun a ha h => bind_mono_ok h fun p hp h => bind_mono_ok h fun _ _ h =>
      bind_mono_ok h fun _ _ h => bind_mono_ok h fun _ _ h => ?_
    rw [parseRoleIx_role ha] at h ⊢
    exact bind_mono2_ok h fun x hx => hm _ _ _ _ hp hx
  · cases h

theorem migrate_surplus (hm : ActsWithMore env m (swig :: rest) more swig.key (rd ix 4 4)) (h : migrateV1 env m (swig :: rest) ix = .ok m') :
    migrateV1 env m (swig :: rest ++ more) ix = .ok m' := by
  unfold migrateV1 at h ⊢
  split at h
  · rename_i e
    cases e
    simp only [List.cons_append]
    refine bind_mono_ok h fun a ha h => bind_mono_ok h fun _ _ h => bind_mono_ok h fun _ _ h => bind_mono_ok h fun _ _ h => bind_mono_ok h fun p hp h => ?_
    rw [parseRoleIx_role ha] at h ⊢
    exact bind_mono2_ok h fun x hx => hm _ _ _ _ hp hx
  · cases h

theorem createSub_surplus (hm : ActsWithMore env m (swig :: rest) more swig.key (rd ix 4 4)) (h : createSubV1 env m (swig :: rest) ix = .ok m') :
    createSubV1 env m (swig :: rest ++ more) ix = .ok m' := by
  unfold createSubV1 at h ⊢
  split at h
  · rename_i e
    cases e
    simp only [List.cons_append]
    refine bind_mono_ok h fun _ _ h => bind_mono_ok h fun _ _ h => bind_mono_ok h fun _ _ h => bind_mono_ok h fun p hp h => ?_
    exact bind_mono2_ok h fun x hx => hm _ _ _ _ (openSwigU_ok hp) hx
  · cases h

theorem toggleSub_surplus (hm : ActsWithMore env m (swig :: rest) more swig.key (rd ix 12 4)) (h : toggleSubV1 env m (swig :: rest) ix = .ok m') :
    toggleSubV1 env m (swig :: rest ++ more) ix = .ok m' := by
  unfold toggleSubV1 toggleRole at h
  unfold toggleSubV1 toggleRole
  split at h
  · rename_i e
    cases e
    simp only [List.cons_append]
    refine bind_mono_ok h fun _ _ h => bind_mono_ok h fun _ _ h => bind_mono_ok h fun _ _ h => bind_mono_ok h fun _ _ h => bind_mono_ok h fun p hp h => ?_
    refine bind_mono2_ok h fun x hx => ?_
    exact bind_mono2_ok hx fun y hy => hm _ _ _ _ (openSwigU_ok hp) hy
  · cases h

theorem createSubV2_surplus (hm : ActsWithMore env m (swig :: rest) more swig.key (rd ix 4 4)) (h : createSubV2 env m (swig :: rest) ix = .ok m') :
    createSubV2 env m (swig :: rest ++ more) ix = .ok m' := by
  unfold createSubV2 drawSubId at h
  unfold createSubV2 drawSubId
  split at h
  · rename_i e
    cases e
    simp only [List.cons_append]
    refine bind_mono_ok h fun _ _ h => bind_mono_ok h fun _ _ h => bind_mono_ok h fun _ _ h => bind_mono_ok h fun _ _ h => bind_mono_ok h fun _ _ h =>
      bind_mono_ok h fun _ _ h => ?_
    refine bind_mono2_ok h fun x hx => ?_
    refine bind_mono_ok hx fun p hp hx => ?_
    exact bind_mono2_ok hx fun y hy => hm _ _ _ _ (openSwigV2_open hp) hy
  · cases h

theorem actScoped_surplus {ty id : Nat} {payload data : Bytes} {x : Parts × RoleView} (hm : ActsWithMore env m (swig :: rest) more swig.key (rd ix 4 4))
    (h : actScoped env m (swig :: rest) swig.key (rd ix 4 4) ty id payload data = .ok x) :
    actScoped env m (swig :: rest ++ more) swig.key (rd ix 4 4) ty id payload data = .ok x := by
  unfold actScoped at h ⊢
  refine bind_mono_ok h fun p hp h => ?_
  exact bind_mono2_ok h fun y hy => hm _ _ _ _ (openSwigV2_open hp) hy

theorem toggleSubV2_surplus (hm : ActsWithMore env m (swig :: rest) more swig.key (rd ix 4 4)) (h : toggleSubV2 env m (swig :: rest) ix = .ok m') :
    toggleSubV2 env m (swig :: rest ++ more) ix = .ok m' := by
  unfold toggleSubV2 at h ⊢
  split at h
  · rename_i e
    cases e
    simp only [List.cons_append]
    refine bind_mono_ok h fun _ _ h => bind_mono_ok h fun _ _ h => bind_mono_ok h fun _ _ h => bind_mono_ok h fun _ _ h => ?_
    refine bind_mono2_ok h fun x hx => ?_
    have k := actScoped_surplus (ix := ix) hm hx
    exact k
  · cases h

/-! ## Inner instructions -/

theorem innerAccountsGo_surplus {signer : Key} {restricted : List Key} {b : Bytes} {n i c : Nat} {x : List Nat × List Meta × Nat}
    (h : innerAccountsGo metas signer restricted b n i c = .ok x) : innerAccountsGo (metas ++ more) signer restricted b n i c = .ok x := by
  induction n generalizing i c x with
  | zero => exact h
  | succ n ih =>
    unfold innerAccountsGo at h ⊢
    refine bind_mono_ok h fun y _ h => ?_
    obtain ⟨a, h1, h⟩ := bind_ok_iff.mp h
    refine bind_ok_iff.mpr ⟨a, getOr_surplus h1, ?_⟩
    split at h
    · cases h
    · rename_i e
      rw [if_neg e]
      exact bind_mono2_ok h fun _ hx => ih hx

theorem parseNext_surplus {signer : Key} {restricted : List Key} {b : Bytes} {c : Nat} {x : Inner × Nat}
    (h : parseNext metas signer restricted b c = .ok x) : parseNext (metas ++ more) signer restricted b c = .ok x := by
  unfold parseNext at h ⊢
  refine bind_mono_ok h fun y _ h => ?_
  obtain ⟨a, h1, h⟩ := bind_ok_iff.mp h
  refine bind_ok_iff.mpr ⟨a, getOr_surplus h1, ?_⟩
  refine bind_mono_ok h fun y _ h => ?_
  exact bind_mono2_ok h fun _ hx => innerAccountsGo_surplus hx

theorem decodeGo_surplus {signer : Key} {restricted : List Key} {b : Bytes} {n c : Nat} {x : List Inner}
    (h : decodeGo metas signer restricted b n c = .ok x) : decodeGo (metas ++ more) signer restricted b n c = .ok x := by
  induction n generalizing c x with
  | zero => exact h
  | succ n ih =>
    unfold decodeGo at h ⊢
    obtain ⟨a, h1, h⟩ := bind_ok_iff.mp h
    refine bind_ok_iff.mpr ⟨a, parseNext_surplus h1, ?_⟩
    exact bind_mono2_ok h fun _ hx => ih hx

theorem decodeIxs_surplus {signer : Key} {restricted : List Key} {b : Bytes} {x : List Inner}
    (h : decodeIxs metas signer restricted b = .ok x) : decodeIxs (metas ++ more) signer restricted b = .ok x := by
  unfold decodeIxs at h ⊢
  split at h
  · cases h
  · rename_i e
    rw [if_neg e]
    exact decodeGo_surplus h

theorem invokeSigned_surplus {c : CpiIx} {seeds : List Bytes} (h : invokeSigned env cpi m metas c seeds = .ok m') :
    invokeSigned env cpi m (metas ++ more) c seeds = .ok m' := by
  unfold invokeSigned at h ⊢
  split at h
  · cases h
  · rename_i k e
    split at h
    · rename_i hp
      rw [if_pos ?_]
      · exact h
      · intro a ha
        obtain ⟨h1, h2⟩ := hp a ha
        refine ⟨fun hs => (h1 hs).imp id ?_, fun hw => ?_⟩
        · rintro ⟨o, ho, hk⟩
          exact ⟨o, List.mem_append_left _ ho, hk⟩
        · obtain ⟨o, ho, hk⟩ := h2 hw
          exact ⟨o, List.mem_append_left _ ho, hk⟩
    · cases h

theorem execInner_surplus {signer : Key} {seeds : List Bytes} {i : Inner} (h : execInner env cpi m metas signer seeds i = .ok m') :
    execInner env cpi m (metas ++ more) signer seeds i = .ok m' := by
  unfold execInner at h ⊢
  split at h
  · rename_i e
    rw [if_pos e]
    split at h
    · cases h
    · rename_i a l e2
      split at h
      · rename_i e3
        rw [if_pos e3]
        exact h
      · rename_i e3
        rw [if_neg e3]
        exact invokeSigned_surplus h
  · rename_i e
    rw [if_neg e]
    exact invokeSigned_surplus h

theorem execAll_surplus {signer : Key} {seeds : List Bytes} {ixs : List Inner} {m : Mem} (h : execAll env cpi metas signer seeds m ixs = .ok m') :
    execAll env cpi (metas ++ more) signer seeds m ixs = .ok m' := by
  induction ixs generalizing m with
  | nil => exact h
  | cons i l ih =>
    unfold execAll at h ⊢
    obtain ⟨m1, h1, h⟩ := bind_ok_iff.mp h
    exact bind_ok_iff.mpr ⟨m1, execInner_surplus h1, ih h⟩

theorem subSign_surplus (hm : ActsWithMore env m (swig :: rest) more swig.key (rd ix 4 4)) (h : subSignV1 env cpi m (swig :: rest) ix = .ok m') :
    subSignV1 env cpi m (swig :: rest ++ more) ix = .ok m' := by
  unfold subSignV1 at h ⊢
  split at h
  · rename_i e
    cases e
    simp only [List.cons_append]
    refine bind_mono_ok h fun _ _ h => bind_mono_ok h fun _ _ h => bind_mono_ok h fun _ _ h => bind_mono_ok h fun a ha h => bind_mono_ok h fun p hp h => ?_
    rw [parseSubSign_role ha] at h ⊢
    obtain ⟨x, h1, h⟩ := bind_ok_iff.mp h
    refine bind_ok_iff.mpr ⟨x, hm _ _ _ _ (openSwigU_ok hp) h1, ?_⟩
    refine bind_mono_ok h fun _ _ h => bind_mono_ok h fun _ _ h => bind_mono_ok h fun _ _ h => ?_
    obtain ⟨y, h2, h⟩ := bind_ok_iff.mp h
    refine bind_ok_iff.mpr ⟨y, decodeIxs_surplus h2, ?_⟩
    exact bind_mono2_ok h fun _ hx => execAll_surplus hx
  · cases h

theorem subSignV2_surplus (hm : ActsWithMore env m (swig :: rest) more swig.key (rd ix 4 4)) (h : subSignV2 env cpi m (swig :: rest) ix = .ok m') :
    subSignV2 env cpi m (swig :: rest ++ more) ix = .ok m' := by
  unfold subSignV2 at h ⊢
  split at h
  · rename_i e
    cases e
    simp only [List.cons_append]
    refine bind_mono_ok h fun _ _ h => bind_mono_ok h fun _ _ h => bind_mono_ok h fun _ _ h => bind_mono_ok h fun a ha h => ?_
    rw [parseSubSignV2_role ha] at h ⊢
    obtain ⟨x, h1, h⟩ := bind_ok_iff.mp h
    have k := actScoped_surplus (ix := ix) hm h1
    refine bind_ok_iff.mpr ⟨x, k, ?_⟩
    refine bind_mono_ok h fun _ _ h => ?_
    obtain ⟨y, h2, h⟩ := bind_ok_iff.mp h
    refine bind_ok_iff.mpr ⟨y, decodeIxs_surplus h2, ?_⟩
    exact bind_mono2_ok h fun _ hx => execAll_surplus hx
  · cases h

theorem create_surplus (h : createV1 env m (swig :: rest) ix = .ok m') : createV1 env m (swig :: rest ++ more) ix = .ok m' := by
  unfold createV1 at h ⊢
  split at h
  · rename_i e
    cases e
    exact h
  · cases h

/-! ## Classification -/

theorem classifyGo_append {cache : Option (List (Nat × Bytes))} {a b : List Meta} : ∀ {prev : List Meta} {cls : List Class},
    classifyGo m cache prev cls (a ++ b) = classifyGo m cache prev cls a >>= fun out => classifyGo m cache (prev ++ a) out b := by
  induction a with
  | nil => intro prev cls; simp [classifyGo, ok_bind]
  | cons x a ih =>
    intro prev cls
    simp only [List.cons_append, classifyGo]
    cases classify m prev cls cache x with
    | error e => rfl
    | ok c =>
      simp only [ok_bind]
      rw [ih]
      simp

theorem classifyAll_surplus {w : Wallet} {cls : List Class} (ho : Open m swig.key w) (hp : Plain m w more) (h : classifyAll m (swig :: rest) = .ok cls) :
    ∃ cls', classifyAll m (swig :: rest ++ more) = .ok (cls ++ cls') := by
  have hf := isConfig_enc ho.wf ho.data ho.owner
  obtain ⟨c, hc⟩ : ∃ c, loadScopes w.encode = some c := by
    unfold loadScopes
    rw [splitParts_encode ho.wf]
    exact ⟨_, rfl⟩
  have hn := plain_none ho.wf hp hc
  simp only [classifyAll, List.cons_append] at h ⊢
  obtain ⟨x, h1, h2⟩ := bind_ok_iff.mp h
  unfold cacheOf at h2 ⊢
  rw [if_pos hf, ho.data, hc] at h2 ⊢
  obtain ⟨out, h3⟩ := classifyGo_of hf more (fun a ha => ⟨(hp a ha).1, hn a ha⟩) rest cls
  obtain ⟨cs, rfl, _⟩ := classifyGo_ok h3
  refine ⟨cs, bind_ok_iff.mpr ⟨x, h1, ?_⟩⟩
  rw [classifyGo_append]
  exact bind_ok_iff.mpr ⟨cls, h2, h3⟩

/-! ## Sessions and signings -/

theorem authenticate_surplus {ty : Nat} {auth sys payload data x : Bytes} (hty : ty = T.ed25519Session ∨ ty = T.programExecSession)
    (h : authenticate env ty auth metas sys payload data = .ok x) : authenticate env ty auth (metas ++ more) sys payload data = .ok x := by
  unfold authenticate at h ⊢
  rcases hty with e | e
  · have h1 : ty = T.ed25519 ∨ ty = T.ed25519Session := .inr e
    rw [if_pos h1] at h ⊢
    split at h
    · cases h
    · rename_i h2
      rw [if_neg h2]
      exact bind_mono2_ok h fun _ hu => ed25519Auth_surplus hu
  · rw [e] at h ⊢
    rw [if_neg (by decide), if_neg (by decide), if_neg (by decide)] at h ⊢
    exact bind_mono2_ok h fun _ hu => execAuthenticate_surplus hu

theorem createSession_surplus {w : Wallet} (ho : Open m swig.key w)
    (hty : ∀ r, w.role? (rd ix 4 4) = some r → r.authType = T.ed25519Session ∨ r.authType = T.programExecSession)
    (h : createSessionV1 env m (swig :: rest) ix = .ok m') : createSessionV1 env m (swig :: rest ++ more) ix = .ok m' := by
  unfold createSessionV1 at h ⊢
  split at h
  · rename_i e
    cases e
    simp only [List.cons_append]
    refine bind_mono_ok h fun _ _ h => bind_mono_ok h fun a ha h => bind_mono_ok h fun p hp h => bind_mono_ok h fun v hv h => bind_mono_ok h fun v' hv' h => ?_
    rw [ho.data, openSwigU_enc ho.wf] at hp
    cases hp
    have e2 : a.role = rd ix 4 4 := by
      unfold parseSession at ha
      split at ha <;> cases ha
      rfl
    have hv : v'.authType = T.ed25519Session ∨ v'.authType = T.programExecSession := by
      rcases getMutRole_enc a.role w.roles ho.wf.rolesOk with ⟨r, before, after, g1, g2, g3, g4⟩ | ⟨_, g2⟩
      · simp only [Wallet.parts] at hv
        rw [g4] at hv
        cases hv
        cases hv'
        exact hty r (e2 ▸ role?_split g1 g2 g3)
      · simp only [Wallet.parts] at hv
        rw [g2] at hv
        cases hv
        cases hv'
    refine bind_mono2_ok h fun x hx => ?_
    unfold sessionAuth at hx ⊢
    refine bind_mono_ok hx fun _ _ hx => ?_
    refine bind_mono2_ok hx fun y hy => ?_
    have k := authenticate_surplus (more := more) hv hy
    exact k
  · cases h

theorem sign_surplus {w : Wallet} {cls cls' : List Class} (ho : Open m swig.key w) (hb : ∀ r, w.role? (rd ix 4 4) = some r → ByTransaction r)
    (hf : ∀ r, w.role? (rd ix 4 4) = some r → Free r) (h : signV2 env cpi m (swig :: rest) cls ix = .ok m') :
    signV2 env cpi m (swig :: rest ++ more) (cls ++ cls') ix = .ok m' := by
  unfold signV2 at h ⊢
  split at h
  · rename_i e
    cases e
    simp only [List.cons_append]
    refine bind_mono_ok h fun _ _ h => ?_
    obtain ⟨u2, h2, h⟩ := bind_ok_iff.mp h
    obtain ⟨u3, h3, h⟩ := bind_ok_iff.mp h
    have c1 := require_ok_iff.mp h3
    have len : 1 < cls.length := by
      refine Nat.lt_of_not_le fun hle => ?_
      rw [List.getD_eq_getElem?_getD, List.getElem?_eq_none hle] at c1
      cases c1
    have get : ∀ i, i < cls.length → (cls ++ cls').getD i .none = cls.getD i .none := fun i hi => by
      simp only [List.getD_eq_getElem?_getD]
      rw [List.getElem?_append_left hi]
    rw [get 0 (by omega), get 1 len]
    refine bind_ok_iff.mpr ⟨u2, h2, bind_ok_iff.mpr ⟨u3, h3, ?_⟩⟩
    refine bind_mono_ok h fun a ha h => bind_mono_ok h fun p hp h => ?_
    rw [ho.data, openSwig_enc ho.wf] at hp
    cases hp
    have e2 := (parseSign_ok ha).1
    obtain ⟨⟨p, v⟩, h4, h⟩ := bind_ok_iff.mp h
    have k := actAs_surplus (more := more) ho.wf (fun r hr => hb r (e2 ▸ hr)) h4
    refine bind_ok_iff.mpr ⟨(p, v), k, ?_⟩
    obtain ⟨ixs, h5, h⟩ := bind_ok_iff.mp h
    have k := decodeIxs_surplus (more := more) h5
    refine bind_ok_iff.mpr ⟨ixs, k, ?_⟩
    obtain ⟨r, before, after, g1, g2, g3, g4, g5, g6, g7, g8, _⟩ := actAs_view ho.wf h4
    have hpl := placed_used (swig := swig.key) ho.wf g1 g2 g3 g4
    have hfr := free_unrestricted (hf r (e2 ▸ g5.1))
    dsimp only at h ⊢
    rw [g6, Wallet.parts_bytes, g7, g8, signWith_free hpl (Mem.setData_data ..) hfr] at h
    rw [g6, Wallet.parts_bytes, g7, g8, signWith_free hpl (Mem.setData_data ..) hfr]
    have k := execAll_surplus (more := more) h
    exact k
  · cases h

end

end Verif
