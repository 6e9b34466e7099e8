import Verif.Proofs.Wait
import Verif.Proofs.History
import Verif.Proofs.MemorySub

/-!
# The slot matters only for signings, sessions and credentials that age

Lemmas for Verif/Props/Timeless.lean.
-/

namespace Verif

/-- The same environment at another slot. -/
def Env.later (env : Env) (t : Nat) : Env := { env with slot := t }

theorem bind_congr_ok {α β : Type} {x : R α} {f g : α → R β} (h : ∀ a, x = .ok a → f a = g a) : (x >>= f) = (x >>= g) := by
  cases x with
  | error => rfl
  | ok a => exact h a rfl

section
variable {env : Env} {cpi : Cpi} {m : Mem} {metas : List Meta} {t : Nat}

/-! ## What does not read the slot -/

theorem findPdaGo_later {seeds : List Bytes} {n : Nat} : findPdaGo (env.later t) seeds n = findPdaGo env seeds n := by
  induction n with
  | zero => rfl
  | succ n ih =>
    unfold findPdaGo
    rw [ih]
    rfl

theorem findPda_later {seeds : List Bytes} : findPda (env.later t) seeds = findPda env seeds := by
  unfold findPda
  rw [findPdaGo_later]

theorem findSubRole_later {id sub : Key} {n i : Nat} : findSubRole (env.later t) id sub n i = findSubRole env id sub n i := by
  induction n generalizing i with
  | zero => rfl
  | succ n ih =>
    unfold findSubRole
    rw [findPda_later]
    simp only [ih]

theorem withdrawSigner_later {h : Header} {sub : Key} {s : Option SubAct} : withdrawSigner (env.later t) h sub s = withdrawSigner env h sub s := by
  unfold withdrawSigner
  rw [findSubRole_later]

theorem withdrawPermission_later {h : Header} {role : Nat} {sub : Key} {acts : Bytes} :
    withdrawPermission (env.later t) h role sub acts = withdrawPermission env h role sub acts := by
  unfold withdrawPermission
  rw [findPda_later]

theorem closeTokensGo_later {outer : List Meta} {program swig wallet dst : Key} {v2 : Bool} {ws ss : List Bytes} {l : List Meta} {m : Mem} :
    closeTokensGo (env.later t) cpi outer program v2 swig wallet dst ws ss m l = closeTokensGo env cpi outer program v2 swig wallet dst ws ss m l := by
  induction l generalizing m with
  | nil => rfl
  | cons a l ih =>
    unfold closeTokensGo
    refine bind_congr_ok fun b _ => ?_
    show (tokenClose env _ _ _ _ _ _ _ _ >>= _) = _
    exact bind_congr_ok fun _ _ => ih

theorem transferTokensGo_later {outer : List Meta} {swig wallet : Key} {seeds : List Bytes} : ∀ {l : List Meta} {m : Mem},
    transferTokensGo (env.later t) cpi outer swig wallet seeds m l = transferTokensGo env cpi outer swig wallet seeds m l
  | src :: dst :: program :: rest, m => by
    unfold transferTokensGo
    show (transferOne env _ _ _ _ _ _ _ _ _ >>= _) = _
    exact bind_congr_ok fun _ _ => transferTokensGo_later
  | [], _ => rfl
  | [_], _ => rfl
  | [_, _], _ => rfl

theorem replaceTargetGo_later {swig : Key} {acting target : Nat} {new : Bytes} {proof : Option (Key × Bytes)} {b : Bytes} {n c : Nat} :
    replaceTargetGo (env.later t) swig acting target new proof b n c = replaceTargetGo env swig acting target new proof b n c := by
  induction n generalizing c with
  | zero => rfl
  | succ n ih =>
    unfold replaceTargetGo
    rw [ih]
    rfl

theorem requiredProof_later {swig : Meta} {ty : Nat} {payload : Bytes} :
    requiredProof (env.later t) m swig metas ty payload = requiredProof env m swig metas ty payload := by
  unfold requiredProof loadProof
  rw [findPda_later]

theorem execAll_later {signer : Key} {seeds : List Bytes} {ixs : List Inner} {m : Mem} :
    execAll (env.later t) cpi metas signer seeds m ixs = execAll env cpi metas signer seeds m ixs := execAll_slot

/-! ## Credentials -/

theorem authRole_later {r : Role} {sys payload data : Bytes} (ha : Ageless r t) (hs : env.slot ≤ t) :
    authRole (env.later t) r.authType r.auth metas sys payload data = authRole env r.authType r.auth metas sys payload data := by
  unfold authRole
  by_cases hb : sessionBased r.authType
  · have hle : t ≤ sessionExpiry r.authType r.auth := by
      rcases ha with e | e | e
      · rw [e] at hb; exact absurd hb (by decide)
      · rw [e] at hb; exact absurd hb (by decide)
      · exact e.2
    rw [if_pos hb, if_pos hb]
    unfold authenticateSession
    have h1 : ¬ (env.later t).slot > sessionExpiry r.authType r.auth := by
      show ¬ t > _
      omega
    have h2 : ¬ env.slot > sessionExpiry r.authType r.auth := by omega
    rw [if_neg h1, if_neg h2]
  · rw [if_neg hb, if_neg hb]
    unfold authenticate
    rcases ha with e | e | e
    · have h1 : r.authType = T.ed25519 ∨ r.authType = T.ed25519Session := .inl e
      simp only [if_pos h1]
    · rw [e, if_neg (by decide), if_neg (by decide), if_neg (by decide), if_neg (by decide), if_neg (by decide), if_neg (by decide)]
    · exact absurd e.1 hb

theorem actAs_later {w : Wallet} {id : Nat} {payload data : Bytes} (hw : w.WF) (ha : ∀ r, w.role? id = some r → Ageless r t) (hs : env.slot ≤ t) :
    actAs (env.later t) m metas w.parts id payload data = actAs env m metas w.parts id payload data := by
  unfold actAs
  simp only [Wallet.parts]
  rcases getMutRole_enc id w.roles hw.rolesOk with ⟨r, before, after, g1, g2, g3, g4⟩ | ⟨_, g2⟩
  · rw [g4]
    simp only [ok_bind]
    have := authRole_later (env := env) (metas := metas) (sys := (m instructionsSysvarId).data) (payload := payload) (data := data) (ha r (role?_split g1 g2 g3)) hs
    simp only [viewOf]
    rw [this]
  · rw [g2]
    rfl

/-! ## Requests -/

/-- Acting as the role that the request names does not depend on the slot. -/
def SameActing (env : Env) (m : Mem) (metas : List Meta) (k : Key) (id t : Nat) : Prop :=
  ∀ (p : Parts) (payload data : Bytes), openSwig (m k).data = .ok p → actAs (env.later t) m metas p id payload data = actAs env m metas p id payload data

theorem sameActing {swig : Key} {w : Wallet} {id : Nat} (ho : Open m swig w) (ha : ∀ r, w.role? id = some r → Ageless r t) (hs : env.slot ≤ t) :
    SameActing env m metas swig id t := by
  intro p payload data hp
  rw [ho.data, openSwig_enc ho.wf] at hp
  cases hp
  exact actAs_later ho.wf ha hs

variable {swig : Meta} {rest : List Meta} {ix : Bytes}

theorem addAuthority_later (h : SameActing env m (swig :: rest) swig.key (rd ix 12 4) t) :
    addAuthorityV1 (env.later t) m (swig :: rest) ix = addAuthorityV1 env m (swig :: rest) ix := by
  unfold addAuthorityV1
  split
  · rename_i e
    cases e
    refine bind_congr_ok fun _ _ => bind_congr_ok fun _ _ => bind_congr_ok fun a ha => bind_congr_ok fun _ _ => bind_congr_ok fun p hp =>
      bind_congr_ok fun _ _ => ?_
    rw [parseAdd_acting ha, h _ _ _ hp]
    rfl
  · rfl

theorem removeAuthority_later (h : SameActing env m (swig :: rest) swig.key (rd ix 8 4) t) :
    removeAuthorityV1 (env.later t) m (swig :: rest) ix = removeAuthorityV1 env m (swig :: rest) ix := by
  unfold removeAuthorityV1
  split
  · rename_i e
    cases e
    refine bind_congr_ok fun _ _ => bind_congr_ok fun _ _ => bind_congr_ok fun a ha => bind_congr_ok fun _ _ => bind_congr_ok fun p hp =>
      bind_congr_ok fun _ _ => ?_
    rw [(parseRemove_roles ha).1, h _ _ _ hp]
    rfl
  · rfl

theorem updateAuthority_later (h : SameActing env m (swig :: rest) swig.key (rd ix 8 4) t) :
    updateAuthorityV1 (env.later t) m (swig :: rest) ix = updateAuthorityV1 env m (swig :: rest) ix := by
  unfold updateAuthorityV1
  split
  · rename_i e
    cases e
    refine bind_congr_ok fun _ _ => bind_congr_ok fun _ _ => bind_congr_ok fun a ha => bind_congr_ok fun p hp => bind_congr_ok fun _ _ => ?_
    rw [(parseUpdate_roles ha).1, h _ _ _ hp]
    rfl
  · rfl

theorem setRentClaimer_later (h : SameActing env m (swig :: rest) swig.key (rd ix 4 4) t) :
    setRentClaimerV1 (env.later t) m (swig :: rest) ix = setRentClaimerV1 env m (swig :: rest) ix := by
  unfold setRentClaimerV1
  split
  · rename_i e
    cases e
    refine bind_congr_ok fun _ _ => bind_congr_ok fun _ _ => bind_congr_ok fun a ha => bind_congr_ok fun _ _ => bind_congr_ok fun _ _ => bind_congr_ok fun p hp => ?_
    show (orErr (env.pda _) _ >>= _) = _
    refine bind_congr_ok fun _ _ => bind_congr_ok fun _ _ => ?_
    rw [parseClaimer_role ha, h _ _ _ hp]
    rfl
  · rfl

theorem replaceAuthority_later (h : SameActing env m (swig :: rest) swig.key (rd ix 4 4) t) :
    replaceAuthorityV1 (env.later t) m (swig :: rest) ix = replaceAuthorityV1 env m (swig :: rest) ix := by
  unfold replaceAuthorityV1
  simp only [requiredProof_later, replaceTargetGo_later]
  refine bind_congr_ok fun _ _ => bind_congr_ok fun a ha => bind_congr_ok fun p hp => ?_
  rw [(parseReplace_roles ha).1, h _ _ _ hp]

theorem closeSwig_later (h : SameActing env m (swig :: rest) swig.key (rd ix 4 4) t) :
    closeSwigV1 (env.later t) m (swig :: rest) ix = closeSwigV1 env m (swig :: rest) ix := by
  unfold closeSwigV1
  simp only [findPda_later]
  split
  · rename_i e
    cases e
    refine bind_congr_ok fun _ _ => bind_congr_ok fun _ _ => bind_congr_ok fun a ha => bind_congr_ok fun p hp => bind_congr_ok fun _ _ =>
      bind_congr_ok fun _ _ => bind_congr_ok fun _ _ => ?_
    rw [parseRoleIx_role ha, h _ _ _ hp]
    rfl
  · rfl

theorem closeToken_later (h : SameActing env m (swig :: rest) swig.key (rd ix 4 4) t) :
    closeTokenV1 (env.later t) cpi m (swig :: rest) ix = closeTokenV1 env cpi m (swig :: rest) ix := by
  unfold closeTokenV1
  simp only [findPda_later, closeTokensGo_later]
  split
  · rename_i e
    cases e
    refine bind_congr_ok fun _ _ => bind_congr_ok fun a ha => bind_congr_ok fun _ _ => bind_congr_ok fun _ _ => bind_congr_ok fun _ _ =>
      bind_congr_ok fun _ _ => bind_congr_ok fun p hp => ?_
    rw [parseRoleIx_role ha, h _ _ _ hp]
  · rfl

theorem transferAssets_later (h : SameActing env m (swig :: rest) swig.key (rd ix 4 4) t) :
    transferAssetsV1 (env.later t) cpi m (swig :: rest) ix = transferAssetsV1 env cpi m (swig :: rest) ix := by
  unfold transferAssetsV1
  simp only [transferTokensGo_later]
  split
  · rename_i e
    cases e
    refine bind_congr_ok fun _ _ => bind_congr_ok fun a ha => bind_congr_ok fun p hp => bind_congr_ok fun _ _ => ?_
    show (checkSelfPda env _ _ _ _ >>= _) = _
    refine bind_congr_ok fun _ _ => ?_
    rw [parseRoleIx_role ha, h _ _ _ hp]
    rfl
  · rfl

theorem migrate_later (h : SameActing env m (swig :: rest) swig.key (rd ix 4 4) t) :
    migrateV1 (env.later t) m (swig :: rest) ix = migrateV1 env m (swig :: rest) ix := by
  unfold migrateV1
  split
  · rename_i e
    cases e
    refine bind_congr_ok fun a ha => bind_congr_ok fun _ _ => bind_congr_ok fun _ _ => bind_congr_ok fun _ _ => bind_congr_ok fun p hp => ?_
    rw [parseRoleIx_role ha, h _ _ _ hp]
    rfl
  · rfl

theorem createSub_later (h : SameActing env m (swig :: rest) swig.key (rd ix 4 4) t) :
    createSubV1 (env.later t) m (swig :: rest) ix = createSubV1 env m (swig :: rest) ix := by
  unfold createSubV1
  split
  · rename_i e
    cases e
    refine bind_congr_ok fun _ _ => bind_congr_ok fun _ _ => bind_congr_ok fun _ _ => bind_congr_ok fun p hp => ?_
    rw [h _ _ _ (openSwigU_ok hp)]
    rfl
  · rfl

theorem subSign_later (h : SameActing env m (swig :: rest) swig.key (rd ix 4 4) t) :
    subSignV1 (env.later t) cpi m (swig :: rest) ix = subSignV1 env cpi m (swig :: rest) ix := by
  unfold subSignV1
  simp only [execAll_later]
  split
  · rename_i e
    cases e
    show (require (env.stackHeight = 1) _ >>= _) = _
    refine bind_congr_ok fun _ _ => bind_congr_ok fun _ _ => bind_congr_ok fun _ _ => bind_congr_ok fun a ha => bind_congr_ok fun p hp => ?_
    rw [parseSubSign_role ha, h _ _ _ (openSwigU_ok hp)]
    rfl
  · rfl

theorem toggleSub_later (h : SameActing env m (swig :: rest) swig.key (rd ix 12 4) t) :
    toggleSubV1 (env.later t) m (swig :: rest) ix = toggleSubV1 env m (swig :: rest) ix := by
  unfold toggleSubV1 toggleRole
  split
  · rename_i e
    cases e
    refine bind_congr_ok fun _ _ => bind_congr_ok fun _ _ => bind_congr_ok fun _ _ => bind_congr_ok fun _ _ => bind_congr_ok fun p hp => ?_
    rw [h _ _ _ (openSwigU_ok hp)]
  · rfl

theorem withdrawSub_later (h : SameActing env m (swig :: rest) swig.key (rd ix 4 4) t) :
    withdrawSubV1 (env.later t) cpi m (swig :: rest) ix = withdrawSubV1 env cpi m (swig :: rest) ix := by
  unfold withdrawSubV1
  simp only [findPda_later, withdrawPermission_later, withdrawSigner_later]
  split
  · rename_i e
    cases e
    refine bind_congr_ok fun _ _ => bind_congr_ok fun _ _ => bind_congr_ok fun _ _ => bind_congr_ok fun _ _ => bind_congr_ok fun p hp =>
      bind_congr_ok fun _ _ => bind_congr_ok fun _ _ => ?_
    rw [h _ _ _ hp]
    rfl
  · rfl

theorem createSubV2_later (h : SameActing env m (swig :: rest) swig.key (rd ix 4 4) t) :
    createSubV2 (env.later t) m (swig :: rest) ix = createSubV2 env m (swig :: rest) ix := by
  have e : drawSubId (env.later t) m (swig :: rest) swig.key (rd ix 4 4) (ix.drop 16) (ix.take 16) =
      drawSubId env m (swig :: rest) swig.key (rd ix 4 4) (ix.drop 16) (ix.take 16) := by
    unfold drawSubId
    refine bind_congr_ok fun p hp => ?_
    rw [h _ _ _ (openSwigV2_open hp)]
  unfold createSubV2
  split
  · rename_i e'
    cases e'
    rw [e]
    rfl
  · rfl

theorem actScoped_later {ty id : Nat} {payload data : Bytes} (h : SameActing env m (swig :: rest) swig.key (rd ix 4 4) t) :
    actScoped (env.later t) m (swig :: rest) swig.key (rd ix 4 4) ty id payload data = actScoped env m (swig :: rest) swig.key (rd ix 4 4) ty id payload data := by
  unfold actScoped
  refine bind_congr_ok fun p hp => ?_
  rw [h _ _ _ (openSwigV2_open hp)]

theorem subSignV2_later (h : SameActing env m (swig :: rest) swig.key (rd ix 4 4) t) :
    subSignV2 (env.later t) cpi m (swig :: rest) ix = subSignV2 env cpi m (swig :: rest) ix := by
  unfold subSignV2
  simp only [execAll_later]
  split
  · rename_i e
    cases e
    show (require (env.stackHeight = 1) _ >>= _) = _
    refine bind_congr_ok fun _ _ => bind_congr_ok fun _ _ => bind_congr_ok fun _ _ => bind_congr_ok fun a ha => ?_
    rw [parseSubSignV2_role ha, actScoped_later h]
    rfl
  · rfl

theorem withdrawSubV2_later (h : SameActing env m (swig :: rest) swig.key (rd ix 4 4) t) :
    withdrawSubV2 (env.later t) cpi m (swig :: rest) ix = withdrawSubV2 env cpi m (swig :: rest) ix := by
  unfold withdrawSubV2
  split
  · rename_i e
    cases e
    rw [actScoped_later h]
    rfl
  · rfl

theorem toggleSubV2_later (h : SameActing env m (swig :: rest) swig.key (rd ix 4 4) t) :
    toggleSubV2 (env.later t) m (swig :: rest) ix = toggleSubV2 env m (swig :: rest) ix := by
  unfold toggleSubV2
  split
  · rename_i e
    cases e
    rw [actScoped_later h]
    rfl
  · rfl

theorem create_later : createV1 (env.later t) m metas ix = createV1 env m metas ix := by
  unfold createV1 createChecks
  rfl

/-! ## New sessions -/

theorem sessionAuth_later {v : RoleView} {a : SessionIx} {auth : Bytes} (hty : v.authType = T.ed25519Session ∨ v.authType = T.programExecSession)
    (h : sessionAuth env m metas v a = .ok auth) : ∃ auth', sessionAuth (env.later t) m metas v a = .ok auth' := by
  unfold sessionAuth at h ⊢
  obtain ⟨u, h1, h⟩ := bind_ok_iff.mp h
  obtain ⟨x, h2, h⟩ := bind_ok_iff.mp h
  have h2' : authenticate (env.later t) v.authType v.auth metas (m instructionsSysvarId).data a.authPayload a.dataPayload = .ok x := by
    rw [← h2]
    unfold authenticate
    rcases hty with e | e
    · have h1 : v.authType = T.ed25519 ∨ v.authType = T.ed25519Session := .inr e
      simp only [if_pos h1]
    · rw [e, if_neg (by decide), if_neg (by decide), if_neg (by decide), if_neg (by decide), if_neg (by decide), if_neg (by decide)]
  rw [h1, h2']
  simp only [ok_bind]
  unfold startSession at h ⊢
  split at h
  · cases h
  · rename_i e1
    split at h
    · cases h
    · rename_i e2
      exact ⟨_, by rw [if_neg e1, if_neg e2]⟩

theorem createSession_later {w : Wallet} (ho : Open m swig.key w)
    (hty : ∀ r, w.role? (rd ix 4 4) = some r → r.authType = T.ed25519Session ∨ r.authType = T.programExecSession) {m' : Mem}
    (h : createSessionV1 env m (swig :: rest) ix = .ok m') : ∃ m'', createSessionV1 (env.later t) m (swig :: rest) ix = .ok m'' := by
  unfold createSessionV1 at h ⊢
  split at h
  · rename_i e
    cases e
    obtain ⟨u1, h1, h⟩ := bind_ok_iff.mp h
    obtain ⟨a, h2, h⟩ := bind_ok_iff.mp h
    obtain ⟨p, h3, h⟩ := bind_ok_iff.mp h
    obtain ⟨v, h4, h⟩ := bind_ok_iff.mp h
    obtain ⟨v, h5, h⟩ := bind_ok_iff.mp h
    obtain ⟨auth, h6, h⟩ := bind_ok_iff.mp h
    have e1 := h3
    rw [ho.data, openSwigU_enc ho.wf] at e1
    cases e1
    have e2 : a.role = rd ix 4 4 := by
      unfold parseSession at h2
      split at h2 <;> cases h2
      rfl
    have hv : v.authType = T.ed25519Session ∨ v.authType = T.programExecSession := by
      rcases getMutRole_enc a.role w.roles ho.wf.rolesOk with ⟨r, before, after, g1, g2, g3, g4⟩ | ⟨_, g2⟩
      · have e3 := h4
        simp only [Wallet.parts] at e3
        rw [g4] at e3
        cases e3
        cases h5
        exact hty r (e2 ▸ role?_split g1 g2 g3)
      · have e3 := h4
        simp only [Wallet.parts] at e3
        rw [g2] at e3
        cases e3
        cases h5
    obtain ⟨auth', h7⟩ := sessionAuth_later (t := t) hv h6
    refine ⟨_, bind_ok_iff.mpr ⟨u1, h1, bind_ok_iff.mpr ⟨a, h2, bind_ok_iff.mpr ⟨_, h3, bind_ok_iff.mpr ⟨_, h4, bind_ok_iff.mpr ⟨_, h5,
      bind_ok_iff.mpr ⟨auth', h7, rfl⟩⟩⟩⟩⟩⟩⟩
  · cases h

end

end Verif
