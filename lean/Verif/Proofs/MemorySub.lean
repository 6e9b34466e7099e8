import Verif.Proofs.MemoryRoles

/-!
Sub-accounts, closing token accounts and moving assets: no undefined access.
-/

namespace Verif

theorem execInner_safe {env : Env} {cpi : Cpi} (hc : CallsDefined cpi) {m : Mem} {metas : List Meta} {s : Key} {seeds : List Bytes}
    {i : Inner} (hi : i.Complete) : Safe (execInner env cpi m metas s seeds i) := by
  unfold execInner
  refine .ite (fun h => ?_) fun _ => invokeSigned_safe hc
  have h2 := hi h.1 h.2.1 h.2.2
  match i.accounts, h2 with
  | a :: b :: rest, _ => exact .ite (fun _ => .ok _) fun _ => invokeSigned_safe hc
  | [_], h2 => simp at h2
  | [], h2 => simp at h2

theorem execAll_safe {env : Env} {cpi : Cpi} (hc : CallsDefined cpi) {metas : List Meta} {s : Key} {seeds : List Bytes} :
    ∀ {ixs : List Inner} {m : Mem}, (∀ i ∈ ixs, i.Complete) → Safe (execAll env cpi metas s seeds m ixs) := by
  intro ixs
  induction ixs with
  | nil => intro m _; exact .ok _
  | cons i ixs ih =>
    intro m h
    exact .bind (execInner_safe hc (h i (by simp))) fun _ _ => ih fun j hj => h j (by simp [hj])

theorem closeTokensGo_safe {env : Env} {cpi : Cpi} (hc : CallsDefined cpi) {o : List Meta} {p : Key} {v : Bool} {a b c : Key}
    {s1 s2 : List Bytes} : ∀ {ts : List Meta} {m : Mem}, Safe (closeTokensGo env cpi o p v a b c s1 s2 m ts) := by
  intro ts
  induction ts with
  | nil => intro m; exact .ok _
  | cons t ts ih => intro m; exact .bind closeTokenCheck_safe fun _ _ => .bind (tokenClose_safe hc) fun _ _ => ih

theorem transferTokensGo_safe {env : Env} {cpi : Cpi} (hc : CallsDefined cpi) {o : List Meta} {a b : Key} {s : List Bytes} :
    ∀ {ts : List Meta} {m : Mem}, Safe (transferTokensGo env cpi o a b s m ts) := by
  intro ts m
  fun_induction transferTokensGo env cpi o a b s m ts with
  | case1 m src dst program rest ih =>
    refine .bind ?_ fun m1 _ => ih m1
    unfold transferOne
    exact .ite (fun _ => tokenTransfer_safe hc) fun _ => .ok _
  | case2 => exact .ok _

theorem checkSubAct_safe {a : SubAct} {i : Key} {r : Nat} (h : a.enabled = 0 ∨ a.enabled = 1) : Safe (checkSubAct a i r) := by
  unfold checkSubAct
  refine .bind (by safe) fun _ _ => .bind (by safe) fun _ _ => .bind ?_ fun _ _ => by safe
  unfold readBool
  rcases h with e | e <;> rw [e] <;> simp <;> exact .ok _

/-- The sub-account permission found in the stored actions of a role has a proper flag. -/
theorem subAct_flag {w : Wallet} (hw : w.WF) {m : Mem} (hs : w.Sane m) {r : Role} (hr : r ∈ w.roles) {sub : Key} (hk : sub.length = 32)
    {d : Bytes} (h : getAction P.subAccount sub (encActs 0 r.actions) = .ok (some d)) :
    (SubAct.decode d).enabled = 0 ∨ (SubAct.decode d).enabled = 1 := by
  by_cases hne : 1 ≤ r.actions.length
  · rw [getAction_enc _ _ _ (hw.roles r hr).acts hne (hw.actsSize_lt hr).2 (fun _ => hk)] at h
    cases hf : r.actions.find? (fun a => a.grants P.subAccount sub) with
    | none => rw [hf] at h; cases h
    | some a =>
      rw [hf] at h
      cases h
      have g := List.find?_some hf
      have g : a.ty = P.subAccount := by
        simp only [Act.grants] at g
        exact (of_decide_eq_true g).1
      exact hs.flags r hr a (List.mem_of_find?_eq_some hf) g
  · have : r.actions = [] := List.length_eq_zero_iff.mp (by omega)
    rw [this] at h
    cases h

section
variable {env : Env} {cpi : Cpi} {m : Mem} {metas : List Meta} {ix : Bytes}
variable (hc : CallsDefined cpi) (hx : TxData (m instructionsSysvarId).data)
  (ho : ∀ a, metas.head? = some a → (m a.key).owner = swigId → Opened m a.key) (hk : ∀ a ∈ metas, a.key.length = 32)
include hx ho

include hc in
theorem closeTokenV1_safe : Safe (closeTokenV1 env cpi m metas ix) := by
  unfold closeTokenV1
  split
  · refine .bind (by safe) fun _ h1 => .bind (parseRoleIx_safe (by decide)) fun a _ => .bind (by safe) fun _ _ =>
      .bind (by safe) fun _ _ => .bind (by safe) fun x _ => ?_
    obtain ⟨x, b⟩ := x
    dsimp only
    refine .bind (by safe) fun _ _ => .bind (by safe) fun p hp => ?_
    refine (ho _ rfl (require_ok_iff.mp h1)).act hx hp fun w r v hw hd hs hr hg hv hq => ?_
    exact .bind (hasClose_safe hg) fun _ _ => .bind (by safe) fun _ _ => .bind (by safe) fun _ _ => .bind (by safe) fun _ _ =>
      .bind (by safe) fun _ _ => .bind (by safe) fun _ _ => closeTokensGo_safe hc
  · safe

include hc in
theorem transferAssetsV1_safe : Safe (transferAssetsV1 env cpi m metas ix) := by
  unfold transferAssetsV1
  split
  · refine .bind (by safe) fun _ h1 => .bind (parseRoleIx_safe (by decide)) fun a _ => .bind (by safe) fun p hp =>
      .bind (by safe) fun _ _ => .bind (checkSelfPda_safe (by decide)) fun _ _ => ?_
    refine (ho _ rfl (require_ok_iff.mp h1)).act hx hp fun w r v hw hd hs hr hg hv hq => ?_
    exact .bind (hasManage_safe hg) fun _ _ => .bind (by safe) fun _ _ => transferTokensGo_safe hc
  · safe

include hc hk in
theorem subSignV1_safe
    (ht : ∀ a, metas[1]? = some a → ∀ ixs, decodeIxs metas a.key [] (sl ix 16 (16 + rd ix 2 2)) = .ok ixs → ∀ i ∈ ixs, i.Complete) :
    Safe (subSignV1 env cpi m metas ix) := by
  unfold subSignV1
  split
  · rename_i swig sub x rest
    refine .bind (by safe) fun _ _ => .bind (by safe) fun _ h1 => .bind (by safe) fun _ _ => .bind (by safe) fun a ha => ?_
    have ho := ho _ rfl (require_ok_iff.mp h1)
    refine .bind (openSwigU_safe ho.nonempty) fun p hp => ?_
    refine ho.act hx (openSwigU_ok hp) fun w r v hw hd hs hr hg hv hq => ?_
    refine .bind (getAction_safe hg) fun f hf => .bind (by safe) fun d he => ?_
    have he := orErr_ok he
    subst he
    rw [hv] at hf
    dsimp only
    refine .bind (checkSubAct_safe (subAct_flag hw hs (role?_mem hr).1 (hk sub (by simp)) hf)) fun _ _ => .bind (by safe) fun ixs hi =>
      .bind (execAll_safe hc ?_) fun _ _ => by safe
    have : a.payload = sl ix 16 (16 + rd ix 2 2) := by
      unfold parseSubSign at ha
      split at ha
      · cases ha
      · dsimp only at ha
        split at ha
        · cases ha
        · cases ha; rfl
    rw [this] at hi
    exact ht sub rfl ixs hi
  · safe

omit hx ho in
theorem openSwigV2_open {d : Bytes} {p : Parts} (h : openSwigV2 d = .ok p) : openSwig d = .ok p := by
  unfold openSwigV2 at h
  obtain ⟨_, _, h⟩ := bind_ok_iff.mp h
  obtain ⟨_, _, h⟩ := bind_ok_iff.mp h
  obtain ⟨_, _, h⟩ := bind_ok_iff.mp h
  obtain ⟨_, _, h⟩ := bind_ok_iff.mp h
  exact h

omit ho in
theorem actScoped_safe {k : Key} {role ty id : Nat} {pl dp : Bytes} (h1 : Opened m k) :
    Safe (actScoped env m metas k role ty id pl dp) := by
  unfold actScoped
  refine .bind (openSwigV2_safe h1.nonempty) fun p hp => ?_
  refine h1.act hx (openSwigV2_open hp) fun w r v hw hd hs hr hg hv hq => ?_
  exact .bind (by safe) fun _ _ => .ok _

omit ho in
theorem drawSubId_safe {k : Key} {role : Nat} {pl dp : Bytes} (h1 : Opened m k) :
    Safe (drawSubId env m metas k role pl dp) := by
  unfold drawSubId
  refine .bind (openSwigV2_safe h1.nonempty) fun p hp => ?_
  refine h1.act hx (openSwigV2_open hp) fun w r v hw hd hs hr hg hv hq => ?_
  exact .bind (hasAction_safe hg) fun _ _ => .bind (by safe) fun _ _ => .bind (by safe) fun _ _ => .bind (by safe) fun _ _ => .ok _

omit hx ho in
theorem appendActions_safe {swig payer : Meta} {role : Nat} {acts : Bytes} {w : Wallet} (hw : w.WF)
    (hd : (m swig.key).data = w.encode) : Safe (appendActions env m swig payer role acts) := by
  unfold appendActions
  rw [hd, openSwig_enc hw, ok_bind]
  refine .bind (by safe) fun _ _ => .bind (findOffsets_safe hw) fun x _ => by safe

theorem createSubV2_safe : Safe (createSubV2 env m metas ix) := by
  unfold createSubV2
  split
  · rename_i swig payer state sub sys rest
    refine .bind (by safe) fun _ h1 => .bind (by safe) fun _ h2 => .bind (by safe) fun _ _ => .bind (by safe) fun _ _ =>
      .bind (by safe) fun _ _ => .bind (by safe) fun _ _ => ?_
    have ho := ho _ rfl (require_ok_iff.mp h1)
    have hne : swig.key ≠ state.key := by
      intro e
      have a := require_ok_iff.mp h1
      have b := require_ok_iff.mp h2
      rw [e, b] at a
      exact absurd a (by decide)
    refine .bind (drawSubId_safe hx ho) fun y hdr => ?_
    obtain ⟨p, id, granted⟩ := y
    have hop : ∃ q, openSwigV2 (m swig.key).data = .ok q := by
      unfold drawSubId at hdr
      obtain ⟨q, hq, _⟩ := bind_ok_iff.mp hdr
      exact ⟨q, hq⟩
    obtain ⟨q, hq⟩ := hop
    obtain ⟨w, hw, hd, _, _⟩ := ho.parts (openSwigV2_open hq)
    obtain ⟨_, _, _, _, hc, rfl, _, rfl⟩ := drawSubId_enc hw hd hdr
    have hw1 := Wallet.drawn_wf (Wallet.used_wf hw (rd ix 4 4)) hc
    simp only [Wallet.parts_bytes]
    refine .bind (checkSelfPda_safe (by decide)) fun _ _ => .bind (checkSelfPda_safe (by decide)) fun _ _ => .bind (by safe) fun m1 f1 =>
      .bind (by safe) fun m2 f2 => .bind (by safe) fun m3 f3 => ?_
    have d1 := fundState_data f1
    have d3 := fundWallet_data (show fundWallet env _ payer sub = .ok m3 from f3)
    have e2 := sysAllocAssign_ok f2
    unfold grantAll
    refine .ite (fun _ => .ok _) fun _ => appendActions_safe hw1 ?_
    rw [(d3 swig.key).1, Mem.setData_other _ _ hne, e2, Mem.set_other _ _ hne, (d1 swig.key).1]
    simp
  · safe

include hc in
theorem subSignV2_safe
    (ht : ∀ a, metas[2]? = some a → ∀ ixs, decodeIxs metas a.key [] (sl ix 16 (16 + rd ix 2 2)) = .ok ixs → ∀ i ∈ ixs, i.Complete) :
    Safe (subSignV2 env cpi m metas ix) := by
  unfold subSignV2
  split
  · rename_i swig state sub x rest
    refine .bind (by safe) fun _ _ => .bind (by safe) fun _ h1 => .bind (by safe) fun _ _ => .bind (by safe) fun a ha => ?_
    refine .bind (actScoped_safe hx (ho _ rfl (require_ok_iff.mp h1))) fun y _ => ?_
    obtain ⟨p, v⟩ := y
    dsimp only
    refine .bind (by safe) fun _ _ => .bind (by safe) fun ixs hi => .bind (execAll_safe hc ?_) fun _ _ => by safe
    have : a.payload = sl ix 16 (16 + rd ix 2 2) := by
      unfold parseSubSignV2 at ha
      split at ha
      · cases ha
      · dsimp only at ha
        split at ha
        · cases ha
        · cases ha; rfl
    rw [this] at hi
    exact ht sub rfl ixs hi
  · safe

include hc in
theorem withdrawSubV2_safe : Safe (withdrawSubV2 env cpi m metas ix) := by
  unfold withdrawSubV2
  split
  · refine .bind (by safe) fun _ h1 => .bind (by safe) fun _ _ => .bind (by safe) fun _ _ => .bind (by safe) fun _ _ => ?_
    refine .bind (actScoped_safe hx (ho _ rfl (require_ok_iff.mp h1))) fun y _ => ?_
    obtain ⟨p, v⟩ := y
    dsimp only
    refine .bind (checkSelfPda_safe (by decide)) fun _ _ => .bind (by safe) fun _ _ => ?_
    unfold withdrawV2
    exact .ite (fun _ => .bind (by safe) fun _ _ => .bind (by safe) fun _ _ => .bind (by safe) fun _ _ => .bind (by safe) fun _ _ =>
      tokenTransfer_safe hc) fun _ => by safe
  · safe

theorem toggleSubV2_safe : Safe (toggleSubV2 env m metas ix) := by
  unfold toggleSubV2
  split
  · refine .bind (by safe) fun _ h1 => .bind (by safe) fun _ _ => .bind (by safe) fun _ _ => .bind (by safe) fun _ _ => ?_
    refine .bind (actScoped_safe hx (ho _ rfl (require_ok_iff.mp h1))) fun y _ => ?_
    obtain ⟨p, v⟩ := y
    dsimp only
    exact .bind (by safe) fun _ _ => .ok _
  · safe

include hc hk in
theorem withdrawSubV1_safe (ht : ∀ a, metas[7]? = some a → 64 ≤ (m a.key).data.length) :
    Safe (withdrawSubV1 env cpi m metas ix) := by
  unfold withdrawSubV1
  split
  · rename_i swig x2 sub x4 wallet x6 rest
    refine .bind (by safe) fun _ h1 => .bind (by safe) fun _ _ => .bind (by safe) fun _ _ => .bind (by safe) fun _ _ =>
      .bind (by safe) fun p hp => .bind (by safe) fun y _ => ?_
    obtain ⟨y, _⟩ := y
    dsimp only
    refine .bind (by safe) fun _ _ => ?_
    refine (ho _ rfl (require_ok_iff.mp h1)).act hx hp fun w r v hw hd hs hr hg hv hq => ?_
    refine .bind ?_ fun s _ => .bind (by safe) fun y _ => ?_
    · unfold withdrawPermission
      refine .bind (hasAction_safe hg) fun _ _ => .bind (hasAction_safe hg) fun _ _ => .bind (getAction_safe hg) fun f hf => ?_
      rw [hv] at hf
      split
      · exact .bind (checkSubAct_safe (subAct_flag hw hs (role?_mem hr).1 (hk sub (by simp)) hf)) fun _ _ => .ok _
      · safe
    · obtain ⟨role, bump⟩ := y
      dsimp only
      refine .ite (fun _ => ?_) fun _ => withdrawSol_safe
      unfold withdrawTokenV1
      refine .bind (by safe) fun src _ => .bind (by safe) fun dst hdst => .bind ?_ fun _ _ => ?_
      · have hl : 64 ≤ (m dst.key).data.length := ht dst (by
          unfold getOr at hdst
          exact orErr_ok hdst)
        have : 64 ≤ ((m.setData swig.key (w.used (rd ix 4 4)).parts.bytes) dst.key).data.length := by
          by_cases e : dst.key = swig.key
          · rw [e, Mem.setData_data, Wallet.parts_bytes, Wallet.used_encode_length hw, ← hd, ← e]; exact hl
          · rw [Mem.setData_other _ _ e]; exact hl
        unfold slU
        rw [if_pos (by omega)]
        exact .ok _
      · exact .bind (by safe) fun _ _ => .bind (by safe) fun _ _ => .bind (by safe) fun _ _ => .bind (by safe) fun _ _ =>
          tokenTransfer_safe hc
  · safe

end

end Verif
