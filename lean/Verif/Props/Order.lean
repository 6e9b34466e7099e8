import Verif.Proofs.Order
import Verif.Props.Accept

/-!
# Property C117: independent management requests may come in any order

The words used are in Verif/Spec/Order.lean.
-/

namespace Verif
open Client

/-- Whatever the order in which a set of pairwise independent management requests is carried out, on whatever ledgers that agree on the
wallet account, and whatever happens in between elsewhere: the wallet account ends up with the same data, byte for byte. -/
theorem C117_any_order {k : Key} {a b a' b' : Mem} {w : Wallet} {l l' : List Request} (hp : l.Perm l') (ha : Open a k w) (hb : Open b k w)
    (room : w.roles.length + l.length < 2 ^ 16 ∧ w.roleCounter + l.length < 2 ^ 32)
    (hq : ∀ q ∈ l, Manages q.2 ∧ Existed w.roleCounter q.2) (hi : l.Pairwise fun p q => Independent p.2 q.2)
    (h : Handled k a l a') (h' : Handled k b l' b') : (a' k).data = (b' k).data :=
  runs_perm hp ha.wf ha.data hb.data room.1 room.2 hq hi h h'

/-- Requests of others that neither change nor act as the roles a request names do not turn its acceptance into a refusal: removing a role,
starting a session, replacing a signer (the requests that need no lamports; not for a program-execution role, which needs a second proof). -/
theorem C117_still_accepted {k : Key} {m m' : Mem} {w : Wallet} {l : List Request} {env : Env} {cpi : Cpi} {swig : Meta} {rest : List Meta}
    {ix : Bytes} (ho : Open m k w) (room : w.roles.length + l.length < 2 ^ 16 ∧ w.roleCounter + l.length < 2 ^ 32)
    (hq : ∀ q ∈ l, Manages q.2 ∧ ∀ t, t = actingRole ix ∨ changedRole ix = some t → changedRole q.2 ≠ some t ∧ actingRole q.2 ≠ t)
    (h : Handled k m l m') (hown : (m' k).owner = swigId) (hsize : (m' k).data.length ≤ 10485760)
    (hsys : (m' instructionsSysvarId).data = (m instructionsSysvarId).data)
    (hk : swig.key = k) (hl : (swig :: rest).length ≤ 254) (hpl : Plain m w (swig :: rest)) (hpl' : ∀ v, Open m' k v → Plain m' v (swig :: rest))
    (hs : w.encode.length ≤ 10485760)
    (hix : rd ix 0 2 = 2 ∨ rd ix 0 2 = 5 ∨ (rd ix 0 2 = 16 ∧ ∀ r, w.role? (actingRole ix) = some r → r.authType ≠ T.programExec))
    (hacc : Accepted env cpi m (swig :: rest) ix) : Accepted env cpi m' (swig :: rest) ix := by
  subst hk
  obtain ⟨v, hv, hd, hrole⟩ := runs_role h ho.wf ho.data room.1 room.2 fun q hm => (hq q hm).1
  have ho' : Open m' swig.key v := ⟨hown, hv, hd⟩
  rw [hd] at hsize
  have same : ∀ t r, t = actingRole ix ∨ changedRole ix = some t → w.role? t = some r → v.role? t = some r := by
    intro t r ht hr
    have hlt : t < w.roleCounter := by
      have := role?_mem hr
      have hlt := ho.wf.idsLt r this.1
      rw [this.2] at hlt
      exact hlt
    rw [hrole t hlt fun q hm => (hq q hm).2 t ht, hr]
  have speaks : ∀ {payload data r}, Speaks env m (swig :: rest) w (actingRole ix) payload data r →
      Speaks env m' (swig :: rest) v (actingRole ix) payload data r := by
    rintro payload data r ⟨h1, x, h2⟩
    exact ⟨same _ _ (.inl rfl) h1, x, by rw [hsys]; exact h2⟩
  rcases hix with hix | hix | ⟨hix, hx⟩
  · rw [C109_remove ho hpl hl hix hs] at hacc
    rw [C109_remove ho' (hpl' v ho') hl hix hsize]
    obtain ⟨h1, h2, h3, ⟨t, h4⟩, r, h5, h6⟩ := hacc
    have hac : actingRole ix = rd ix 8 4 := by simp [actingRole, hix]
    rw [← hac] at h5 ⊢
    exact ⟨h1, h2, h3, ⟨t, same _ _ (.inr (by simp [changedRole, hix])) h4⟩, r, speaks h5, hac ▸ h6⟩
  · rw [C109_session ho hpl hl hix] at hacc
    rw [C109_session ho' (hpl' v ho') hl hix]
    obtain ⟨h1, h2, r, a, s, h3, h4, h5, h6, h7, h8, h9⟩ := hacc
    rw [← hsys] at h8
    exact ⟨h1, h2, r, a, s, same _ _ (.inr (by simp [changedRole, hix])) h3, h4, h5, h6, h7, h8, h9⟩
  · have hac : actingRole ix = rd ix 4 4 := by simp [actingRole, hix]
    have hacc' := hacc
    rw [C109_replace ho hpl hl hix (by rw [← hac]; exact hx)] at hacc
    obtain ⟨h1, h2, h3, h4, ⟨r, h5, h6⟩, t, a, key, h7, h8⟩ := hacc
    rw [← hac] at h5
    rw [C109_replace ho' (hpl' v ho') hl hix (by
      rw [← hac]
      intro r' hr'
      cases hr'.symm.trans (speaks h5).1
      exact hx r h5.1)]
    rw [← hac]
    exact ⟨h1, h2, h3, h4, ⟨r, speaks h5, h6⟩, t, a, key, same _ _ (.inr (by simp [changedRole, hix])) h7, h8⟩

/-- The request submits this credential and these permissions for a new role. -/
def NewRole (ix : Bytes) (c : Auth) (as : List Act) : Prop :=
  initialAuth (rd ix 6 2) (sl ix 16 (16 + rd ix 2 2)) = some c ∧
    Submits (sl ix (16 + rd ix 2 2) (16 + rd ix 2 2 + rd ix 4 2)) as

theorem NewRole.inj {ix : Bytes} {c d : Auth} {as bs : List Act} (h : NewRole ix c as) (h' : NewRole ix d bs) : c = d ∧ as = bs :=
  ⟨Option.some.inj (h.1.symm.trans h'.1), Submits.inj h.2 h'.2⟩

theorem added_role {env : Env} {cpi : Cpi} {m m' : Mem} {swig : Meta} {rest : List Meta} {ix : Bytes} {w : Wallet} (hw : w.WF)
    (hd : (m swig.key).data = w.encode) (hcount : w.roles.length + 1 < 2 ^ 16) (hctr : w.roleCounter + 1 < 2 ^ 32) (hi : rd ix 0 2 = 1)
    (e : process env cpi m (swig :: rest) ix = .ok m') :
    ∃ (v : Wallet) (c : Auth) (as : List Act), v.WF ∧ (m' swig.key).data = v.encode ∧ NewRole ix c as ∧ v.roleCounter = w.roleCounter + 1 ∧
      v.roles.length = w.roles.length + 1 ∧ v.role? w.roleCounter = some ⟨rd ix 6 2, w.roleCounter, c.encode, as⟩ ∧
      ∀ t, t < w.roleCounter → actingRole ix ≠ t → v.role? t = w.role? t := by
  obtain ⟨es, he, h1, h2⟩ := process_edits hw hd hcount hctr (by simp [Manages, hi]) e
  have hsrc := he.src
  have hkeep : ∀ t, t < w.roleCounter → actingRole ix ≠ t → (applyAll es w).role? t = w.role? t := fun t ht ha =>
    role?_applyAll (p := (env.slot, ix)) hsrc (by simp [changedRole, hi]) ha ht
  cases he with
  | @add a cred as k1 k2 k3 k4 =>
    dsimp only at k2
    unfold parseAdd at k2
    split at k2
    · cases k2
    · dsimp only at k2
      split at k2
      · cases k2
      · cases k2
        exact ⟨_, cred, as, h2, h1, ⟨k3, k4⟩, rfl, by simp [applyAll, Edit.apply, Wallet.used, Wallet.mapRole, Wallet.addRole],
          role?_addRole (Wallet.used_wf hw _) _ _ _, hkeep⟩
  | _ => dsimp only at *; omega

theorem added_two {k : Key} {a a' : Mem} {w : Wallet} {p q : Request} (hw : w.WF) (hd : (a k).data = w.encode)
    (room : w.roles.length + 2 < 2 ^ 16 ∧ w.roleCounter + 2 < 2 ^ 32) (hp : rd p.2 0 2 = 1)
    (hq : rd q.2 0 2 = 1 ∧ actingRole q.2 < w.roleCounter) (h : Handled k a [p, q] a') :
    ∃ (v : Wallet) (c d : Auth) (as bs : List Act), v.WF ∧ (a' k).data = v.encode ∧ NewRole p.2 c as ∧ NewRole q.2 d bs ∧
      v.role? w.roleCounter = some ⟨rd p.2 6 2, w.roleCounter, c.encode, as⟩ ∧
      v.role? (w.roleCounter + 1) = some ⟨rd q.2 6 2, w.roleCounter + 1, d.encode, bs⟩ := by
  cases h with
  | @cons _ m0 m1 _ env cpi swig rest ix _ e1 hk hp1 h =>
    subst hk
    cases h with
    | @cons _ n0 n1 _ env' cpi' swig' rest' ix' _ e2 hk' hp2 h =>
      cases h with
      | nil e3 =>
        rw [← hk'] at e2 e3
        obtain ⟨v1, c, as, g1, g2, g3, g4, g5, g6, _⟩ := added_role hw (e1.trans hd) (by omega) (by omega) hp hp1
        rw [← hk'] at g2
        obtain ⟨v2, d, bs, f1, f2, f3, f4, f5, f6, f7⟩ := added_role g1 (e2.trans g2) (by omega) (by omega) hq.1 hp2
        rw [← hk']
        have hne : actingRole ix' ≠ w.roleCounter := by have := hq.2; dsimp only at this; omega
        refine ⟨v2, c, d, as, bs, f1, e3.trans f2, g3, f3, (f7 _ (by omega) hne).trans g6, ?_⟩
        rw [g4] at f6
        exact f6

/-- Why two additions are not independent: each id goes to whichever request comes first. A client that presumes the id of the role it
adds may name, in its next request, a role added by someone else. -/
theorem C117_additions {k : Key} {a b a' b' : Mem} {w : Wallet} {p q : Request} (ha : Open a k w) (hb : Open b k w)
    (room : w.roles.length + 2 < 2 ^ 16 ∧ w.roleCounter + 2 < 2 ^ 32) (hp : rd p.2 0 2 = 1 ∧ actingRole p.2 < w.roleCounter)
    (hq : rd q.2 0 2 = 1 ∧ actingRole q.2 < w.roleCounter) (h : Handled k a [p, q] a') (h' : Handled k b [q, p] b') :
    ∃ (v v' : Wallet) (c d : Auth) (as bs : List Act), v.WF ∧ v'.WF ∧ (a' k).data = v.encode ∧ (b' k).data = v'.encode ∧
      NewRole p.2 c as ∧ NewRole q.2 d bs ∧
      v.role? w.roleCounter = some ⟨rd p.2 6 2, w.roleCounter, c.encode, as⟩ ∧
      v.role? (w.roleCounter + 1) = some ⟨rd q.2 6 2, w.roleCounter + 1, d.encode, bs⟩ ∧
      v'.role? w.roleCounter = some ⟨rd q.2 6 2, w.roleCounter, d.encode, bs⟩ ∧
      v'.role? (w.roleCounter + 1) = some ⟨rd p.2 6 2, w.roleCounter + 1, c.encode, as⟩ := by
  obtain ⟨v, c, d, as, bs, h1, h2, h3, h4, h5, h6⟩ := added_two ha.wf ha.data room hp.1 hq h
  obtain ⟨v', d', c', bs', as', k1, k2, k3, k4, k5, k6⟩ := added_two hb.wf hb.data room hq.1 hp h'
  obtain ⟨rfl, rfl⟩ := h3.inj k4
  obtain ⟨rfl, rfl⟩ := h4.inj k3
  exact ⟨v, v', c, d, as, bs, h1, k1, h2, k2, h3, h4, h5, h6, k5, k6⟩

/-! Concrete cases: the wallet `manyWallet` of C109 with a manager (role 0), a role 1 and a session role 2. -/

section
open Sample

private def sessionReq : Request := (env.slot, sessionIx 60)
private def updateReq : Request := (env.slot, updateIx)
private def addReq : Request := (env.slot, addIx)
/-- Role 0 adds another role with key `K 13`. -/
private def addReq' : Request := (env.slot, natLE 2 1 ++ natLE 2 32 ++ natLE 2 16 ++ natLE 2 1 ++ [1, 0, 0, 0] ++ natLE 4 0 ++ K 13 ++
    (natLE 2 1 ++ natLE 2 8 ++ natLE 4 16 ++ natLE 8 9) ++ [1])

private def memOf (r : R Mem) : Mem := match r with
  | .ok m => m
  | .error _ => manyMem

private theorem memOf_ok {r : R Mem} (h : ok r = true) : r = .ok (memOf r) := by
  cases r with
  | ok m => rfl
  | error e => cases h

/-- Carry out the requests with the given payers. -/
private def chain : Mem → List (Key × Request) → Mem
  | m, [] => m
  | m, (p, q) :: l => chain (memOf (process env noCall m (metas p) q.2)) l

private def okChain : Mem → List (Key × Request) → Bool
  | _, [] => true
  | m, (p, q) :: l => q.1 == env.slot && ok (process env noCall m (metas p) q.2) && okChain (memOf (process env noCall m (metas p) q.2)) l

private theorem chain_runs : ∀ (l : List (Key × Request)) (m : Mem), okChain m l = true → Handled (K 1) m (l.map (·.2)) (chain m l)
  | [], m, _ => .nil rfl
  | (p, (s, ix)) :: l, m, h => by
    simp only [okChain, Bool.and_eq_true, beq_iff_eq] at h
    obtain ⟨⟨h1, h2⟩, h3⟩ := h
    subst h1
    exact .cons (swig := ⟨K 1, false, true⟩) (rest := (metas p).tail) rfl rfl (memOf_ok h2) (chain_runs l _ h3)

private def orderA : List (Key × Request) := [(K 11, sessionReq), (K 10, updateReq), (K 10, addReq)]
private def orderB : List (Key × Request) := [(K 10, addReq), (K 10, updateReq), (K 11, sessionReq)]

/-- A session of role 2, an update of role 1 and a new role, in two orders: all of it accepted, all hypotheses met. -/
example : Open manyMem (K 1) manyWallet ∧ (orderA.map (·.2)).Perm (orderB.map (·.2)) ∧
    (manyWallet.roles.length + 3 < 2 ^ 16 ∧ manyWallet.roleCounter + 3 < 2 ^ 32) ∧
    (∀ q ∈ orderA.map (·.2), Manages q.2 ∧ Existed manyWallet.roleCounter q.2) ∧
    (orderA.map (·.2)).Pairwise (fun p q => Independent p.2 q.2) ∧ Handled (K 1) manyMem (orderA.map (·.2)) (chain manyMem orderA) ∧
    Handled (K 1) manyMem (orderB.map (·.2)) (chain manyMem orderB) ∧ (chain manyMem orderA (K 1)).data ≠ (manyMem (K 1)).data := by
  have hcS : changedRole (sessionIx 60) = some 2 := by decide +kernel
  have hcU : changedRole updateIx = some 1 := by decide +kernel
  have hcA : changedRole addIx = none := by decide +kernel
  have haS : actingRole (sessionIx 60) = 2 := by decide +kernel
  have haU : actingRole updateIx = 0 := by decide +kernel
  have haA : actingRole addIx = 0 := by decide +kernel
  have hn : manyWallet.roleCounter = 3 := rfl
  refine ⟨many_open.1, ?_, by decide, ?_, ?_, chain_runs _ _ (by decide +kernel), chain_runs _ _ (by decide +kernel), by decide +kernel⟩
  · show [sessionReq, updateReq, addReq].Perm [addReq, updateReq, sessionReq]
    exact (List.reverse_perm [addReq, updateReq, sessionReq])
  · intro q hq
    simp only [orderA, List.map_cons, List.map_nil, List.mem_cons, List.not_mem_nil, or_false] at hq
    rcases hq with rfl | rfl | rfl
    · exact ⟨by unfold Manages; decide +kernel, by show actingRole (sessionIx 60) < _; rw [haS, hn]; decide, by
        intro t (ht : changedRole (sessionIx 60) = some t); rw [hcS] at ht; cases ht; decide⟩
    · exact ⟨by unfold Manages; decide +kernel, by show actingRole updateIx < _; rw [haU, hn]; decide, by
        intro t (ht : changedRole updateIx = some t); rw [hcU] at ht; cases ht; decide⟩
    · exact ⟨by unfold Manages; decide +kernel, by show actingRole addIx < _; rw [haA, hn]; decide, by
        intro t (ht : changedRole addIx = some t); rw [hcA] at ht; cases ht⟩
  · show [sessionReq, updateReq, addReq].Pairwise _
    have i1 : Independent (sessionIx 60) updateIx :=
      ⟨by intro t ht; rw [hcS] at ht; cases ht; rw [hcU, haU]; decide, by intro t ht; rw [hcU] at ht; cases ht; rw [hcS, haS]; decide,
        by decide +kernel⟩
    have i2 : Independent (sessionIx 60) addIx :=
      ⟨by intro t ht; rw [hcS] at ht; cases ht; rw [hcA, haA]; decide, (by intro t ht; rw [hcA] at ht; cases ht), by decide +kernel⟩
    have i3 : Independent updateIx addIx :=
      ⟨by intro t ht; rw [hcU] at ht; cases ht; rw [hcA, haA]; decide, (by intro t ht; rw [hcA] at ht; cases ht), by decide +kernel⟩
    refine List.Pairwise.cons ?_ (List.Pairwise.cons ?_ (List.Pairwise.cons (by simp) .nil))
    · intro q hq
      simp only [List.mem_cons, List.not_mem_nil, or_false] at hq
      rcases hq with rfl | rfl
      · exact i1
      · exact i2
    · intro q hq
      simp only [List.mem_cons, List.not_mem_nil, or_false] at hq
      subst hq
      exact i3

/-- Two additions, in both orders: accepted, and the accounts end up different. -/
example : Handled (K 1) manyMem [addReq, addReq'] (chain manyMem [(K 10, addReq), (K 10, addReq')]) ∧
    Handled (K 1) manyMem [addReq', addReq] (chain manyMem [(K 10, addReq'), (K 10, addReq)]) ∧
    rd addReq.2 0 2 = 1 ∧ rd addReq'.2 0 2 = 1 ∧ actingRole addReq.2 < manyWallet.roleCounter ∧ actingRole addReq'.2 < manyWallet.roleCounter ∧
    (chain manyMem [(K 10, addReq), (K 10, addReq')] (K 1)).data ≠ (chain manyMem [(K 10, addReq'), (K 10, addReq)] (K 1)).data :=
  ⟨chain_runs [(K 10, addReq), (K 10, addReq')] manyMem (by decide +kernel),
    chain_runs [(K 10, addReq'), (K 10, addReq)] manyMem (by decide +kernel), by decide +kernel, by decide +kernel, by decide +kernel,
    by decide +kernel, by decide +kernel⟩

private def afterMem : Mem := chain manyMem [(K 10, updateReq), (K 10, addReq)]

private def afterWallet : Wallet := ⟨255, K 70, 4, 254, zeros 3, 1,
  [⟨1, 0, K 10, [⟨7, []⟩, ⟨26, natLE 4 0 ++ zeros 4⟩]⟩, ⟨1, 1, K 11, [⟨7, []⟩]⟩,
    ⟨2, 2, (⟨.ed25519 (K 11), some ⟨zeros 32, 60, 0⟩⟩ : Auth).encode, [⟨1, natLE 8 500⟩]⟩, ⟨1, 3, K 12, [⟨1, natLE 8 9⟩]⟩], none⟩

private theorem afterWallet_wf : afterWallet.WF where
  idLen := by decide
  padLen := by decide
  counter := by decide
  subCounter := by decide
  count := by decide
  roles := by
    intro r hr
    simp only [afterWallet, List.mem_cons, List.not_mem_nil, or_false] at hr
    rcases hr with rfl | rfl | rfl | rfl
    · exact ⟨by decide, by decide, by decide, by decide, by decide⟩
    · exact ⟨by decide, by decide, by decide, by decide, by decide⟩
    · exact ⟨by decide, by decide, by decide, by decide, by decide⟩
    · exact ⟨by decide, by decide, by decide, by decide, by decide⟩
  idsNodup := by decide
  idsLt := by decide
  claimer := by simp [afterWallet]
  size := by decide

/-- A session of role 2, still accepted after an update of role 1 and an addition: the theorem applies. -/
example : Accepted env noCall afterMem (metas (K 11)) (sessionIx 60) := by
  have hcS : changedRole (sessionIx 60) = some 2 := by decide +kernel
  have haS : actingRole (sessionIx 60) = 2 := by decide +kernel
  have h : Handled (K 1) manyMem [updateReq, addReq] afterMem :=
    chain_runs [(K 10, updateReq), (K 10, addReq)] manyMem (by decide +kernel)
  refine C117_still_accepted (swig := ⟨K 1, false, true⟩) (rest := (metas (K 11)).tail) many_open.1 (by decide) ?_ h (by decide +kernel)
    (by decide +kernel) (by decide +kernel) rfl (by decide) (by unfold Plain; decide +kernel) ?_ (by decide +kernel)
    (.inr (.inl (by decide +kernel))) (exists_of_ok (by decide +kernel))
  · intro q hq
    have two : ∀ t, t = actingRole (sessionIx 60) ∨ changedRole (sessionIx 60) = some t → t = 2 := by
      rw [haS, hcS]
      rintro t (rfl | h)
      · rfl
      · cases h; rfl
    simp only [List.mem_cons, List.not_mem_nil, or_false] at hq
    rcases hq with rfl | rfl
    · exact ⟨by unfold Manages; decide +kernel, fun t ht => by rw [two t ht]; decide +kernel⟩
    · exact ⟨by unfold Manages; decide +kernel, fun t ht => by rw [two t ht]; decide +kernel⟩
  · intro v hv
    have e : v = afterWallet := Wallet.encode_inj hv.wf afterWallet_wf (hv.data.symm.trans (by decide +kernel))
    subst e
    unfold Plain
    decide +kernel

end

end Verif
