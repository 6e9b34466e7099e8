import Verif.Spec.Contain
import Verif.Proofs.Lifetime

/-! The theft of a credential without administrative permissions stays contained. -/

namespace Verif

/-- The changes that roles without administrative permissions can make. -/
def Small (S : Nat → Prop) : Kind → Prop
  | .used id | .removed id | .charged id | .v1Sub id | .granted id | .session id => S id
  | .issued => True
  | _ => False

theorem Contained.refl {S : Nat → Prop} {w : Wallet} : Contained S w w :=
  ⟨⟨rfl, rfl, rfl, rfl, rfl⟩, fun _ _ => rfl, fun _ r h => ⟨r, h, rfl, rfl, fun a ha => .inr ⟨a, ha, rfl⟩⟩⟩

theorem Contained.trans {S : Nat → Prop} {a b c : Wallet} (h : Contained S a b) (h' : Contained S b c) : Contained S a c := by
  refine ⟨?_, fun j hj => (h'.others j hj).trans (h.others j hj), ?_⟩
  · obtain ⟨a1, a2, a3, a4, a5⟩ := h.header
    obtain ⟨b1, b2, b3, b4, b5⟩ := h'.header
    exact ⟨b1.trans a1, b2.trans a2, b3.trans a3, b4.trans a4, b5.trans a5⟩
  · intro j r' hr
    obtain ⟨r1, g1, g2, g3, g4⟩ := h'.inside j r' hr
    obtain ⟨r0, f1, f2, f3, f4⟩ := h.inside j r1 g1
    refine ⟨r0, f1, g2.trans f2, g3.trans f3, fun a' ha => ?_⟩
    rcases g4 a' ha with h | ⟨a1, ha1, e⟩
    · exact .inl h
    · rcases f4 a1 ha1 with h | ⟨a0, ha0, e0⟩
      · exact .inl (e ▸ h)
      · exact .inr ⟨a0, ha0, e0.trans e⟩

theorem Powerless.keep {S : Nat → Prop} {w w' : Wallet} (hp : Powerless w S) (h : Contained S w w') : Powerless w' S := by
  intro id hid r' hr' a' ha'
  obtain ⟨r, h1, _, _, h2⟩ := h.inside id r' hr'
  rcases h2 a' ha' with e | ⟨a, ha, e⟩
  · rw [e]; decide
  · rw [← e]; exact hp id hid r h1 a ha

/-- A change of one role in `S` that keeps its key and gains it no permission. -/
theorem Contained.map {S : Nat → Prop} {w : Wallet} {id : Nat} {f : Role → Role} (hid : S id) (hf : ∀ r, (f r).id = r.id)
    (hi : ∀ r, w.role? id = some r → (f r).authType = r.authType ∧ (f r).mainKey = r.mainKey ∧
      ∀ a' ∈ (f r).actions, a'.ty = P.subAccountV2All ∨ ∃ a ∈ r.actions, a.ty = a'.ty) : Contained S w (w.mapRole id f) := by
  refine ⟨⟨rfl, rfl, rfl, rfl, rfl⟩, ?_, ?_⟩
  · intro j hj
    rw [mapRole_find w id j f hf]
    cases hr : w.role? j with
    | none => rfl
    | some r =>
      have : r.id ≠ id := by rw [(role?_mem hr).2]; rintro rfl; exact hj hid
      simp [this]
  · intro j r' hr
    rw [mapRole_find w id j f hf] at hr
    cases hr0 : w.role? j with
    | none => rw [hr0] at hr; cases hr
    | some r =>
      rw [hr0] at hr
      have hr := Option.some.inj hr
      dsimp only at hr
      refine ⟨r, rfl, ?_⟩
      by_cases e : r.id = id
      · rw [if_pos e] at hr
        rw [← hr]
        exact hi r (by rw [← e, (role?_mem hr0).2]; exact hr0)
      · rw [if_neg e] at hr
        rw [← hr]
        exact ⟨rfl, rfl, fun a ha => .inr ⟨a, ha, rfl⟩⟩

/-- Counters of secp roles are stored behind 36 bytes. -/
def Lens (w : Wallet) : Prop := ∀ j r, w.role? j = some r → r.authType = 3 ∨ r.authType = 5 → 36 ≤ r.auth.length

theorem Wallet.WF.lens {w : Wallet} (hw : w.WF) : Lens w := by
  intro j r hr ht
  have := (hw.roles r (role?_mem hr).1).auth
  rcases ht with e | e <;> rw [e] at this <;> have := Option.some.inj this <;> omega

theorem Change.contained {S : Nat → Prop} {w w' : Wallet} {kd : Kind} (hw : Lens w) (hk : Small S kd) (h : Change w kd w') : Contained S w w' := by
  have same : ∀ {r : Role} {a : Act}, a ∈ r.actions → a.ty = P.subAccountV2All ∨ ∃ b ∈ r.actions, b.ty = a.ty := fun ha => .inr ⟨_, ha, rfl⟩
  cases h with
  | used id =>
    refine Contained.map hk (fun _ => rfl) fun r hr => ⟨rfl, ?_, fun a ha => same ha⟩
    unfold Role.mainKey usedCred
    dsimp only
    by_cases e : r.authType = 3 ∨ r.authType = 5
    · rw [if_pos e, if_pos (by omega), List.take_append, List.take_take]
      rw [List.length_take, Nat.min_eq_left (hw id r hr e)]; simp
    · rw [if_neg e]
  | added ty auth as => exact hk.elim
  | removed id _ =>
    refine ⟨⟨rfl, rfl, rfl, rfl, rfl⟩, ?_, ?_⟩
    · intro j hj
      unfold Wallet.role? Wallet.removeRole
      simp only [List.find?_filter]
      congr 1
      funext x
      by_cases hx : x.id = j
      · have : j ≠ id := by rintro rfl; exact hj hk
        simp [hx, this]
      · simp [hx]
    · intro j r' hr
      refine ⟨r', ?_, rfl, rfl, fun a ha => same ha⟩
      unfold Wallet.role? Wallet.removeRole at *
      simp only [List.find?_filter] at hr
      by_cases hj : j = id
      · have := List.find?_some hr
        simp [hj] at this
      · rw [← hr]
        congr 1
        funext x
        by_cases hx : x.id = j
        · simp [hx, hj]
        · simp [hx]
  | updated id as => exact hk.elim
  | charged id r0 as h0 h1 =>
    refine Contained.map hk (fun _ => rfl) fun r hr => ⟨rfl, rfl, fun a ha => .inr ?_⟩
    cases h0.symm.trans hr
    have : a.ty ∈ as.map Act.ty := List.mem_map.mpr ⟨a, ha, rfl⟩
    rw [h1] at this
    obtain ⟨b, hb, e⟩ := List.mem_map.mp this
    exact ⟨b, hb, e⟩
  | v1Sub id r0 before a a' after h0 h1 h2 h3 =>
    refine Contained.map hk (fun _ => rfl) fun r hr => ⟨rfl, rfl, fun x hx => .inr ?_⟩
    cases h0.symm.trans hr
    rw [h1]
    rcases List.mem_append.mp hx with hx | hx
    · exact ⟨x, List.mem_append_left _ hx, rfl⟩
    · rcases List.mem_cons.mp hx with e | hx
      · exact ⟨a, by simp, by rw [e, h2, h3]⟩
      · exact ⟨x, by simp [hx], rfl⟩
  | granted id r0 a h0 h1 =>
    refine Contained.map hk (fun _ => rfl) fun r hr => ⟨rfl, rfl, fun x hx => ?_⟩
    cases h0.symm.trans hr
    rcases List.mem_append.mp hx with hx | hx
    · exact same hx
    · rw [List.mem_singleton.mp hx]; exact .inl h1
  | session id r0 a s t h0 g1 g2 g3 g4 _ =>
    refine Contained.map hk (fun _ => rfl) fun r hr => ⟨rfl, ?_, fun a ha => same ha⟩
    cases h0.symm.trans hr
    unfold Role.mainKey
    dsimp only
    rw [← g2, ← g3]
    obtain ⟨c, ss⟩ := a
    have hc := g1.cred
    cases c with
    | ed25519 pk => simp_all [Auth.encode, Cred.encode, Cred.used, Auth.ty, Cred.WF]
    | secp256k1 pk pad n => simp_all [Auth.encode, Cred.encode, Cred.used, Auth.ty, Cred.WF]
    | secp256r1 pk pad n => simp_all [Auth.encode, Cred.encode, Cred.used, Auth.ty, Cred.WF]
    | exec p n pad buf => simp_all [Auth.encode, Cred.encode, Cred.used, Auth.ty, Cred.WF]
  | replaced id r0 a key h0 => exact hk.elim
  | claimed c _ => exact hk.elim
  | migrated b => exact hk.elim
  | issued => exact ⟨⟨rfl, rfl, rfl, rfl, rfl⟩, fun _ _ => rfl, fun _ r h => ⟨r, h, rfl, rfl, fun a ha => .inr ⟨a, ha, rfl⟩⟩⟩

theorem Change.lens {S : Nat → Prop} {w w' : Wallet} {kd : Kind} (hw : Lens w) (hk : Small S kd) (h : Change w kd w') : Lens w' := by
  intro j r' hr' ht
  obtain ⟨r, hr, e1, _⟩ := (h.contained hw hk).inside j r' hr'
  rw [e1] at ht
  rcases h.effect hr with rfl | ⟨r1, h1, h2⟩
  · rw [h.removedGone] at hr'; cases hr'
  · cases hr'.symm.trans h1
    rcases h2.auth with ⟨_, e⟩ | ⟨_, e⟩ | rfl | ⟨_, e⟩
    · rw [e]
      unfold usedCred
      rw [if_pos ht]
      have := hw j r hr ht
      simp [Nat.min_eq_left this]
    · rcases ht with ht | ht <;> rw [ht] at e <;> cases e
    · exact hk.elim
    · rw [e]; exact hw j r hr ht

theorem Changes.contained {S : Nat → Prop} {w w' : Wallet} (hw : w.WF) (h : Changes (Small S) w w') : Contained S w w' :=
  (h.induct (Q := fun x => Contained S w x ∧ Lens x) ⟨.refl, hw.lens⟩
    fun _ _ _ ih hk hc => ⟨ih.1.trans (hc.contained ih.2 hk), hc.lens ih.2 hk⟩).1

theorem not_admin {r : Role} (h : ∀ a ∈ r.actions, a.ty ∉ administrative) {ty : Nat} (ht : ty ∈ administrative) : ¬ r.holds ty := by
  rintro ⟨a, ha, e⟩
  exact h a ha (e ▸ ht)

section
variable {env : Env} {cpi : Cpi} {m m' : Mem} {k : Key}

/-- What a request acting as a role without administrative permissions may do to the wallet. -/
theorem process_small {S : Nat → Prop} {w : Wallet} {swig : Meta} {rest0 : List Meta} {ix : Bytes} (ho : (m swig.key).owner = swigId) (hw : w.WF)
    (hd : (m swig.key).data = w.encode) (hp : Powerless w S) (hs : S (actingRole ix)) (hf : Fine env cpi m (swig :: rest0) ix)
    (e : process env cpi m (swig :: rest0) ix = .ok m') : ∀ kd, Does ix kd → Small S kd := by
  obtain ⟨hcount, hctr⟩ := hf.room _ _ _ rfl ⟨ho, hw, hd⟩
  have hrt := hf.runtime _ _ rfl
  have bad : ∀ {id r ty}, id = actingRole ix → w.role? id = some r → ty ∈ administrative → r.holds ty → False :=
    fun e h1 h2 => not_admin (hp _ (e ▸ hs) _ h1) h2
  unfold process at e
  obtain ⟨_, _, e1⟩ := bind_ok_iff.mp e
  clear e
  obtain ⟨cls, _, e⟩ := bind_ok_iff.mp e1
  clear e1
  unfold dispatch at e
  split at e
  · cases e
  intro kd hkd
  cases kd with
  | used id => rw [show Small S (.used id) = S id from rfl, hkd.2]; exact hs
  | charged id => rw [show Small S (.charged id) = S id from rfl, hkd.2]; exact hs
  | granted id => rw [show Small S (.granted id) = S id from rfl, hkd.2]; exact hs
  | session id => rw [show Small S (.session id) = S id from rfl, hkd.2]; exact hs
  | issued => trivial
  | added =>
    have hix : rd ix 0 2 = 1 := hkd
    rw [hix] at e
    match rest0, hrt, hf, e with
    | payer :: sys :: rest, hrt, hf, e =>
      obtain ⟨a, r, _, _, ha, h1, h2, _⟩ := addAuthorityV1_enc hw hd hcount hctr e
      have hac : a.acting = actingRole ix := by rw [parseAdd_acting ha]; simp [actingRole, hix]
      rcases h2 with h2 | h2
      · exact bad hac h1.1 (by decide) h2
      · exact bad hac h1.1 (by decide) h2
    | [_], _, _, e => cases e
    | [], _, _, e => cases e
  | removed id =>
    have hix : rd ix 0 2 = 2 := hkd.1
    rw [hix] at e
    match rest0, hrt, hf, e with
    | payer :: sys :: rest, hrt, hf, e =>
      obtain ⟨a, r, _, ha, _, h1, h2, _⟩ := removeAuthorityV1_enc hw hd e
      have hac : a.acting = actingRole ix := by rw [(parseRemove_roles ha).1]; simp [actingRole, hix]
      rcases h2 with (h2 | h2) | h2
      · exact (bad hac h1.1 (by decide) h2).elim
      · exact (bad hac h1.1 (by decide) h2).elim
      · show S id
        rw [hkd.2, ← (parseRemove_roles ha).2, ← h2, hac]; exact hs
    | [_], _, _, e => cases e
    | [], _, _, e => cases e
  | updated id =>
    have hix : rd ix 0 2 = 3 := hkd.1
    rw [hix] at e
    match rest0, hrt, hf, e with
    | payer :: sys :: rest, hrt, hf, e =>
      obtain ⟨a, r, _, _, ha, h1, h2, _⟩ := updateAuthorityV1_enc hw hd e
      have hac : a.acting = actingRole ix := by rw [(parseUpdate_roles ha).1]; simp [actingRole, hix]
      rcases h2 with h2 | h2
      · exact bad hac h1.1 (by decide) h2
      · exact bad hac h1.1 (by decide) h2
    | [_], _, _, e => cases e
    | [], _, _, e => cases e
  | v1Sub id =>
    rcases hkd with ⟨_, h⟩ | ⟨hix, hid⟩
    · show S id
      rw [h]; exact hs
    · rw [hix] at e
      match rest0, hrt, hf, e with
      | payer :: sub :: rest, hrt, hf, e =>
        obtain ⟨r, _, _, _, _, h1, h2, _⟩ := toggleSubV1_enc hw hd (hrt.keys sub (by simp)) e
        have hac : rd ix 12 4 = actingRole ix := by simp [actingRole, hix]
        rcases h2 with h2 | h2 | h2
        · show S id
          rw [hid, ← h2, hac]; exact hs
        · exact (bad hac h1.1 (by decide) h2).elim
        · exact (bad hac h1.1 (by decide) h2).elim
      | [_], _, _, e => cases e
      | [], _, _, e => cases e
  | replaced id =>
    have hix : rd ix 0 2 = 16 := hkd.1
    rw [hix] at e
    obtain ⟨a, r, _, _, _, ha, h1, h2, _⟩ := replaceAuthorityV1_enc hw hd e
    have hac : a.acting = actingRole ix := by rw [(parseReplace_roles ha).1]; simp [actingRole, hix]
    rcases h2 with h2 | h2 | ⟨x, hx, h2, _⟩
    · exact bad hac h1.1 (by decide) h2
    · exact bad hac h1.1 (by decide) h2
    · exact bad hac h1.1 (ty := P.replaceAuthority) (by decide) ⟨x, hx, h2⟩
  | claimed =>
    have hix : rd ix 0 2 = 17 := hkd
    rw [hix] at e
    match rest0, hrt, hf, e with
    | payer :: sys :: rest, hrt, hf, e =>
      obtain ⟨a, r, _, ha, h1, h2, _⟩ := setRentClaimerV1_enc hw hd e
      have hac : a.role = actingRole ix := by rw [parseClaimer_role ha]; simp [actingRole, hix]
      rcases h2 with h2 | h2
      · exact bad hac h1.1 (by decide) h2
      · exact bad hac h1.1 (by decide) h2
    | [_], _, _, e => cases e
    | [], _, _, e => cases e
  | migrated =>
    have hix : rd ix 0 2 = 12 := hkd
    rw [hix] at e
    match rest0, hrt, hf, e with
    | auth :: payer :: wallet :: sys :: rest, hrt, hf, e =>
      obtain ⟨a, r, ha, h1, h2, _⟩ := migrateV1_enc hw hd e
      have hac : a.role = actingRole ix := by rw [parseRoleIx_role ha]; simp [actingRole, hix]
      rcases h2 with h2 | h2
      · exact bad hac h1.1 (by decide) h2
      · exact bad hac h1.1 (by decide) h2
    | [_, _, _], _, _, e => cases e
    | [_, _], _, _, e => cases e
    | [_], _, _, e => cases e
    | [], _, _, e => cases e
  | closed =>
    have hix : rd ix 0 2 = 15 := hkd
    rw [hix] at e
    match rest0, hrt, hf, e with
    | wallet :: dst :: sys :: rest, hrt, hf, e =>
      obtain ⟨a, r, _, _, ha, _, h1, h2, _⟩ := closeSwigV1_enc hw hd e
      have hac : a.role = actingRole ix := by rw [parseRoleIx_role ha]; simp [actingRole, hix]
      rcases h2 with h2 | h2 | h2
      · exact bad hac h1.1 (by decide) h2
      · exact bad hac h1.1 (by decide) h2
      · exact bad hac h1.1 (by decide) h2
    | [_, _], _, _, e => cases e
    | [_], _, _, e => cases e
    | [], _, _, e => cases e

theorem stepsBy_hist {S : Nat → Prop} {w0 : Wallet} (hw0 : w0.WF) (hp : Powerless w0 S) (h : StepsBy S k m m') :
    Has k (Hist (Small S) w0) m → Has k (Hist (Small S) w0) m' := by
  induction h with
  | refl m => exact id
  | trans _ _ i1 i2 => exact fun h => i2 (i1 h)
  | outside h1 h2 => exact fun h => h.congr ⟨h1, h2⟩
  | @request env cpi m m' metas ix _ hok hf e hc =>
    intro h
    by_cases hk : FirstIs metas k
    · obtain ⟨swig, rest, rfl, rfl⟩ := hk
      rcases h.2 with ⟨w, hw, hl, hd⟩ | ⟨hd, _⟩
      · have hsm := process_small h.1 hw hd (hp.keep (hl.contained hw0)) (hok rfl) hf e
        exact process_own h.1 hw hd (fun _ => hl) (fun h5 _ => hl.tail (hsm (.used _) ⟨h5, rfl⟩) (.used _)) hsm hf (fun a ix b ha hb => hc a ix b ha.1 hb ha) e
      · exact hd.elim
    · exact process_frame (fun a ix b ha hb => hc a ix b ha.1 hb ha) Hist.notState hk h e

end

end Verif
