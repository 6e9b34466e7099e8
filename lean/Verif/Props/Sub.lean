import Verif.Proofs.Sub
import Verif.Props.Close
import Verif.Spec.Sample

/-!
# Properties C46 - C51: sub-accounts

`w` is the wallet stored in the configuration account.  A request names the acting role and the sub-account id in its
arguments: `rd ix 4 4` and `rd ix 8 4` are the little-endian numbers at these places of the instruction data.
-/

namespace Verif

/-- The role has a permission of type `op`, or the all-operations permission (type 23), whose payload starts with the
sub-account id `k`. -/
def MayUse (r : Role) (op k : Nat) : Prop := ∃ a ∈ r.actions, (a.ty = op ∨ a.ty = 23) ∧ leNat (a.data.take 4) = k

/-- The account `state` is the record of the sub-account `k` of the wallet with id `swig`; its asset account is `sub`. -/
def Records (m : Mem) (state : Key) (swig : Key) (k : Nat) (sub : Key) : Prop :=
  (m state).owner = swigId ∧ (m state).data.length = 72 ∧ (m state).data.getD 0 0 = 2 ∧ rd (m state).data 4 4 = k ∧
  sl (m state).data 8 40 = swig ∧ sl (m state).data 40 72 = sub

/-- The sub-account recorded in `state` is enabled. -/
def Enabled (m : Mem) (state : Key) : Prop := (m state).data.getD 3 0 = 1

section
variable {env : Env} {cpi : Cpi} {m m' : Mem} {swig auth state sub wallet sys x6 x7 payer : Meta} {rest : List Meta} {ix : Bytes}
  {w : Wallet}

/-! ## C46: scoped permissions -/

theorem Role.Scoped.may {r : Role} {op k : Nat} (h : r.Scoped op true k) : MayUse r op k := by
  obtain ⟨a, h1, h2, h3⟩ := h
  exact ⟨a, h1, h2.imp (fun x => x) (fun x => x.2), h3⟩

/-- Signing with sub-account `k`: the acting role authenticates, holds the sign or the all-operations grant for exactly `k`, and
the accounts used are those recorded for `k` of this wallet.  Holds for every behaviour of the called programs. -/
theorem C46_sign (hw : w.WF) (hd : (m swig.key).data = w.encode)
    (h : subSignV2 env cpi m (swig :: state :: sub :: sys :: rest) ix = .ok m') :
    ∃ (r : Role), w.role? (rd ix 4 4) = some r ∧ MayUse r P.subAccountV2Sign (rd ix 8 4) ∧
      Sample.ok (authRole env r.authType r.auth (swig :: state :: sub :: sys :: rest) (m instructionsSysvarId).data
        (ix.drop (16 + rd ix 2 2)) (ix.take (16 + rd ix 2 2))) = true ∧
      Records m state.key w.id (rd ix 8 4) sub.key := by
  obtain ⟨a, r, _, _, ha, _, _, _, h1, h2, _, h4, h5, _⟩ := subSignV2_enc hw hd h
  unfold parseSubSignV2 at ha
  split at ha
  · cases ha
  · dsimp only at ha
    split at ha
    · cases ha
    · cases ha
      exact ⟨r, h1.1, h2.may, by rw [h1.2]; rfl, h4, h5.len, h5.disc, h5.subId, h5.swig, h5.sub⟩

/-- Withdrawing from sub-account `k`: likewise, with the withdraw grant. -/
theorem C46_withdraw (hw : w.WF) (hd : (m swig.key).data = w.encode)
    (h : withdrawSubV2 env cpi m (swig :: auth :: state :: sub :: wallet :: x6 :: x7 :: rest) ix = .ok m') :
    ∃ (r : Role), w.role? (rd ix 4 4) = some r ∧ MayUse r P.subAccountV2Withdraw (rd ix 8 4) ∧
      Sample.ok (authRole env r.authType r.auth (swig :: auth :: state :: sub :: wallet :: x6 :: x7 :: rest)
        (m instructionsSysvarId).data (ix.drop 24) (ix.take 24)) = true ∧
      Records m state.key w.id (rd ix 8 4) sub.key := by
  obtain ⟨r, h1, h2, _, h4, _, _, _, h5, _⟩ := withdrawSubV2_enc hw hd h
  exact ⟨r, h1.1, h2.may, by rw [h1.2]; rfl, h4, h5.len, h5.disc, h5.subId, h5.swig, h5.sub⟩

/-- Toggling sub-account `k`: likewise, with the toggle grant; nothing but the enabled byte of its record (and the replay counter
of the acting role) changes. -/
theorem C46_toggle (hw : w.WF) (hd : (m swig.key).data = w.encode)
    (h : toggleSubV2 env m (swig :: auth :: state :: rest) ix = .ok m') :
    (∃ (r : Role), w.role? (rd ix 4 4) = some r ∧ MayUse r P.subAccountV2Toggle (rd ix 8 4) ∧
      Sample.ok (authRole env r.authType r.auth (swig :: auth :: state :: rest) (m instructionsSysvarId).data
        (ix.drop 16) (ix.take 16)) = true ∧
      ∃ sub, Records m state.key w.id (rd ix 8 4) sub) ∧
    (ix.getD 2 0 = 0 ∨ ix.getD 2 0 = 1) ∧
    (m' state.key).data = (m state.key).data.take 3 ++ [ix.getD 2 0] ++ (m state.key).data.drop 4 ∧
    (m' swig.key).data = (w.used (rd ix 4 4)).encode ∧
    ∀ k, (k ≠ swig.key → k ≠ state.key → m' k = m k) ∧ (m' k).lamports = (m k).lamports ∧ (m' k).owner = (m k).owner := by
  obtain ⟨r, h1, h2, hne, ho, h4, h01, h5, h6, h7, h8, _, rfl⟩ := toggleSubV2_enc hw hd h
  refine ⟨⟨r, h1.1, h2.may, by rw [h1.2]; rfl, _, h4, h5, h6, h7, h8, rfl⟩, h01, ?_, ?_, ?_⟩
  · rw [Mem.setData_data]; rfl
  · rw [Mem.setData_other _ _ hne.symm, Mem.setData_data]
  · intro k
    refine ⟨fun k1 k2 => ?_, by simp, by simp⟩
    rw [Mem.setData_other _ _ k2, Mem.setData_other _ _ k1]

/-- Default deny: a role without any scoped grant (types 23 to 26) can do none of the three, whatever else it holds. -/
theorem C46_default_deny (hw : w.WF) (hd : (m swig.key).data = w.encode) {r : Role} (hr : w.role? (rd ix 4 4) = some r)
    (hno : ∀ a ∈ r.actions, ¬ (23 ≤ a.ty ∧ a.ty ≤ 26)) :
    (∀ m', subSignV2 env cpi m (swig :: state :: sub :: sys :: rest) ix ≠ .ok m') ∧
    (∀ m', withdrawSubV2 env cpi m (swig :: auth :: state :: sub :: wallet :: x6 :: x7 :: rest) ix ≠ .ok m') ∧
    (∀ m', toggleSubV2 env m (swig :: auth :: state :: rest) ix ≠ .ok m') := by
  have key : ∀ op k r', w.role? (rd ix 4 4) = some r' → 23 ≤ op ∧ op ≤ 26 → MayUse r' op k → False := by
    intro op k r' h1 h2 h3
    rw [hr] at h1
    cases h1
    obtain ⟨a, ha, h4, _⟩ := h3
    exact hno a ha (by omega)
  refine ⟨fun m' h => ?_, fun m' h => ?_, fun m' h => ?_⟩
  · obtain ⟨r', h1, h2, _⟩ := C46_sign hw hd h
    exact key _ _ r' h1 (by decide) h2
  · obtain ⟨r', h1, h2, _⟩ := C46_withdraw hw hd h
    exact key _ _ r' h1 (by decide) h2
  · obtain ⟨⟨r', h1, h2, _⟩, _⟩ := C46_toggle hw hd h
    exact key _ _ r' h1 (by decide) h2

/-! ## C49: where withdrawals go -/

/-- Without token accounts (7 accounts): exactly the requested lamports move from the sub-account to the wallet's address; no
other balance and no data (but the replay counter) changes. -/
theorem C49_sol (hw : w.WF) (hd : (m swig.key).data = w.encode)
    (h : withdrawSubV2 env cpi m [swig, auth, state, sub, wallet, x6, x7] ix = .ok m') :
    env.pda (walletSeeds swig.key ++ [[w.walletBump]]) = some wallet.key ∧ Records m state.key w.id (rd ix 8 4) sub.key ∧
    rd ix 16 8 ≤ (m sub.key).lamports ∧
    (sub.key ≠ wallet.key → (m' sub.key).lamports = (m sub.key).lamports - rd ix 16 8 ∧
      (m' wallet.key).lamports = (m wallet.key).lamports + rd ix 16 8) ∧
    (∀ k, k ≠ sub.key → k ≠ wallet.key → (m' k).lamports = (m k).lamports) ∧
    (∀ k, (m' k).owner = (m k).owner ∧ (k ≠ swig.key → (m' k).data = (m k).data)) ∧
    (m' swig.key).data = (w.used (rd ix 4 4)).encode := by
  obtain ⟨r, h1, h2, hne, h4, _, _, _, h5, h6, h7⟩ := withdrawSubV2_enc hw hd h
  unfold withdrawV2 at h7
  rw [if_neg (by simp), if_pos (by simp)] at h7
  unfold withdrawSol at h7
  split at h7
  · cases h7
  · rename_i hle
    rw [Mem.setData_lamports] at hle
    obtain ⟨_, _, _, _, rfl⟩ := signedTransfer_ok h7
    refine ⟨h6, ⟨h4, h5.len, h5.disc, h5.subId, h5.swig, h5.sub⟩, by omega, ?_, ?_, ?_, ?_⟩
    · intro hk
      refine ⟨?_, ?_⟩
      · rw [Mem.setLamports_other _ _ hk]; simp
      · rw [Mem.setLamports_same, Mem.setLamports_other _ _ hk.symm]; simp
    · intro k k1 k2
      rw [Mem.setLamports_other _ _ k2, Mem.setLamports_other _ _ k1]; simp
    · intro k
      refine ⟨by simp, fun hk => ?_⟩
      rw [Mem.setLamports_data, Mem.setLamports_data, Mem.setData_other _ _ hk]
    · simp

/-- With token accounts (10 accounts): the only thing that happens is one transfer instruction (tag 3, the requested amount) of a
token program, from a token account of the sub-account to a token account of the wallet's address with the same mint. -/
theorem C49_token {src dst program : Meta} (hw : w.WF) (hd : (m swig.key).data = w.encode)
    (h : withdrawSubV2 env cpi m [swig, auth, state, sub, wallet, x6, x7, src, dst, program] ix = .ok m') :
    env.pda (walletSeeds swig.key ++ [[w.walletBump]]) = some wallet.key ∧ Records m state.key w.id (rd ix 8 4) sub.key ∧
    (program.key = tokenId ∨ program.key = token2022Id) ∧
    (m src.key).owner = program.key ∧ (m dst.key).owner = program.key ∧
    sl (m src.key).data 32 64 = sub.key ∧ sl (m dst.key).data 32 64 = wallet.key ∧
    sl (m src.key).data 0 32 = sl (m dst.key).data 0 32 ∧
    cpi (m.setData swig.key (w.used (rd ix 4 4)).encode)
      ⟨program.key, [⟨src.key, false, true⟩, ⟨dst.key, false, true⟩, ⟨sub.key, true, false⟩], 3 :: natLE 8 (rd ix 16 8)⟩ = .ok m' := by
  obtain ⟨r, h1, h2, hne, h4, hso, _, _, h5, h6, h7⟩ := withdrawSubV2_enc hw hd h
  unfold withdrawV2 at h7
  rw [if_pos (by simp)] at h7
  have e7 : getOr [swig, auth, state, sub, wallet, x6, x7, src, dst, program] 7 .panic = .ok src := rfl
  have e8 : getOr [swig, auth, state, sub, wallet, x6, x7, src, dst, program] 8 .panic = .ok dst := rfl
  have e9 : getOr [swig, auth, state, sub, wallet, x6, x7, src, dst, program] 9 .panic = .ok program := rfl
  simp only [e7, e8, e9, ok_bind] at h7
  obtain ⟨u, hc, h7⟩ := bind_ok_iff.mp h7
  unfold checkWithdrawTokens at hc
  simp only [Mem.setData_owner] at hc
  obtain ⟨_, c1, hc⟩ := bind_ok_iff.mp hc
  obtain ⟨_, c2, hc⟩ := bind_ok_iff.mp hc
  have hs : src.key ≠ swig.key := by
    intro e
    have := require_ok_iff.mp c1
    rw [e, hso] at this
    revert this; decide
  have ht : dst.key ≠ swig.key := by
    intro e
    have h1 := require_ok_iff.mp c1
    have h2 := require_ok_iff.mp c2
    rw [← h2, e, hso] at h1
    revert h1; decide
  simp only [Mem.setData_other _ _ hs, Mem.setData_other _ _ ht] at hc
  obtain ⟨_, c3, hc⟩ := bind_ok_iff.mp hc
  obtain ⟨_, c4, hc⟩ := bind_ok_iff.mp hc
  obtain ⟨_, c5, hc⟩ := bind_ok_iff.mp hc
  obtain ⟨_, c6, hc⟩ := bind_ok_iff.mp hc
  obtain ⟨_, c7, hc⟩ := bind_ok_iff.mp hc
  have c1 := require_ok_iff.mp c1
  have c2 := require_ok_iff.mp c2
  have c3 := require_ok_iff.mp c3
  refine ⟨h6, ⟨h4, h5.len, h5.disc, h5.subId, h5.swig, h5.sub⟩, by rw [c3]; exact c1, c3.symm, by rw [c2, c3],
    (require_ok_iff.mp c7).symm, (require_ok_iff.mp hc).symm, require_ok_iff.mp c6, ?_⟩
  unfold tokenTransfer invokeSigned at h7
  split at h7
  · cases h7
  · split at h7
    · exact h7
    · cases h7

/-- No other number of accounts is accepted. -/
theorem C49_no_other_layout (hw : w.WF) (hd : (m swig.key).data = w.encode)
    (h : withdrawSubV2 env cpi m (swig :: auth :: state :: sub :: wallet :: x6 :: x7 :: rest) ix = .ok m') :
    rest.length = 0 ∨ rest.length = 3 := by
  obtain ⟨r, _, _, _, _, _, _, _, _, _, h7⟩ := withdrawSubV2_enc hw hd h
  unfold withdrawV2 at h7
  by_cases h10 : (swig :: auth :: state :: sub :: wallet :: x6 :: x7 :: rest).length = 10
  · simp at h10; exact .inr h10
  · rw [if_neg h10] at h7
    by_cases h70 : (swig :: auth :: state :: sub :: wallet :: x6 :: x7 :: rest).length = 7
    · left; simp at h70; simp [h70]
    · rw [if_neg h70] at h7
      cases h7

/-! ## C50: what creation grants -/

/-- Creating a V2 sub-account: it gets the id `k` the wallet's counter held, the counter moves to `k + 1`; afterwards the creating
role holds the all-operations grant for `k` besides what it held before, and every other role is exactly as before. -/
theorem C50_create (hw : w.WF) (hd : (m swig.key).data = w.encode) (hk : sub.key.length = 32)
    (h : createSubV2 env m (swig :: payer :: state :: sub :: sys :: rest) ix = .ok m') :
    ∃ (w' : Wallet) (r r' : Role), (m' swig.key).data = w'.encode ∧ w'.WF ∧
      w.role? (rd ix 4 4) = some r ∧ w'.role? (rd ix 4 4) = some r' ∧ (∃ a ∈ r.actions, a.ty = P.subAccountV2Create) ∧
      (∃ a ∈ r'.actions, a.ty = P.subAccountV2All ∧ leNat (a.data.take 4) = w.subCounter) ∧
      (r'.actions = r.actions ∨ r'.actions = r.actions ++ [⟨P.subAccountV2All, natLE 4 w.subCounter ++ zeros 4⟩]) ∧
      r'.authType = r.authType ∧
      (∀ id, id ≠ rd ix 4 4 → w'.role? id = w.role? id) ∧ w'.roles.map Role.id = w.roles.map Role.id ∧
      w'.subCounter = w.subCounter + 1 ∧ w'.id = w.id ∧ w'.claimer = w.claimer ∧ w'.roleCounter = w.roleCounter ∧
      Records m' state.key w.id w.subCounter sub.key ∧ Enabled m' state.key ∧
      ∀ x, x ≠ swig.key → x ≠ state.key → (m' x).data = (m x).data ∧ (m' x).owner = (m x).owner := by
  obtain ⟨r, h1, h2, h3, h4, hne, _, _, _, hp, h6, h7, h8, h9, h10, h11⟩ := createSubV2_enc hw hd h
  generalize hwd : ((w.used (rd ix 4 4)).drawn.setActions (rd ix 4 4) (r.withAll w.subCounter)) = w' at *
  have hf : ∀ id, w'.role? id = ((w.role? id).map fun x => if x.id = rd ix 4 4 then
      { x with auth := usedCred x.authType x.auth } else x).map fun x => if x.id = rd ix 4 4 then { x with actions := r.withAll w.subCounter } else x := by
    intro id
    rw [← hwd]
    have e1 : ((w.used (rd ix 4 4)).drawn.setActions (rd ix 4 4) (r.withAll w.subCounter)).role? id = _ :=
      mapRole_find _ _ _ _ (by intro r; rfl)
    rw [e1]
    have e2 : (w.used (rd ix 4 4)).drawn.role? id = (w.used (rd ix 4 4)).role? id := rfl
    rw [e2, Wallet.used_find]
  have hid := (role?_mem h1.1).2
  have hr' : w'.role? (rd ix 4 4) = some { r with auth := usedCred r.authType r.auth, actions := r.withAll w.subCounter } := by
    rw [hf, h1.1]
    simp [hid]
  refine ⟨w', r, _, h6, h7, h1.1, hr', h2, ?_, ?_, rfl, ?_, ?_, ?_, ?_, ?_, ?_, ?_, ?_, h11⟩
  · unfold Role.withAll
    split
    · rename_i hs
      obtain ⟨a, ha, hb, hc⟩ := hs
      refine ⟨a, ha, ?_, hc⟩
      rcases hb with hb | hb
      · exact hb
      · exact absurd hb.1 (by decide)
    · refine ⟨allGrant w.subCounter, by simp, rfl, ?_⟩
      have : (allGrant w.subCounter).data.take 4 = natLE 4 w.subCounter := by
        show (natLE 4 w.subCounter ++ zeros 4).take 4 = _
        exact List.take_left' (by simp)
      rw [this, leNat_natLE_of_lt (by have := hw.subCounter; omega)]
  · unfold Role.withAll
    split
    · exact .inl rfl
    · exact .inr rfl
  · intro id hne2
    rw [hf]
    cases ho : w.role? id with
    | none => rfl
    | some x =>
      have := (role?_mem ho).2
      simp [this, hne2]
  · rw [← hwd]
    have e1 : ((w.used (rd ix 4 4)).drawn.setActions (rd ix 4 4) (r.withAll w.subCounter)).roles.map Role.id = _ :=
      mapRole_ids _ _ _ (by intro r; rfl)
    rw [e1]
    exact mapRole_ids w _ _ (by intro r; rfl)
  · rw [← hwd]; rfl
  · rw [← hwd]; rfl
  · rw [← hwd]; rfl
  · rw [← hwd]; rfl
  · have hsl : w.id.length = 32 := hw.idLen
    unfold Records
    rw [h9, h10]
    have e : SubState.encode ⟨2, ix.getD 8 0, ix.getD 9 0, 1, w.subCounter, w.id, sub.key⟩ =
      [2, ix.getD 8 0, ix.getD 9 0, 1] ++ (natLE 4 w.subCounter ++ (w.id ++ sub.key)) := by simp [SubState.encode]
    have e2 : SubState.encode ⟨2, ix.getD 8 0, ix.getD 9 0, 1, w.subCounter, w.id, sub.key⟩ =
      ([2, ix.getD 8 0, ix.getD 9 0, 1] ++ natLE 4 w.subCounter) ++ (w.id ++ sub.key) := by simp [SubState.encode]
    have e3 : SubState.encode ⟨2, ix.getD 8 0, ix.getD 9 0, 1, w.subCounter, w.id, sub.key⟩ =
      ([2, ix.getD 8 0, ix.getD 9 0, 1] ++ natLE 4 w.subCounter ++ w.id) ++ (sub.key ++ []) := by simp [SubState.encode]
    refine ⟨rfl, by rw [e]; simp [hsl, hk], by rw [e]; rfl, ?_, ?_, ?_⟩
    · unfold rd
      rw [e, sl_mid [2, ix.getD 8 0, ix.getD 9 0, 1] (natLE 4 w.subCounter) (w.id ++ sub.key) (i := 4) (j := 4 + 4) rfl (by simp), leNat_natLE_of_lt (by have := hw.subCounter; omega)]
    · rw [e2]; exact sl_mid _ _ _ (by simp) (by simp [hsl])
    · rw [e3]; exact sl_mid _ _ _ (by simp [hsl]) (by simp [hsl, hk])
  · unfold Enabled
    rw [h9]; rfl

/-! ## C51: V1 signing -/

/-- Signing with a V1 sub-account: the acting role authenticates and has the sub-account action with this address, this
wallet id, its own role id, and the enabled flag set. -/
theorem C51_sign_v1 (hw : w.WF) (hd : (m swig.key).data = w.encode) (hk : sub.key.length = 32)
    (h : subSignV1 env cpi m (swig :: sub :: sys :: rest) ix = .ok m') :
    ∃ (r : Role), w.role? (rd ix 4 4) = some r ∧
      Sample.ok (authRole env r.authType r.auth (swig :: sub :: sys :: rest) (m instructionsSysvarId).data
        (ix.drop (16 + rd ix 2 2)) (sl ix 16 (16 + rd ix 2 2))) = true ∧
      ∃ a ∈ r.actions, a.ty = P.subAccount ∧ sl a.data 0 32 = sub.key ∧ sl a.data 40 72 = w.id ∧ rd a.data 36 4 = rd ix 4 4 ∧
        a.data.getD 33 0 = 1 := by
  obtain ⟨q, r, a, _, _, hq, _, _, _, h1, h2, h3, h4, _⟩ := subSignV1_enc hw hd hk h
  unfold parseSubSign at hq
  split at hq
  · cases hq
  · dsimp only at hq
    split at hq
    · cases hq
    · cases hq
      exact ⟨r, h1.1, by rw [h1.2]; rfl, a, h2, h3, h4.sub, h4.swig, h4.role, h4.enabled⟩

/-! ## C48: disabled sub-accounts -/

/-- V2, what holds: if no enabled record names the sub-account, it can neither be signed for nor withdrawn from, by any role and
with any request.  (Ids are drawn once unless the wallet is migrated again, so there is one record per sub-account.)  Missing for
the full claim: `C48_v2_refuted` and `C48_v1_refuted`. -/
theorem C48_v2_partial (hw : w.WF) (hd : (m swig.key).data = w.encode)
    (hoff : ∀ st id, Records m st w.id id sub.key → ¬ Enabled m st) :
    (∀ m', subSignV2 env cpi m (swig :: state :: sub :: sys :: rest) ix ≠ .ok m') ∧
    (∀ m', withdrawSubV2 env cpi m (swig :: auth :: state :: sub :: wallet :: x6 :: x7 :: rest) ix ≠ .ok m') := by
  refine ⟨fun m' h => ?_, fun m' h => ?_⟩
  · obtain ⟨a, r, _, _, _, _, _, _, _, _, _, h4, h5, _⟩ := subSignV2_enc hw hd h
    exact hoff state.key a.subId ⟨h4, h5.len, h5.disc, h5.subId, h5.swig, h5.sub⟩ h5.enabled
  · obtain ⟨r, _, _, _, h4, _, _, _, h5, _⟩ := withdrawSubV2_enc hw hd h
    exact hoff state.key _ ⟨h4, h5.len, h5.disc, h5.subId, h5.swig, h5.sub⟩ h5.enabled

/-- V1, what holds: while every sub-account action of a role for the address is disabled, that role cannot sign for it, nor
withdraw from it if it has such an action.  Missing for the full claim: `C48_v1_refuted`. -/
theorem C48_v1_partial {x3 x5 : Meta} (hw : w.WF) (hd : (m swig.key).data = w.encode) (hk : sub.key.length = 32) {r : Role}
    (hr : w.role? (rd ix 4 4) = some r)
    (hoff : ∀ a ∈ r.actions, a.ty = P.subAccount → a.data.take 32 = sub.key → a.data.getD 33 0 ≠ 1) :
    (∀ m', subSignV1 env cpi m (swig :: sub :: sys :: rest) ix ≠ .ok m') ∧
    ((∃ a ∈ r.actions, a.ty = P.subAccount ∧ a.data.take 32 = sub.key) →
      ∀ m', withdrawSubV1 env cpi m (swig :: auth :: sub :: x3 :: wallet :: x5 :: rest) ix ≠ .ok m') := by
  refine ⟨fun m' h => ?_, fun hex m' h => ?_⟩
  · obtain ⟨r', h1, _, a, h2, h3, h4, _, _, h5⟩ := C51_sign_v1 hw hd hk h
    rw [hr] at h1
    cases h1
    rw [sl_zero] at h4
    exact hoff a h2 h3 h4 h5
  · obtain ⟨r', s, _, _, _, h1, _, _, _, _, h2, _⟩ := withdrawSubV1_enc hw hd hk h
    have h1 := h1.1
    rw [hr] at h1
    cases h1
    rcases withdrawPermission_enc hw (role?_mem hr).1 hk h2 with ⟨a, k1, k2, k3, _⟩ | ⟨k1, _⟩
    · have := k3.sub
      rw [sl_zero] at this
      exact hoff a k1 k2 this k3.enabled
    · exact k1 hex

/-- The enabled flag of a V1 sub-account is switched only by a toggle request of its own role or of a role with All or
ManageAuthority; the toggle changes that byte and nothing else but the replay counter of the acting role. -/
theorem C48_toggle_v1 (hw : w.WF) (hd : (m swig.key).data = w.encode) (hk : sub.key.length = 32)
    (h : toggleSubV1 env m (swig :: payer :: sub :: rest) ix = .ok m') :
    ∃ (r t : Role) (ab aa : List Act) (a : Act), w.role? (rd ix 12 4) = some r ∧
      (rd ix 12 4 = rd ix 8 4 ∨ (∃ x ∈ r.actions, x.ty = P.all) ∨ ∃ x ∈ r.actions, x.ty = P.manageAuthority) ∧
      w.role? (rd ix 8 4) = some t ∧ t.actions = ab ++ a :: aa ∧ a.ty = P.subAccount ∧ a.data.take 32 = sub.key ∧
      m' = m.setData swig.key ((w.used (rd ix 12 4)).setActions (rd ix 8 4)
        (ab ++ ⟨a.ty, a.data.take 33 ++ [ix.getD 2 0] ++ a.data.drop 34⟩ :: aa)).encode := by
  obtain ⟨r, t, ab, a, aa, h1, h2, h3, h4, h5, h6, _, _, _, h9⟩ := toggleSubV1_enc hw hd hk h
  obtain ⟨t', k1, _, _, k4, _⟩ := Wallet.used_role_inv hw h3
  exact ⟨r, t', ab, aa, a, h1.1, h2, k1, by rw [k4]; exact h4, h5, h6, h9⟩

/-! ## C47: ids -/

/-- Each creation takes the id in the wallet's counter, which it increments; it fails when the counter would pass `2^32 - 1`.
Missing for the full claim: histories (see Props/History.lean), and `C47_refuted`. -/
theorem C47_step_partial (hw : w.WF) (hd : (m swig.key).data = w.encode) (hk : sub.key.length = 32)
    (h : createSubV2 env m (swig :: payer :: state :: sub :: sys :: rest) ix = .ok m') :
    w.subCounter + 1 < 2 ^ 32 ∧ ∃ (w' : Wallet), (m' swig.key).data = w'.encode ∧ w'.subCounter = w.subCounter + 1 ∧
      (∃ old, Records m' state.key w.id old sub.key ∧ old = w.subCounter) ∧ (m state.key).owner ≠ swigId := by
  obtain ⟨r, _, _, _, h4, _, h5, _⟩ := createSubV2_enc hw hd h
  obtain ⟨w', _, _, k1, _, _, _, _, _, _, _, _, _, k2, _, _, _, k3, _⟩ := C50_create hw hd hk h
  refine ⟨h4, w', k1, k2, ⟨_, k3, rfl⟩, ?_⟩
  rw [h5]; decide

end

/-! ## Concrete cases -/

section
open Sample

/-- Addresses as on chain: V2 state accounts depend on the bump seed (255 and 254 are both valid), V1 sub-accounts on the role. -/
def subEnv : Env :=
  { env with pda := fun seeds =>
      if seeds.head? = some (ascii "sub-account-v2-state") then
        if seeds.getLast? = some [255] then some (K 4) else if seeds.getLast? = some [254] then some (K 6) else none
      else if seeds.head? = some (ascii "sub-account") then
        if seeds.getD 2 [] = natLE 4 1 then some (K 3) else some (K 33)
      else env.pda seeds }

/-- The owner also holds the create marker. -/
def creator : Role := ⟨1, 0, K 10, [⟨7, []⟩, ⟨22, []⟩]⟩

def subWallet : Wallet := { wallet with roles := [creator, limited] }

def createSubMetas (state : Key) : List Meta :=
  [⟨K 1, false, true⟩, ⟨K 10, true, true⟩, ⟨state, false, true⟩, ⟨K 5, false, true⟩, ⟨systemId, false, false⟩]

/-- Role 0 creates a sub-account; the state account has the given bump. -/
def createSubIx (bump : UInt8) : Bytes := natLE 2 18 ++ zeros 2 ++ natLE 4 0 ++ [bump, 255] ++ zeros 6 ++ [1]

def toggleSubMetas : List Meta := [⟨K 1, false, true⟩, ⟨K 10, true, true⟩, ⟨K 4, false, true⟩]

/-- Role 0 disables sub-account 0. -/
def disableIx : Bytes := natLE 2 19 ++ [0, 0] ++ natLE 4 0 ++ natLE 4 0 ++ zeros 4 ++ [1]

def subSignMetas (state : Key) : List Meta :=
  [⟨K 1, false, true⟩, ⟨state, false, true⟩, ⟨K 5, false, true⟩, ⟨systemId, false, false⟩, ⟨K 10, true, true⟩, ⟨K 40, false, true⟩]

/-- Role 0 signs, with sub-account 0, a System transfer of 5 lamports to `K 40`. -/
def subSignIx : Bytes :=
  natLE 2 20 ++ natLE 2 19 ++ natLE 4 0 ++ natLE 4 0 ++ zeros 4 ++
    ([1] ++ [3, 2, 2, 5] ++ natLE 2 12 ++ natLE 4 2 ++ natLE 8 5) ++ [4]

/-- A System program that makes transfers. -/
def sysCpi : Cpi := fun m ix =>
  match ix.accounts with
  | a :: b :: _ => if ix.program = systemId ∧ rd ix.data 0 4 = 2 then sysTransfer m a b (rd ix.data 4 8) else .error .runtime
  | _ => .error .runtime

/-- Create sub-account 0, give it some lamports. -/
def created : R Mem := do
  let m ← createSubV2 subEnv (mem subWallet) (createSubMetas (K 4)) (createSubIx 255)
  .ok (m.setLamports (K 5) 2000000000)

/-- The hypotheses of C46 (sign), C48 and C50 can be met: create, then sign with the sub-account. -/
example : ∃ m', (do let m ← created; subSignV2 subEnv sysCpi m (subSignMetas (K 4)) subSignIx) = .ok m' := exists_of_ok (by decide +kernel)

/-- Once disabled it cannot sign. -/
example : ok (do let m ← created; let m ← toggleSubV2 subEnv m toggleSubMetas disableIx; subSignV2 subEnv sysCpi m (subSignMetas (K 4)) subSignIx) =
    false := by decide +kernel

/-- ... but toggling works (C46, toggle). -/
example : ok (do let m ← created; toggleSubV2 subEnv m toggleSubMetas disableIx) = true := by decide +kernel

def withdrawSubMetas : List Meta :=
  [⟨K 1, false, true⟩, ⟨K 10, true, true⟩, ⟨K 4, false, true⟩, ⟨K 5, false, true⟩, ⟨K 2, false, true⟩, ⟨systemId, false, false⟩,
    ⟨K 10, true, true⟩]

def withdrawSubIx : Bytes := natLE 2 21 ++ zeros 2 ++ natLE 4 0 ++ natLE 4 0 ++ zeros 4 ++ natLE 8 1000 ++ [1]

/-- Withdrawing SOL (C46, C49). -/
example : ok (do let m ← created; withdrawSubV2 subEnv sysCpi m withdrawSubMetas withdrawSubIx) = true := by decide +kernel

/-- Withdrawing tokens (C49). -/
example : ok (do
    let m ← created
    let m := m.set (K 30) ⟨tokenId, 2039280, K 50 ++ K 5 ++ natLE 8 9000 ++ zeros 36 ++ [1] ++ zeros 56⟩
    let m := m.set (K 31) ⟨tokenId, 2039280, K 50 ++ K 2 ++ natLE 8 0 ++ zeros 36 ++ [1] ++ zeros 56⟩
    withdrawSubV2 subEnv (fun m _ => .ok m) m (withdrawSubMetas ++ [⟨K 30, false, true⟩, ⟨K 31, false, true⟩, ⟨tokenId, false, false⟩])
      withdrawSubIx) = true := by decide +kernel

/-- Without a grant All does not help (C46, default deny): the root role of the plain wallet. -/
example : wallet.role? 0 = some root ∧ ∀ a ∈ root.actions, ¬ (23 ≤ a.ty ∧ a.ty ≤ 26) := by decide

/-- The same id twice: sub-account 0 is created, disabled; the wallet is migrated again, which sets the counter back; then
sub-account 0 is created a second time, with another bump for the state account. -/
def twice : R Mem := do
  let m ← created
  let m ← toggleSubV2 subEnv m toggleSubMetas disableIx
  let m ← migrateV1 subEnv m migrateMetas migrateIx
  createSubV2 subEnv m (createSubMetas (K 6)) (createSubIx 254)

instance recordsDecidable (m : Mem) (st sw : Key) (k : Nat) (sub : Key) : Decidable (Records m st sw k sub) := by
  unfold Records; infer_instance

instance enabledDecidable (m : Mem) (st : Key) : Decidable (Enabled m st) := by unfold Enabled; infer_instance

/-- C47 is false as stated: the id 0 is issued twice, and both records name the same asset account. -/
theorem C47_refuted : ∃ m', twice = .ok m' ∧ Records m' (K 4) (K 70) 0 (K 5) ∧ Records m' (K 6) (K 70) 0 (K 5) ∧ K 4 ≠ K 6 := by
  have key : (match twice with
    | .ok m' => decide (Records m' (K 4) (K 70) 0 (K 5) ∧ Records m' (K 6) (K 70) 0 (K 5) ∧ K 4 ≠ K 6)
    | _ => false) = true := by decide +kernel
  split at key
  · rename_i m' hm
    exact ⟨m', hm, of_decide_eq_true key⟩
  · cases key

/-- C48 is false as stated for V2: the record created first is disabled, yet the second one lets the same sub-account sign. -/
theorem C48_v2_refuted : ∃ m m', twice = .ok m ∧ Records m (K 4) (K 70) 0 (K 5) ∧ ¬ Enabled m (K 4) ∧
    subSignV2 subEnv sysCpi m (subSignMetas (K 6)) subSignIx = .ok m' ∧ (m' (K 40)).lamports = (m (K 40)).lamports + 5 := by
  have key : (match twice with
    | .ok m => match subSignV2 subEnv sysCpi m (subSignMetas (K 6)) subSignIx with
      | .ok m' => decide (Records m (K 4) (K 70) 0 (K 5) ∧ ¬ Enabled m (K 4) ∧ (m' (K 40)).lamports = (m (K 40)).lamports + 5)
      | _ => false
    | _ => false) = true := by decide +kernel
  split at key
  · rename_i m hm
    split at key
    · rename_i m' hm'
      obtain ⟨k1, k2, k3⟩ := of_decide_eq_true key
      exact ⟨m, m', hm, k1, k2, hm', k3⟩
    · cases key
  · cases key

/-- A V1 sub-account `K 3` of role 1, with the given enabled flag. -/
def v1Wallet (enabled : UInt8) : Wallet :=
  { wallet with roles := [root, ⟨1, 1, K 11, [⟨9, K 3 ++ [255, enabled] ++ zeros 2 ++ natLE 4 1 ++ K 70⟩]⟩] }

def v1Mem (enabled : UInt8) : Mem := (mem (v1Wallet enabled)).setLamports (K 3) 2000000000

def v1SignMetas : List Meta :=
  [⟨K 1, false, true⟩, ⟨K 3, false, true⟩, ⟨systemId, false, false⟩, ⟨K 11, true, true⟩, ⟨K 40, false, true⟩]

def v1SignIx : Bytes :=
  natLE 2 9 ++ natLE 2 19 ++ natLE 4 1 ++ zeros 8 ++ ([1] ++ [2, 2, 1, 4] ++ natLE 2 12 ++ natLE 4 2 ++ natLE 8 5) ++ [3]

/-- Role 1 can sign with its V1 sub-account while enabled (C51), and not while disabled. -/
example : ok (subSignV1 subEnv sysCpi (v1Mem 1) v1SignMetas v1SignIx) = true ∧
    ok (subSignV1 subEnv sysCpi (v1Mem 0) v1SignMetas v1SignIx) = false := by decide +kernel

def v1ToggleIx : Bytes := natLE 2 10 ++ [0, 0] ++ zeros 4 ++ natLE 4 1 ++ natLE 4 1 ++ [1]

/-- Role 1 can toggle it (C48). -/
example : ok (toggleSubV1 subEnv (v1Mem 1) [⟨K 1, false, true⟩, ⟨K 11, true, true⟩, ⟨K 3, false, true⟩] v1ToggleIx) = true := by
  decide +kernel

def v1WithdrawMetas : List Meta :=
  [⟨K 1, false, true⟩, ⟨K 10, true, true⟩, ⟨K 3, false, true⟩, ⟨K 10, true, true⟩, ⟨K 2, false, true⟩, ⟨systemId, false, false⟩]

def v1WithdrawIx : Bytes := natLE 2 7 ++ zeros 2 ++ natLE 4 0 ++ natLE 8 1000 ++ [1]

/-- C48 is false as stated for V1: a role with All but without the sub-account action withdraws from a disabled sub-account. -/
theorem C48_v1_refuted : (∃ r a, (v1Wallet 0).role? 1 = some r ∧ r.actions = [a] ∧ a.ty = P.subAccount ∧ a.data.take 32 = K 3 ∧
      a.data.getD 33 0 = 0) ∧
    ∃ m', withdrawSubV1 subEnv sysCpi (v1Mem 0) v1WithdrawMetas v1WithdrawIx = .ok m' ∧
      (m' (K 3)).lamports + 1000 = (v1Mem 0 (K 3)).lamports := by
  refine ⟨⟨_, _, rfl, rfl, by decide⟩, ?_⟩
  have key : (match withdrawSubV1 subEnv sysCpi (v1Mem 0) v1WithdrawMetas v1WithdrawIx with
    | .ok m' => decide ((m' (K 3)).lamports + 1000 = (v1Mem 0 (K 3)).lamports)
    | _ => false) = true := by decide +kernel
  split at key
  · rename_i m' hm
    exact ⟨m', hm, of_decide_eq_true key⟩
  · cases key
end

end Verif
