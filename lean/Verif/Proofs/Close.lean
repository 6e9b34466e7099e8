import Verif.Model.SubV2
import Verif.Proofs.Handlers

/-! Refinement of the handlers that close, migrate and move assets. -/

namespace Verif

theorem hasClose_enc {w : Wallet} (hw : w.WF) {r : Role} (hr : r ∈ w.roles) :
    hasClose (encActs 0 r.actions) =
      .ok (decide (r.holds P.all ∨ r.holds P.manageAuthority ∨ r.holds P.closeSwigAuthority)) := by
  unfold hasClose
  rw [hasMarker_enc hw hr (by decide), hasMarker_enc hw hr (by decide), hasMarker_enc hw hr (by decide)]
  simp [Bool.or_assoc]

theorem checkSelfPda_ok {env : Env} {seeds : List Bytes} {bump b : UInt8} {target : Key} {e : Err}
    (h : checkSelfPda env seeds bump target e = .ok b) : b = bump ∧ env.pda (seeds ++ [[bump]]) = some target := by
  unfold checkSelfPda at h
  split at h
  · cases h
  · split at h
    · rename_i k hk he
      cases h
      exact ⟨rfl, he ▸ hk⟩
    · cases h

theorem signedTransfer_ok {env : Env} {m m' : Mem} {seeds : List Bytes} {src dst : Meta} {n : Nat}
    (h : signedTransfer env m seeds src dst n = .ok m') :
    (src.signer = true ∨ env.pda seeds = some src.key) ∧ (m src.key).owner = systemId ∧ (m src.key).data = [] ∧
    n ≤ (m src.key).lamports ∧
    m' = (m.setLamports src.key ((m src.key).lamports - n)).setLamports dst.key
      (((m.setLamports src.key ((m src.key).lamports - n)) dst.key).lamports + n) := by
  unfold signedTransfer at h
  split at h
  · cases h
  · rename_i k hk
    obtain ⟨h1, h2, h3, h4, h5⟩ := sysTransfer_ok h
    refine ⟨?_, h2, h3, h4, h5⟩
    simp only [Bool.or_eq_true, decide_eq_true_eq] at h1
    rcases h1 with h1 | h1
    · exact .inl h1
    · exact .inr (h1 ▸ hk)

/-- The ledger after closing: the wallet address drained, the configuration account cut to one byte. -/
theorem closeSwigV1_enc {env : Env} {m m' : Mem} {swig wallet dst sys : Meta} {rest : List Meta} {ix : Bytes} {w : Wallet}
    (hw : w.WF) (hd : (m swig.key).data = w.encode)
    (h : closeSwigV1 env m (swig :: wallet :: dst :: sys :: rest) ix = .ok m') :
    ∃ (a : RoleIx) (r : Role) (m1 : Mem) (b : UInt8), parseRoleIx ix E.invalidInstructionDataTooShort = .ok a ∧
      (m swig.key).owner = swigId ∧
      ActsAs env m (swig :: wallet :: dst :: sys :: rest) w a.role a.authPayload a.dataPayload r ∧
      (r.holds P.all ∨ r.holds P.manageAuthority ∨ r.holds P.closeSwigAuthority) ∧
      (w.claimer = none ∨ w.claimer = some dst.key) ∧ findPda env (walletSeeds swig.key) = .ok (wallet.key, b) ∧
      (m swig.key).lamports ≤ env.rent (m swig.key).data.length ∧ (m wallet.key).lamports ≤ env.rent 0 ∧
      drainWallet env (m.setData swig.key (w.used a.role).encode) swig.key w.walletBump wallet dst = .ok m1 ∧
      m' = (closeLamports env m1 swig.key dst.key (m swig.key).lamports).setData swig.key [255] := by
  simp only [closeSwigV1] at h
  obtain ⟨_, ho, h⟩ := bind_ok_iff.mp h
  obtain ⟨_, _, h⟩ := bind_ok_iff.mp h
  obtain ⟨a, ha, h⟩ := bind_ok_iff.mp h
  rw [hd, openSwig_enc hw] at h
  simp only [ok_bind] at h
  rw [show w.parts.tail = encTail w.claimer from rfl, claimerReadStrict_enc hw.claimer] at h
  simp only [ok_bind] at h
  obtain ⟨⟨k, b⟩, hk, h⟩ := bind_ok_iff.mp h
  obtain ⟨_, he, h⟩ := bind_ok_iff.mp h
  obtain ⟨⟨p, v⟩, hact, h⟩ := bind_ok_iff.mp h
  obtain ⟨r, hr1, hr2, rfl, hr4, hr5⟩ := actAs_enc hw hact
  simp only at h
  rw [hr4, hasClose_enc hw (role?_mem hr1).1] at h
  simp only [ok_bind] at h
  obtain ⟨_, hperm, h⟩ := bind_ok_iff.mp h
  have hperm := decide_eq_true_iff.mp (require_ok_iff.mp hperm)
  obtain ⟨_, hcl, h⟩ := bind_ok_iff.mp h
  obtain ⟨_, hl1, h⟩ := bind_ok_iff.mp h
  obtain ⟨_, hl2, h⟩ := bind_ok_iff.mp h
  obtain ⟨m1, hdr, h⟩ := bind_ok_iff.mp h
  obtain ⟨m2, hre, h⟩ := bind_ok_iff.mp h
  obtain ⟨_, rfl⟩ := realloc_ok hre
  cases h
  rw [← hd] at hl1
  refine ⟨a, r, m1, b, ha, require_ok_iff.mp ho, ⟨hr1, hr2⟩, hperm, require_ok_iff.mp hcl, ?_, require_ok_iff.mp hl1, require_ok_iff.mp hl2, ?_, ?_⟩
  · rw [require_ok_iff.mp he]; exact hk
  · rw [← Wallet.parts_bytes]
    exact hdr
  · simp

/-- Closing token accounts: who may, and to where. -/
theorem closeTokenV1_enc {env : Env} {cpi : Cpi} {m m' : Mem} {swig wallet dst prog : Meta} {rest : List Meta} {ix : Bytes}
    {w : Wallet} (hw : w.WF) (hd : (m swig.key).data = w.encode)
    (h : closeTokenV1 env cpi m (swig :: wallet :: dst :: prog :: rest) ix = .ok m') :
    ∃ (a : RoleIx) (r : Role) (b : UInt8), parseRoleIx ix E.invalidInstructionDataTooShort = .ok a ∧
      ActsAs env m (swig :: wallet :: dst :: prog :: rest) w a.role a.authPayload a.dataPayload r ∧
      (r.holds P.all ∨ r.holds P.manageAuthority ∨ r.holds P.closeSwigAuthority) ∧
      (w.claimer = none ∨ w.claimer = some dst.key) ∧ (prog.key = tokenId ∨ prog.key = token2022Id) ∧
      findPda env (walletSeeds swig.key) = .ok (wallet.key, b) ∧
      closeTokensGo env cpi (swig :: wallet :: dst :: prog :: rest) prog.key (isV2 w.header) swig.key wallet.key dst.key
        (walletSeeds swig.key ++ [[b]]) (swigSeeds w.id ++ [[w.bump]]) (m.setData swig.key (w.used a.role).encode)
        ((swig :: wallet :: dst :: prog :: rest).drop (rd ix 2 2)) = .ok m' := by
  simp only [closeTokenV1] at h
  obtain ⟨_, ho, h⟩ := bind_ok_iff.mp h
  obtain ⟨a, ha, h⟩ := bind_ok_iff.mp h
  obtain ⟨_, _, h⟩ := bind_ok_iff.mp h
  obtain ⟨_, _, h⟩ := bind_ok_iff.mp h
  obtain ⟨⟨k, b⟩, hk, h⟩ := bind_ok_iff.mp h
  obtain ⟨_, he, h⟩ := bind_ok_iff.mp h
  rw [hd, openSwig_enc hw] at h
  simp only [ok_bind] at h
  obtain ⟨⟨p, v⟩, hact, h⟩ := bind_ok_iff.mp h
  obtain ⟨r, hr1, hr2, rfl, hr4, hr5⟩ := actAs_enc hw hact
  simp only at h
  rw [hr4, hasClose_enc hw (role?_mem hr1).1] at h
  simp only [ok_bind] at h
  obtain ⟨_, hperm, h⟩ := bind_ok_iff.mp h
  have hperm := decide_eq_true_iff.mp (require_ok_iff.mp hperm)
  rw [show (w.used a.role).parts.tail = encTail w.claimer from rfl, claimerReadStrict_enc hw.claimer] at h
  simp only [ok_bind] at h
  obtain ⟨_, hcl, h⟩ := bind_ok_iff.mp h
  obtain ⟨_, hpr, h⟩ := bind_ok_iff.mp h
  obtain ⟨_, _, h⟩ := bind_ok_iff.mp h
  refine ⟨a, r, b, ha, ⟨hr1, hr2⟩, hperm, require_ok_iff.mp hcl, require_ok_iff.mp hpr, ?_, ?_⟩
  · rw [require_ok_iff.mp he]; exact hk
  · rw [Wallet.parts_bytes] at h
    have e : (w.used a.role).parts.header = w.header := Wallet.used_header w a.role
    rw [e] at h
    exact h

theorem transferAssetsV1_enc {env : Env} {cpi : Cpi} {m m' : Mem} {swig wallet payer sys : Meta} {rest : List Meta} {ix : Bytes}
    {w : Wallet} (hw : w.WF) (hd : (m swig.key).data = w.encode)
    (h : transferAssetsV1 env cpi m (swig :: wallet :: payer :: sys :: rest) ix = .ok m') :
    ∃ (a : RoleIx) (r : Role), parseRoleIx ix E.invalidSwigSignInstructionDataTooShort = .ok a ∧ (m swig.key).owner = swigId ∧
      ActsAs env m (swig :: wallet :: payer :: sys :: rest) w a.role a.authPayload a.dataPayload r ∧
      (r.holds P.all ∨ r.holds P.manageAuthority) ∧ w.walletBump ≠ 0 ∧
      env.pda (walletSeeds swig.key ++ [[w.walletBump]]) = some wallet.key ∧
      transferTokensGo env cpi (swig :: wallet :: payer :: sys :: rest) swig.key wallet.key (swigSeeds w.id ++ [[w.bump]])
        (transferSol env (m.setData swig.key (w.used a.role).encode) swig.key wallet.key) rest = .ok m' := by
  simp only [transferAssetsV1] at h
  obtain ⟨_, ho, h⟩ := bind_ok_iff.mp h
  obtain ⟨a, ha, h⟩ := bind_ok_iff.mp h
  rw [hd, openSwig_enc hw] at h
  simp only [ok_bind] at h
  obtain ⟨_, hb, h⟩ := bind_ok_iff.mp h
  obtain ⟨_, hp, h⟩ := bind_ok_iff.mp h
  obtain ⟨⟨p, v⟩, hact, h⟩ := bind_ok_iff.mp h
  obtain ⟨r, hr1, hr2, rfl, hr4, hr5⟩ := actAs_enc hw hact
  simp only at h
  rw [hr4, hasManage_enc hw (role?_mem hr1).1] at h
  simp only [ok_bind] at h
  obtain ⟨_, hperm, h⟩ := bind_ok_iff.mp h
  have hperm := decide_eq_true_iff.mp (require_ok_iff.mp hperm)
  refine ⟨a, r, ha, require_ok_iff.mp ho, ⟨hr1, hr2⟩, hperm, require_ok_iff.mp hb, (checkSelfPda_ok hp).2, ?_⟩
  rw [Wallet.parts_bytes] at h
  have e : (w.used a.role).parts.header = w.header := Wallet.used_header w a.role
  rw [e] at h
  exact h

/-- The wallet after a migration. -/
def Wallet.migrated (w : Wallet) (bump : UInt8) : Wallet := { w with walletBump := bump, pad := zeros 3, subCounter := 0 }

theorem Wallet.migrated_wf {w : Wallet} (hw : w.WF) (b : UInt8) : (w.migrated b).WF :=
  ⟨hw.idLen, rfl, hw.counter, by show 0 < 2 ^ 32; decide, hw.count, hw.roles, hw.idsNodup, hw.idsLt, hw.claimer, hw.size⟩

theorem migrated_bytes (w : Wallet) (b : UInt8) :
    ({ w.parts with header := migratedHeader w.parts.header b } : Parts).bytes = (w.migrated b).encode := rfl

theorem fundWallet_data {env : Env} {m m' : Mem} {payer wallet : Meta} (h : fundWallet env m payer wallet = .ok m') (k : Key) :
    (m' k).data = (m k).data ∧ (m' k).owner = (m k).owner := by
  unfold fundWallet at h
  simp only at h
  split at h
  · exact sysTransfer_data h k
  · cases h; simp

theorem migrateV1_enc {env : Env} {m m' : Mem} {swig auth payer wallet sys : Meta} {rest : List Meta} {ix : Bytes} {w : Wallet}
    (hw : w.WF) (hd : (m swig.key).data = w.encode)
    (h : migrateV1 env m (swig :: auth :: payer :: wallet :: sys :: rest) ix = .ok m') :
    ∃ (a : RoleIx) (r : Role) , parseRoleIx ix E.invalidSwigCreateInstructionDataTooShort = .ok a ∧
      ActsAs env m (swig :: auth :: payer :: wallet :: sys :: rest) w a.role a.authPayload a.dataPayload r ∧
      (r.holds P.all ∨ r.holds P.manageAuthority) ∧
      env.pda (walletSeeds swig.key ++ [[ix.getD 2 0]]) = some wallet.key ∧
      (m' swig.key).data = ((w.used a.role).migrated (ix.getD 2 0)).encode ∧ OnlyData m m' swig.key := by
  simp only [migrateV1] at h
  obtain ⟨a, ha, h⟩ := bind_ok_iff.mp h
  obtain ⟨_, _, h⟩ := bind_ok_iff.mp h
  obtain ⟨_, _, h⟩ := bind_ok_iff.mp h
  obtain ⟨_, _, h⟩ := bind_ok_iff.mp h
  rw [hd, openSwig_enc hw] at h
  simp only [ok_bind] at h
  obtain ⟨⟨p, v⟩, hact, h⟩ := bind_ok_iff.mp h
  obtain ⟨r, hr1, hr2, rfl, hr4, hr5⟩ := actAs_enc hw hact
  simp only at h
  rw [hr4, hasManage_enc hw (role?_mem hr1).1] at h
  simp only [ok_bind] at h
  obtain ⟨_, hperm, h⟩ := bind_ok_iff.mp h
  have hperm := decide_eq_true_iff.mp (require_ok_iff.mp hperm)
  obtain ⟨_, _, h⟩ := bind_ok_iff.mp h
  obtain ⟨_, _, h⟩ := bind_ok_iff.mp h
  obtain ⟨b, hb, h⟩ := bind_ok_iff.mp h
  obtain ⟨rfl, hb2⟩ := checkSelfPda_ok hb
  obtain ⟨_, _, h⟩ := bind_ok_iff.mp h
  rw [migrated_bytes] at h
  have hf := fundWallet_data h
  refine ⟨a, r, ha, ⟨hr1, hr2⟩, hperm, hb2, ?_, ?_⟩
  · rw [(hf swig.key).1]; simp
  · intro x
    refine ⟨by rw [(hf x).2]; simp, fun hx => ?_⟩
    rw [(hf x).1, Mem.setData_other _ _ hx]

end Verif
