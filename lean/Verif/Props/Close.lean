import Verif.Proofs.Close
import Verif.Spec.Sample

/-!
# Properties C17, C44, C45, C59, C60: closing, migrating, moving assets

`w` is the wallet stored in the configuration account.
-/

namespace Verif

section
variable {env : Env} {cpi : Cpi} {m m' : Mem} {swig wallet dst sys : Meta} {rest : List Meta} {ix : Bytes} {w : Wallet}

/-! ## C17: destination of the closing rent -/

/-- Closing the wallet succeeds only with the registered rent claimer as destination. -/
theorem C17_close_to_claimer {claimer : Key} (hw : w.WF) (hd : (m swig.key).data = w.encode) (hc : w.claimer = some claimer)
    (h : closeSwigV1 env m (swig :: wallet :: dst :: sys :: rest) ix = .ok m') : dst.key = claimer := by
  obtain ⟨_, _, _, _, _, _, _, _, h5, _⟩ := closeSwigV1_enc hw hd h
  rw [hc] at h5
  rcases h5 with h5 | h5
  · cases h5
  · exact (Option.some.inj h5).symm

/-- So does closing token accounts, whatever the token program does. -/
theorem C17_close_tokens_to_claimer {claimer : Key} (hw : w.WF) (hd : (m swig.key).data = w.encode) (hc : w.claimer = some claimer)
    (h : closeTokenV1 env cpi m (swig :: wallet :: dst :: sys :: rest) ix = .ok m') : dst.key = claimer := by
  obtain ⟨_, _, _, _, _, _, h5, _⟩ := closeTokenV1_enc hw hd h
  rw [hc] at h5
  rcases h5 with h5 | h5
  · cases h5
  · exact (Option.some.inj h5).symm

/-! ## C45: closing is authorised -/

theorem C45_close_authorised (hw : w.WF) (hd : (m swig.key).data = w.encode)
    (h : closeSwigV1 env m (swig :: wallet :: dst :: sys :: rest) ix = .ok m') :
    ∃ (r : Role), w.role? (rd ix 4 4) = some r ∧
      Sample.ok (authRole env r.authType r.auth (swig :: wallet :: dst :: sys :: rest) (m instructionsSysvarId).data
        (ix.drop 8) (ix.take 8)) = true ∧
      ((∃ x ∈ r.actions, x.ty = P.all) ∨ (∃ x ∈ r.actions, x.ty = P.manageAuthority) ∨
        ∃ x ∈ r.actions, x.ty = P.closeSwigAuthority) := by
  obtain ⟨a, r, _, _, h1, _, h3, h4, _⟩ := closeSwigV1_enc hw hd h
  unfold parseRoleIx at h1
  split at h1
  · cases h1
  · cases h1
    exact ⟨r, h3.1, by rw [h3.2]; rfl, h4⟩

theorem C45_close_tokens_authorised (hw : w.WF) (hd : (m swig.key).data = w.encode)
    (h : closeTokenV1 env cpi m (swig :: wallet :: dst :: sys :: rest) ix = .ok m') :
    ∃ (r : Role), w.role? (rd ix 4 4) = some r ∧
      Sample.ok (authRole env r.authType r.auth (swig :: wallet :: dst :: sys :: rest) (m instructionsSysvarId).data
        (ix.drop 8) (ix.take 8)) = true ∧
      ((∃ x ∈ r.actions, x.ty = P.all) ∨ (∃ x ∈ r.actions, x.ty = P.manageAuthority) ∨
        ∃ x ∈ r.actions, x.ty = P.closeSwigAuthority) := by
  obtain ⟨a, r, _, h1, h3, h4, _⟩ := closeTokenV1_enc hw hd h
  unfold parseRoleIx at h1
  split at h1
  · cases h1
  · cases h1
    exact ⟨r, h3.1, by rw [h3.2]; rfl, h4⟩

/-! ## C44: where the lamports go -/

/-- What holds: closing to a destination other than the two accounts closed (and with rent for one byte within what the
configuration account holds, and no `u64` overflow) needs both accounts at or below their rent minimum; it empties the wallet
address, leaves exactly the one-byte rent, and gives the destination everything else; no other balance moves, so the sum is
conserved.  Missing for the full claim: the destination may be the wallet address itself, see `C44_refuted`. -/
theorem C44_close_conserves_partial (hw : w.WF) (hd : (m swig.key).data = w.encode)
    (h : closeSwigV1 env m (swig :: wallet :: dst :: sys :: rest) ix = .ok m') (h1 : dst.key ≠ swig.key) (h2 : dst.key ≠ wallet.key)
    (hr : 0 < env.rent 1 ∧ env.rent 1 ≤ (m swig.key).lamports)
    (hsum : (m swig.key).lamports + (m wallet.key).lamports + (m dst.key).lamports < 2 ^ 64) :
    (m swig.key).lamports ≤ env.rent (m swig.key).data.length ∧ (m wallet.key).lamports ≤ env.rent 0 ∧
    (m' wallet.key).lamports = 0 ∧ (m' swig.key).lamports = env.rent 1 ∧ (m' swig.key).data = [255] ∧
    (m' dst.key).lamports = (m dst.key).lamports + (m wallet.key).lamports + ((m swig.key).lamports - env.rent 1) ∧
    (m' swig.key).lamports + (m' wallet.key).lamports + (m' dst.key).lamports =
      (m swig.key).lamports + (m wallet.key).lamports + (m dst.key).lamports ∧
    ∀ k, k ≠ swig.key → k ≠ wallet.key → k ≠ dst.key → m' k = m k := by
  obtain ⟨a, r, m1, b, _, ho, _, _, _, _, l1, l2, hdr, rfl⟩ := closeSwigV1_enc hw hd h
  have hne : wallet.key ≠ swig.key := by
    intro e
    unfold drainWallet at hdr
    split at hdr
    · obtain ⟨_, hc, _⟩ := signedTransfer_ok hdr
      rw [e] at hc
      simp only [Mem.setData_owner, ho] at hc
      revert hc; decide
    · rename_i hz
      simp only [Mem.setData_lamports, e] at hz
      omega
  have hm1 : (m1 wallet.key).lamports = 0 ∧ (m1 dst.key).lamports = (m dst.key).lamports + (m wallet.key).lamports ∧
      ∀ k, k ≠ swig.key → k ≠ wallet.key → k ≠ dst.key → m1 k = m k := by
    unfold drainWallet at hdr
    split at hdr
    · obtain ⟨_, _, _, _, rfl⟩ := signedTransfer_ok hdr
      simp only [Mem.setData_lamports, Nat.sub_self]
      refine ⟨?_, ?_, ?_⟩
      · rw [Mem.setLamports_other _ _ (Ne.symm h2)]; simp
      · rw [Mem.setLamports_same, Mem.setLamports_other _ _ h2]; simp
      · intro k k1 k2 k3
        rw [Mem.setLamports_other _ _ k3, Mem.setLamports_other _ _ k2, Mem.setData_other _ _ k1]
    · rename_i hz
      cases hdr
      simp only [Mem.setData_lamports] at hz ⊢
      refine ⟨by omega, by omega, fun k k1 _ _ => Mem.setData_other _ _ k1⟩
  obtain ⟨e1, e2, e3⟩ := hm1
  have f1 : ((closeLamports env m1 swig.key dst.key (m swig.key).lamports) wallet.key).lamports = 0 := by
    unfold closeLamports
    rw [Mem.setLamports_other _ _ (Ne.symm h2), Mem.setLamports_other _ _ hne, e1]
  have f2 : ((closeLamports env m1 swig.key dst.key (m swig.key).lamports) swig.key).lamports = env.rent 1 := by
    unfold closeLamports
    rw [Mem.setLamports_other _ _ (Ne.symm h1), Mem.setLamports_same]
  have f3 : ((closeLamports env m1 swig.key dst.key (m swig.key).lamports) dst.key).lamports =
      (m dst.key).lamports + (m wallet.key).lamports + ((m swig.key).lamports - env.rent 1) := by
    unfold closeLamports
    rw [Mem.setLamports_same, Mem.setLamports_other _ _ h1, e2]
    unfold add64
    rw [Nat.mod_eq_of_lt (by omega)]
  refine ⟨l1, l2, by simpa using f1, by simpa using f2, by simp, by simpa using f3, ?_, ?_⟩
  · simp only [Mem.setData_lamports, f1, f2, f3]
    omega
  · intro k k1 k2 k3
    rw [Mem.setData_other _ _ k1]
    unfold closeLamports
    rw [Mem.setLamports_other _ _ k3, Mem.setLamports_other _ _ k1, e3 k k1 k2 k3]

end

section
open Sample

/-- The sample wallet with both accounts at their rent minimum. -/
def closable (w : Wallet) : Mem :=
  ((mem w).setLamports (K 1) (env.rent w.encode.length)).setLamports (K 2) (env.rent 0)

/-- Role 0 closes the wallet; its key is account 4. -/
def closeIx : Bytes := natLE 2 15 ++ zeros 2 ++ natLE 4 0 ++ [4]

def closeMetas (dst : Key) : List Meta :=
  [⟨K 1, false, true⟩, ⟨K 2, false, true⟩, ⟨dst, false, true⟩, ⟨systemId, false, false⟩, ⟨K 10, true, true⟩]

/-- The sample wallet with rent claimer `K 20` can be closed to it, so the hypotheses of C17, C44 and C45 can be met. -/
example : (∃ m', closeSwigV1 env (closable { wallet with claimer := some (K 20) }) (closeMetas (K 20)) closeIx = .ok m') ∧
    0 < env.rent 1 ∧ env.rent 1 ≤ (closable { wallet with claimer := some (K 20) } (K 1)).lamports ∧
    (closable { wallet with claimer := some (K 20) } (K 1)).lamports + (closable { wallet with claimer := some (K 20) } (K 2)).lamports +
      (closable { wallet with claimer := some (K 20) } (K 20)).lamports < 2 ^ 64 :=
  ⟨exists_of_ok (by decide +kernel), by decide +kernel⟩

/-- Closing to another destination fails then. -/
example : ∃ e, closeSwigV1 env (closable { wallet with claimer := some (K 20) }) (closeMetas (K 21)) closeIx = .error e :=
  ⟨E.invalidRentClaimerDestination, by
    have : (match closeSwigV1 env (closable { wallet with claimer := some (K 20) }) (closeMetas (K 21)) closeIx with
      | .error e => decide (e = E.invalidRentClaimerDestination) | .ok _ => false) = true := by decide +kernel
    split at this
    · rename_i e he; rw [he, of_decide_eq_true this]
    · cases this⟩

/-- A ledger with a token account `K 30` of the wallet address. -/
def withToken (w : Wallet) : Mem :=
  (mem w).set (K 30) ⟨tokenId, 2039280, K 50 ++ K 2 ++ natLE 8 0 ++ zeros 36 ++ [1] ++ zeros 56⟩

def closeTokenIx : Bytes := natLE 2 14 ++ natLE 2 5 ++ natLE 4 0 ++ [4]

def closeTokenMetas : List Meta :=
  [⟨K 1, false, true⟩, ⟨K 2, false, true⟩, ⟨K 20, false, true⟩, ⟨tokenId, false, false⟩, ⟨K 10, true, true⟩, ⟨K 30, false, true⟩]

/-- A token account can be closed. -/
example : ∃ m', closeTokenV1 env (fun m _ => .ok m) (withToken { wallet with claimer := some (K 20) }) closeTokenMetas closeTokenIx =
    .ok m' := exists_of_ok (by decide +kernel)

/-- The full claim is false: the wallet can be closed to its own wallet address, which afterwards is not empty but holds
everything, and stays out of reach. -/
theorem C44_refuted : ∃ m', closeSwigV1 env (closable wallet) (closeMetas (K 2)) closeIx = .ok m' ∧
    (m' (K 1)).data = [255] ∧ (m' (K 2)).lamports =
      (closable wallet (K 1)).lamports + (closable wallet (K 2)).lamports - env.rent 1 ∧ 0 < (m' (K 2)).lamports := by
  have key : (match closeSwigV1 env (closable wallet) (closeMetas (K 2)) closeIx with
    | .ok m' => decide ((m' (K 1)).data = [255] ∧ (m' (K 2)).lamports =
      (closable wallet (K 1)).lamports + (closable wallet (K 2)).lamports - env.rent 1 ∧ 0 < (m' (K 2)).lamports)
    | _ => false) = true := by decide +kernel
  split at key
  · rename_i m' hm
    exact ⟨m', hm, of_decide_eq_true key⟩
  · cases key
end

/-! ## C60: moving assets to the wallet address -/

section
variable {env : Env} {cpi : Cpi} {m m' : Mem} {swig wallet payer sys : Meta} {rest : List Meta} {ix : Bytes} {w : Wallet}

theorem transferTokens_lamports {env : Env} {cpi : Cpi} {outer : List Meta} {swig wallet : Key} {seeds : List Bytes}
    (hcpi : ∀ m i m', cpi m i = .ok m' → ∀ k, (m' k).lamports = (m k).lamports) : ∀ (rest : List Meta) (m m' : Mem),
    transferTokensGo env cpi outer swig wallet seeds m rest = .ok m' → ∀ k, (m' k).lamports = (m k).lamports := by
  intro rest
  match rest with
  | [] => intro m m' h; cases h; exact fun _ => rfl
  | [_] => intro m m' h; cases h; exact fun _ => rfl
  | [_, _] => intro m m' h; cases h; exact fun _ => rfl
  | src :: dst :: prog :: rest =>
    intro m m' h k
    simp only [transferTokensGo] at h
    obtain ⟨m1, h1, h⟩ := bind_ok_iff.mp h
    rw [transferTokens_lamports hcpi rest m1 m' h k]
    unfold transferOne at h1
    split at h1
    · unfold tokenTransfer invokeSigned at h1
      split at h1
      · cases h1
      · split at h1
        · exact hcpi _ _ _ h1 k
        · cases h1
    · cases h1; rfl

/-- Moving the assets succeeds only for an authenticated role with All or ManageAuthority; the configuration account keeps
exactly its rent minimum (or what it had, if less), the wallet address receives exactly the rest, and no other balance
changes.  Called token programs are assumed not to move lamports; the two addresses are different (the wallet address is
derived from the other by hashing). -/
theorem C60_transfer_keeps_rent (hw : w.WF) (hd : (m swig.key).data = w.encode)
    (hcpi : ∀ m i m', cpi m i = .ok m' → ∀ k, (m' k).lamports = (m k).lamports) (hne : wallet.key ≠ swig.key)
    (hsum : (m swig.key).lamports + (m wallet.key).lamports < 2 ^ 64)
    (h : transferAssetsV1 env cpi m (swig :: wallet :: payer :: sys :: rest) ix = .ok m') :
    (∃ (r : Role), w.role? (rd ix 4 4) = some r ∧
      Sample.ok (authRole env r.authType r.auth (swig :: wallet :: payer :: sys :: rest) (m instructionsSysvarId).data
        (ix.drop 8) (ix.take 8)) = true ∧
      ((∃ x ∈ r.actions, x.ty = P.all) ∨ ∃ x ∈ r.actions, x.ty = P.manageAuthority)) ∧
    (m' swig.key).lamports = min (m swig.key).lamports (env.rent (m swig.key).data.length) ∧
    (m' wallet.key).lamports = (m wallet.key).lamports + ((m swig.key).lamports - env.rent (m swig.key).data.length) ∧
    (m' swig.key).lamports + (m' wallet.key).lamports = (m swig.key).lamports + (m wallet.key).lamports ∧
    ∀ k, k ≠ swig.key → k ≠ wallet.key → (m' k).lamports = (m k).lamports := by
  obtain ⟨a, r, h1, _, h3, h4, _, _, h7⟩ := transferAssetsV1_enc hw hd h
  have hl := transferTokens_lamports hcpi _ _ _ h7
  have hlen : (w.used a.role).encode.length = (m swig.key).data.length := by
    rw [hd, Wallet.used_encode_length hw]
  refine ⟨?_, ?_⟩
  · unfold parseRoleIx at h1
    split at h1
    · cases h1
    · cases h1
      exact ⟨r, h3.1, by rw [h3.2]; rfl, h4⟩
  · simp only [hl]
    unfold transferSol
    simp only [Mem.setData_lamports, Mem.setData_data, hlen]
    split
    · rename_i hgt
      rw [Mem.setLamports_other _ _ (Ne.symm hne), Mem.setLamports_same, Mem.setLamports_same, Mem.setLamports_other _ _ hne,
        Mem.setData_lamports]
      unfold add64
      rw [Nat.mod_eq_of_lt (by omega)]
      refine ⟨by omega, rfl, by omega, fun k k1 k2 => ?_⟩
      rw [Mem.setLamports_other _ _ k2, Mem.setLamports_other _ _ k1, Mem.setData_lamports]
    · simp only [Mem.setData_lamports]
      refine ⟨by omega, by omega, trivial, fun _ _ _ => trivial⟩

end

section
open Sample

def transferIx : Bytes := natLE 2 13 ++ zeros 2 ++ natLE 4 0 ++ [2]

def transferMetas : List Meta :=
  [⟨K 1, false, true⟩, ⟨K 2, false, true⟩, ⟨K 10, true, true⟩, ⟨systemId, false, false⟩, ⟨K 31, false, true⟩, ⟨K 30, false, true⟩,
    ⟨tokenId, false, false⟩]

/-- A ledger where the configuration account owns the token account `K 31` with 7 tokens. -/
def withTokens (w : Wallet) : Mem :=
  (withToken w).set (K 31) ⟨tokenId, 2039280, K 50 ++ K 1 ++ natLE 8 7 ++ zeros 36 ++ [1] ++ zeros 56⟩

/-- SOL and tokens are moved. -/
example : (∃ m', transferAssetsV1 env (fun m _ => .ok m) (withTokens wallet) transferMetas transferIx = .ok m') ∧
    env.rent wallet.encode.length < (withTokens wallet (K 1)).lamports ∧
    transferAmount (withTokens wallet) (K 1) (K 2) ⟨K 31, false, true⟩ ⟨K 30, false, true⟩ ⟨tokenId, false, false⟩ = 7 :=
  ⟨exists_of_ok (by decide +kernel), by decide +kernel, by decide +kernel⟩
end

/-! ## C59: migration -/

section
variable {env : Env} {m m' : Mem} {swig auth payer wallet sys : Meta} {rest : List Meta} {ix : Bytes} {w : Wallet}

/-- What holds: a migration needs All or ManageAuthority, keeps id, bump, next-id counter, rent claimer and every role
(only the replay counter of the acting role moves), stores the new wallet bump and clears the rest of the header.
Missing for the full claim: it does not refuse a wallet already migrated, see `C59_refuted`. -/
theorem C59_migration_partial (hw : w.WF) (hd : (m swig.key).data = w.encode)
    (h : migrateV1 env m (swig :: auth :: payer :: wallet :: sys :: rest) ix = .ok m') :
    (∃ (r : Role), w.role? (rd ix 4 4) = some r ∧
      Sample.ok (authRole env r.authType r.auth (swig :: auth :: payer :: wallet :: sys :: rest) (m instructionsSysvarId).data
        (ix.drop 8) (ix.take 8)) = true ∧
      ((∃ x ∈ r.actions, x.ty = P.all) ∨ ∃ x ∈ r.actions, x.ty = P.manageAuthority)) ∧
    env.pda (walletSeeds swig.key ++ [[ix.getD 2 0]]) = some wallet.key ∧
    (m' swig.key).data = (⟨w.bump, w.id, w.roleCounter, ix.getD 2 0, zeros 3, 0,
      w.roles.map fun r => if r.id = rd ix 4 4 then { r with auth := usedCred r.authType r.auth } else r, w.claimer⟩ : Wallet).encode ∧
    ∀ k, k ≠ swig.key → (m' k).data = (m k).data := by
  obtain ⟨a, r, h1, h3, h4, h5, h6, h7⟩ := migrateV1_enc hw hd h
  unfold parseRoleIx at h1
  split at h1
  · cases h1
  · cases h1
    exact ⟨⟨r, h3.1, by rw [h3.2]; rfl, h4⟩, h5, h6, fun k hk => (h7 k).2 hk⟩

end

section
open Sample

/-- A legacy wallet: the eight bytes at 40 hold an amount. -/
def legacy : Wallet := { wallet with walletBump := 7, pad := [1, 0, 0], subCounter := 9 }

def migrateIx : Bytes := natLE 2 12 ++ [254, 0] ++ natLE 4 0 ++ [1]

def migrateMetas : List Meta :=
  [⟨K 1, false, true⟩, ⟨K 10, true, true⟩, ⟨K 10, true, true⟩, ⟨K 2, false, true⟩, ⟨systemId, false, false⟩]

example : ∃ m', migrateV1 env (mem legacy) migrateMetas migrateIx = .ok m' := exists_of_ok (by decide +kernel)

/-- A wallet in the new format that has created five sub-accounts. -/
def withSubs : Wallet := { wallet with subCounter := 5 }

/-- The full claim is false: a wallet that is already in the new format is migrated again, and its sub-account counter is set
back from 5 to 0. -/
theorem C59_refuted : isV2 withSubs.header = true ∧ ∃ m', migrateV1 env (mem withSubs) migrateMetas migrateIx = .ok m' ∧
    (m' (K 1)).data = { withSubs with subCounter := 0 }.encode := by
  refine ⟨by decide, ?_⟩
  have key : (match migrateV1 env (mem withSubs) migrateMetas migrateIx with
    | .ok m' => decide ((m' (K 1)).data = { withSubs with subCounter := 0 }.encode)
    | _ => false) = true := by decide +kernel
  split at key
  · rename_i m' hm
    exact ⟨m', hm, of_decide_eq_true key⟩
  · cases key
end

end Verif
