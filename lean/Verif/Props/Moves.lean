import Verif.Proofs.Moves
import Verif.Props.Sub

/-!
# Where lamports and tokens go: closing (C17), V1 withdrawals (C49, C72), sub-account signing (C51), asset transfer (C60)
-/

namespace Verif

section
variable {env : Env} {cpi : Cpi} {m m' : Mem} {swig auth sub wallet sys payer dst program x3 x5 : Meta} {rest : List Meta} {ix : Bytes}
  {w : Wallet}

/-! ## C17: the rent of closed token accounts -/

/-- Whatever the token program does: the handler does nothing but close, in order, the accounts listed from the offset on; each is at that
moment a token account held by the wallet's address or by the configuration account, and its lamports go to the registered claimer. -/
theorem C17_token_rent {claimer : Key} (hw : w.WF) (hd : (m swig.key).data = w.encode) (hc : w.claimer = some claimer)
    (h : closeTokenV1 env cpi m (swig :: wallet :: dst :: program :: rest) ix = .ok m') :
    IsTokenProgram program.key ∧
    ∃ cs, Calls cpi (fun m c => ∃ k holder, c = tokenCloseIx program.key k claimer holder ∧ HeldBy m program.key k holder ∧
        (holder = wallet.key ∨ holder = swig.key)) (m.setData swig.key (w.used (rd ix 4 4)).encode) cs m' ∧
      cs.map (fun c => (c.accounts.map Meta.key).head?) =
        ((swig :: wallet :: dst :: program :: rest).drop (rd ix 2 2)).map (fun t => some t.key) := by
  obtain ⟨a, _, _, ha, _, _, h5, h6, _, h7⟩ := closeTokenV1_enc hw hd h
  unfold parseRoleIx at ha
  split at ha
  · cases ha
  · cases ha
    rw [hc] at h5
    rcases h5 with h5 | h5
    · cases h5
    · have := Option.some.inj h5
      subst this
      exact ⟨h6, closeTokensGo_calls _ h7⟩

/-! ## C49: V1 withdrawals -/

/-- Six accounts: exactly the requested lamports move from the sub-account to the wallet's address; no other balance and no data (but the
replay counter) changes. -/
theorem C49_v1_sol (hw : w.WF) (hd : (m swig.key).data = w.encode) (hk : sub.key.length = 32)
    (h : withdrawSubV1 env cpi m [swig, auth, sub, x3, wallet, x5] ix = .ok m') :
    (∃ b, findPda env (walletSeeds swig.key) = .ok (wallet.key, b)) ∧ rd ix 8 8 ≤ (m sub.key).lamports ∧
    (sub.key ≠ wallet.key → (m' sub.key).lamports = (m sub.key).lamports - rd ix 8 8 ∧
      (m' wallet.key).lamports = (m wallet.key).lamports + rd ix 8 8) ∧
    (∀ k, k ≠ sub.key → k ≠ wallet.key → (m' k).lamports = (m k).lamports) ∧
    (∀ k, (m' k).owner = (m k).owner ∧ (k ≠ swig.key → (m' k).data = (m k).data)) ∧
    (m' swig.key).data = (w.used (rd ix 4 4)).encode := by
  obtain ⟨r, s, role, bump, b, h1, _, _, _, h5, _, _, h8⟩ := withdrawSubV1_enc hw hd hk h
  rw [if_neg (by simp)] at h8
  unfold withdrawSol at h8
  split at h8
  · cases h8
  · rename_i hle
    rw [Mem.setData_lamports] at hle
    obtain ⟨_, _, _, _, rfl⟩ := signedTransfer_ok h8
    refine ⟨⟨b, h5⟩, by omega, ?_, ?_, ?_, ?_⟩
    · intro hk
      refine ⟨?_, ?_⟩
      · rw [Mem.setLamports_other _ _ hk]; simp
      · rw [Mem.setLamports_same, Mem.setLamports_other _ _ hk.symm]; simp
    · intro k k1 k2
      rw [Mem.setLamports_other _ _ k2, Mem.setLamports_other _ _ k1]; simp
    · intro k
      refine ⟨by simp, fun hk => ?_⟩
      rw [Mem.setLamports_data, Mem.setLamports_data, Mem.setData_other _ _ hk]
    · simp

/-- More accounts: the only thing that happens is one token transfer of the requested amount, from the account at position 6 to the account at
position 7, which belongs to the same token program and is held by the wallet's address. -/
theorem C49_v1_token (hw : w.WF) (hd : (m swig.key).data = w.encode) (hk : sub.key.length = 32) (hrest : rest ≠ [])
    (h : withdrawSubV1 env cpi m (swig :: auth :: sub :: x3 :: wallet :: x5 :: rest) ix = .ok m') :
    (∃ b, findPda env (walletSeeds swig.key) = .ok (wallet.key, b)) ∧
    ∃ src dst prog : Meta, ∃ more, rest = src :: dst :: prog :: more ∧ IsTokenProgram (m src.key).owner ∧
      (m dst.key).owner = (m src.key).owner ∧ sl (m dst.key).data 32 64 = wallet.key ∧
      cpi (m.setData swig.key (w.used (rd ix 4 4)).encode) (tokenMoveIx (m src.key).owner src.key dst.key sub.key (rd ix 8 8)) = .ok m' := by
  obtain ⟨r, s, role, bump, b, h1, hso, _, _, h5, _, _, h8⟩ := withdrawSubV1_enc hw hd hk h
  cases rest with
  | nil => exact absurd rfl hrest
  | cons src rest =>
  rw [if_pos (by simp)] at h8
  refine ⟨⟨b, h5⟩, ?_⟩
  unfold withdrawTokenV1 at h8
  rw [show getOr (swig :: auth :: sub :: x3 :: wallet :: x5 :: src :: rest) 6 .panic = .ok src from rfl] at h8
  simp only [ok_bind] at h8
  obtain ⟨dst, e2, h8⟩ := bind_ok_iff.mp h8
  cases rest with
  | nil => cases e2
  | cons d rest =>
  rw [show getOr (swig :: auth :: sub :: x3 :: wallet :: x5 :: src :: d :: rest) 7 .panic = .ok d from rfl] at e2
  cases e2
  obtain ⟨owner, c1, h8⟩ := bind_ok_iff.mp h8
  obtain ⟨_, c2, h8⟩ := bind_ok_iff.mp h8
  obtain ⟨prog, e3, h8⟩ := bind_ok_iff.mp h8
  obtain ⟨_, c4, h8⟩ := bind_ok_iff.mp h8
  obtain ⟨_, c5, h8⟩ := bind_ok_iff.mp h8
  have c2 := require_ok_iff.mp c2
  have c4 := require_ok_iff.mp c4
  have c5 := require_ok_iff.mp c5
  rw [Mem.setData_owner] at c4 c5
  rw [Mem.setData_owner] at c5
  cases rest with
  | nil => cases e3
  | cons p rest =>
  have hds : dst.key ≠ swig.key := by
    intro e
    rw [← c5, e, hso] at c4
    revert c4; decide
  rw [Mem.setData_other _ _ hds] at c1
  refine ⟨src, dst, p, rest, rfl, c4, c5, ?_, ?_⟩
  · unfold slU at c1
    split at c1
    · cases c1
      exact c2.symm
    · cases c1
  · have := invokeSigned_ok h8
    rw [Mem.setData_owner] at this
    exact this

/-! ## C51: signing leaves the sub-account rent exempt -/

theorem C51_rent_v1 (hw : w.WF) (hd : (m swig.key).data = w.encode) (hk : sub.key.length = 32)
    (h : subSignV1 env cpi m (swig :: sub :: sys :: rest) ix = .ok m') : env.rent (m' sub.key).data.length ≤ (m' sub.key).lamports := by
  obtain ⟨_, _, _, _, m1, _, _, _, _, _, _, _, _, _, _, h⟩ := subSignV1_enc hw hd hk h
  obtain ⟨rfl, h⟩ := checkRent_ok h
  exact h

theorem C51_rent_v2 {state : Meta} (hw : w.WF) (hd : (m swig.key).data = w.encode)
    (h : subSignV2 env cpi m (swig :: state :: sub :: sys :: rest) ix = .ok m') :
    env.rent (m' sub.key).data.length ≤ (m' sub.key).lamports := by
  obtain ⟨_, _, _, m1, _, _, _, _, _, _, _, _, _, _, _, h⟩ := subSignV2_enc hw hd h
  obtain ⟨rfl, h⟩ := checkRent_ok h
  exact h

/-! ## C60: the tokens of the configuration account go to the wallet's address -/

/-- Whatever the token programs do: after the SOL part the handler does nothing but token transfers signed by the configuration account, each of
the whole balance of a token account held by the configuration account, to a token account held by the wallet's address. -/
theorem C60_tokens (hw : w.WF) (hd : (m swig.key).data = w.encode)
    (h : transferAssetsV1 env cpi m (swig :: wallet :: payer :: sys :: rest) ix = .ok m') :
    env.pda (walletSeeds swig.key ++ [[w.walletBump]]) = some wallet.key ∧
    ∃ (m1 : Mem) (cs : List CpiIx), Calls cpi (fun m c => ∃ program src dst n, c = tokenMoveIx program src dst swig.key n ∧ IsTokenProgram program ∧
        72 ≤ (m src).data.length ∧ sl (m src).data 32 64 = swig.key ∧ 72 ≤ (m dst).data.length ∧ sl (m dst).data 32 64 = wallet.key ∧
        n = rd (m src).data 64 8 ∧ 0 < n) m1 cs m' ∧
      (m1 swig.key).data = (w.used (rd ix 4 4)).encode ∧ ∀ k, (m1 k).owner = (m k).owner ∧ (k ≠ swig.key → (m1 k).data = (m k).data) ∧
        (k ≠ swig.key → k ≠ wallet.key → (m1 k).lamports = (m k).lamports) := by
  obtain ⟨a, r, ha, _, _, _, _, h6, h7⟩ := transferAssetsV1_enc hw hd h
  unfold parseRoleIx at ha
  split at ha
  · cases ha
  · cases ha
    refine ⟨h6, _, _, (transferTokensGo_calls _ _ (Nat.le_refl _) h7).choose_spec, ?_, ?_⟩
    · unfold transferSol
      dsimp only
      split <;> simp
    · intro k
      unfold transferSol
      dsimp only
      split
      · refine ⟨by simp, fun h1 => ?_, fun h1 h2 => ?_⟩
        · rw [Mem.setLamports_data, Mem.setLamports_data, Mem.setData_other _ _ h1]
        · rw [Mem.setLamports_other _ _ h2, Mem.setLamports_other _ _ h1]; simp
      · exact ⟨by simp, fun h1 => by rw [Mem.setData_other _ _ h1], fun _ _ => by simp⟩

/-! ## C72: who can withdraw from a V1 sub-account -/

/-- Who withdraws: an authenticated role that owns the (enabled) sub-account; or, without a permission for this address, a manager whose own
sub-account address this is; or, without either, a role with All. -/
theorem C72_authorised_partial (hw : w.WF) (hd : (m swig.key).data = w.encode) (hk : sub.key.length = 32)
    (h : withdrawSubV1 env cpi m (swig :: auth :: sub :: x3 :: wallet :: x5 :: rest) ix = .ok m') :
    ∃ (r : Role), w.role? (rd ix 4 4) = some r ∧
      Sample.ok (authRole env r.authType r.auth (swig :: auth :: sub :: x3 :: wallet :: x5 :: rest) (m instructionsSysvarId).data
        (ix.drop 16) (ix.take 16)) = true ∧
      ((∃ a ∈ r.actions, a.ty = P.subAccount ∧ sl a.data 0 32 = sub.key ∧ sl a.data 40 72 = w.id ∧ rd a.data 36 4 = rd ix 4 4 ∧
          a.data.getD 33 0 = 1) ∨
        ((∃ a ∈ r.actions, a.ty = P.manageAuthority) ∧ ∃ b, findPda env (subSeeds w.id (natLE 4 (rd ix 4 4))) = .ok (sub.key, b)) ∨
        ∃ a ∈ r.actions, a.ty = P.all) := by
  obtain ⟨r, s, role, bump, b, h1, _, _, _, _, h6, _⟩ := withdrawSubV1_enc hw hd hk h
  refine ⟨r, h1.1, by rw [h1.2]; rfl, ?_⟩
  rcases withdrawPermission_enc hw (role?_mem h1.1).1 hk h6 with ⟨a, k1, k2, k3, _⟩ | ⟨_, _, ⟨k, b, hb⟩ | ⟨_, k⟩⟩
  · exact .inl ⟨a, k1, k2, k3.sub, k3.swig, k3.role, k3.enabled⟩
  · exact .inr (.inl ⟨k, b, hb⟩)
  · exact .inr (.inr k)

/-- The sub-accounts of roles above 10 are out of reach for everyone but the role itself: a request of a role without the permission for this
address succeeds only if it is the derived address of one of the roles 0 to 10. -/
theorem C72_only_first_roles (hw : w.WF) (hd : (m swig.key).data = w.encode) (hk : sub.key.length = 32) {r : Role}
    (hr : w.role? (rd ix 4 4) = some r) (hno : ¬ ∃ a ∈ r.actions, a.ty = P.subAccount ∧ a.data.take 32 = sub.key)
    (h : withdrawSubV1 env cpi m (swig :: auth :: sub :: x3 :: wallet :: x5 :: rest) ix = .ok m') :
    ∃ i b, i ≤ 10 ∧ findPda env (subSeeds w.id (natLE 4 i)) = .ok (sub.key, b) := by
  obtain ⟨r', s, role, bump, b, h1, _, _, _, _, h6, h7, _⟩ := withdrawSubV1_enc hw hd hk h
  have h1 := h1.1
  rw [hr] at h1
  cases h1
  rcases withdrawPermission_enc hw (role?_mem hr).1 hk h6 with ⟨a, k1, k2, k3, _⟩ | ⟨_, rfl, _⟩
  · have := k3.sub
    rw [sl_zero] at this
    exact absurd ⟨a, k1, k2, this⟩ hno
  · obtain ⟨b, g1, _, _, g4⟩ := findSubRole_ok (show findSubRole env w.header.id sub.key 11 0 = .ok (role, bump) from h7)
    exact ⟨role, b, by simp at g4; omega, g1⟩

/-- Holding ManageAuthority in addition takes the effect of All away: such a role without the permission for this address withdraws only from
the address derived from its own id. -/
theorem C72_manager_loses (hw : w.WF) (hd : (m swig.key).data = w.encode) (hk : sub.key.length = 32) {r : Role}
    (hr : w.role? (rd ix 4 4) = some r) (hno : ¬ ∃ a ∈ r.actions, a.ty = P.subAccount ∧ a.data.take 32 = sub.key)
    (hman : ∃ a ∈ r.actions, a.ty = P.manageAuthority)
    (h : withdrawSubV1 env cpi m (swig :: auth :: sub :: x3 :: wallet :: x5 :: rest) ix = .ok m') :
    ∃ b, findPda env (subSeeds w.id (natLE 4 (rd ix 4 4))) = .ok (sub.key, b) := by
  obtain ⟨r', s, role, bump, b, h1, _, _, _, _, h6, _⟩ := withdrawSubV1_enc hw hd hk h
  have h1 := h1.1
  rw [hr] at h1
  cases h1
  rcases withdrawPermission_enc hw (role?_mem hr).1 hk h6 with ⟨a, k1, k2, k3, _⟩ | ⟨_, _, ⟨_, k⟩ | ⟨k, _⟩⟩
  · have := k3.sub
    rw [sl_zero] at this
    exact absurd ⟨a, k1, k2, this⟩ hno
  · exact k
  · exact absurd hman k

end

/-! ## The hypotheses can be met -/

section
open Sample

/-- A wallet with a claimer closes a token account. -/
example : ok (closeTokenV1 env (fun m _ => .ok m)
    ((mem { wallet with claimer := some (K 20) }).set (K 30) ⟨tokenId, 2039280, K 50 ++ K 2 ++ natLE 8 0 ++ zeros 36 ++ [1] ++ zeros 56⟩)
    [⟨K 1, false, true⟩, ⟨K 2, false, true⟩, ⟨K 20, false, true⟩, ⟨tokenId, false, false⟩, ⟨K 10, true, false⟩, ⟨K 30, false, true⟩]
    (natLE 2 15 ++ natLE 2 5 ++ natLE 4 0 ++ [4])) = true := by decide +kernel

/-- Role 1 withdraws lamports and tokens from its V1 sub-account. -/
def v1OwnMetas : List Meta :=
  [⟨K 1, false, true⟩, ⟨K 11, true, true⟩, ⟨K 3, false, true⟩, ⟨K 11, true, true⟩, ⟨K 2, false, true⟩, ⟨systemId, false, false⟩]

def v1OwnIx : Bytes := natLE 2 7 ++ zeros 2 ++ natLE 4 1 ++ natLE 8 1000 ++ [1]

example : ok (withdrawSubV1 subEnv sysCpi (v1Mem 1) v1OwnMetas v1OwnIx) = true := by decide +kernel

example : ok (withdrawSubV1 subEnv (fun m _ => .ok m)
    (((v1Mem 1).set (K 30) ⟨tokenId, 2039280, K 50 ++ K 3 ++ natLE 8 9000 ++ zeros 36 ++ [1] ++ zeros 56⟩).set (K 31)
      ⟨tokenId, 2039280, K 50 ++ K 2 ++ natLE 8 0 ++ zeros 36 ++ [1] ++ zeros 56⟩)
    (v1OwnMetas ++ [⟨K 30, false, true⟩, ⟨K 31, false, true⟩, ⟨tokenId, false, false⟩]) v1OwnIx) = true := by decide +kernel

/-- Addresses in which the V1 sub-account of role `n` is `K 3`. -/
def subEnvOf (n : Nat) : Env :=
  { subEnv with pda := fun seeds =>
      if seeds.head? = some (ascii "sub-account") then if seeds.getD 2 [] = natLE 4 n then some (K 3) else some (K 33)
      else subEnv.pda seeds }

/-- A wallet in which role `n` owns the V1 sub-account `K 3`; role 0 has All. -/
def v1WalletOf (n : Nat) : Wallet :=
  { wallet with roles := [root, ⟨1, n, K 11, [⟨9, K 3 ++ [255, 1] ++ zeros 2 ++ natLE 4 n ++ K 70⟩]⟩], roleCounter := n + 1 }

/-- C72 is false as stated: the root role, with All, withdraws from the sub-account of role 10 but not from that of role 11. -/
theorem C72_refuted :
    ok (withdrawSubV1 (subEnvOf 10) sysCpi ((mem (v1WalletOf 10)).setLamports (K 3) 2000000000) v1WithdrawMetas v1WithdrawIx) = true ∧
    ok (withdrawSubV1 (subEnvOf 11) sysCpi ((mem (v1WalletOf 11)).setLamports (K 3) 2000000000) v1WithdrawMetas v1WithdrawIx) = false := by
  decide +kernel

/-- The same for a root role with All and ManageAuthority and the sub-account of role 1. -/
theorem C72_refuted_manager :
    ok (withdrawSubV1 subEnv sysCpi ((mem { v1Wallet 1 with roles := ⟨1, 0, K 10, [⟨7, []⟩, ⟨8, []⟩]⟩ :: (v1Wallet 1).roles.drop 1 }).setLamports
      (K 3) 2000000000) v1WithdrawMetas v1WithdrawIx) = false ∧
    ok (withdrawSubV1 subEnv sysCpi ((mem { v1Wallet 1 with roles := ⟨1, 0, K 10, [⟨7, []⟩]⟩ :: (v1Wallet 1).roles.drop 1 }).setLamports
      (K 3) 2000000000) v1WithdrawMetas v1WithdrawIx) = true := by
  decide +kernel

end

end Verif
