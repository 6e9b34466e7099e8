import Verif.Proofs.Live
import Verif.Proofs.Close

/-! When the closing and moving handlers succeed. -/

namespace Verif

theorem signedTransfer_of {env : Env} {m : Mem} {seeds : List Bytes} {src dst : Meta} {n : Nat} (h1 : env.pda seeds = some src.key)
    (h2 : src.writable = true) (h3 : dst.writable = true) (h4 : (m src.key).owner = systemId) (h5 : (m src.key).data = [])
    (h6 : n ≤ (m src.key).lamports) : ∃ m', signedTransfer env m seeds src dst n = .ok m' := by
  unfold signedTransfer
  rw [h1]
  dsimp only
  exact sysTransfer_of (src := { src with signer := src.signer || decide (src.key = src.key) }) (by simp) h2 h3 h4 h5 h6

theorem drainWallet_of {env : Env} {m : Mem} {swig : Key} {bump : UInt8} {wallet dst : Meta}
    (h : 0 < (m wallet.key).lamports → env.pda (walletSeeds swig ++ [[bump]]) = some wallet.key ∧ wallet.writable = true ∧
      dst.writable = true ∧ (m wallet.key).owner = systemId ∧ (m wallet.key).data = []) :
    ∃ m', drainWallet env m swig bump wallet dst = .ok m' := by
  unfold drainWallet
  split
  · rename_i hp
    obtain ⟨h1, h2, h3, h4, h5⟩ := h hp
    exact signedTransfer_of h1 h2 h3 h4 h5 (by omega)
  · exact ⟨_, rfl⟩

theorem closeSwigV1_of {env : Env} {m : Mem} {swig wallet dst sys : Meta} {rest : List Meta} {ix : Bytes} {w : Wallet} {r : Role}
    {a : RoleIx} {b : UInt8}
    (hw : w.WF) (hd : (m swig.key).data = w.encode) (ho : (m swig.key).owner = swigId) (hsys : sys.key = systemId)
    (hp : parseRoleIx ix E.invalidInstructionDataTooShort = .ok a)
    (hact : ActsAs env m (swig :: wallet :: dst :: sys :: rest) w a.role a.authPayload a.dataPayload r)
    (hperm : r.holds P.all ∨ r.holds P.manageAuthority ∨ r.holds P.closeSwigAuthority)
    (hcl : w.claimer = none ∨ w.claimer = some dst.key) (hpda : findPda env (walletSeeds swig.key) = .ok (wallet.key, b))
    (h1 : (m swig.key).lamports ≤ env.rent w.encode.length) (h2 : (m wallet.key).lamports ≤ env.rent 0) (hne : wallet.key ≠ swig.key)
    (hdrain : 0 < (m wallet.key).lamports → env.pda (walletSeeds swig.key ++ [[w.walletBump]]) = some wallet.key ∧
      wallet.writable = true ∧ dst.writable = true ∧ (m wallet.key).owner = systemId ∧ (m wallet.key).data = []) :
    ∃ m', closeSwigV1 env m (swig :: wallet :: dst :: sys :: rest) ix = .ok m' := by
  obtain ⟨v, e1, e2, e3⟩ := actAs_of hw hact
  simp only [closeSwigV1]
  rw [require_of ho, ok_bind, require_of hsys, ok_bind, hp, ok_bind, hd, openSwig_enc hw, ok_bind,
    show w.parts.tail = encTail w.claimer from rfl, claimerReadStrict_enc hw.claimer, ok_bind, hpda, ok_bind]
  dsimp only
  rw [require_of rfl, ok_bind, e1, ok_bind]
  dsimp only
  rw [e2, hasClose_enc hw (role?_mem hact.1).1, ok_bind, require_of (by simpa using hperm), ok_bind, require_of hcl, ok_bind,
    require_of h1, ok_bind, require_of h2, ok_bind, Wallet.parts_bytes]
  obtain ⟨m1, hm1⟩ := drainWallet_of (env := env) (m := m.setData swig.key (w.used a.role).encode) (swig := swig.key)
    (bump := w.walletBump) (wallet := wallet) (dst := dst)
    (by rw [Mem.setData_other _ _ hne]; exact hdrain)
  rw [show (w.used a.role).parts.header.walletBump = w.walletBump from rfl, hm1, ok_bind, realloc_of (by decide) (by unfold maxGrowth; omega), ok_bind]
  exact ⟨_, rfl⟩

end Verif
