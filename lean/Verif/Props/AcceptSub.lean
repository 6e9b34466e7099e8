import Verif.Proofs.AcceptTokens
import Verif.Props.Accept
import Verif.Spec.SampleCpi

/-!
# Exactly which requests are accepted, continued (C110)

The same as C109 for the remaining requests: creating a wallet, the sub-accounts of both versions (create, switch, sign, withdraw), closing
token accounts and moving the assets of the configuration account.  The words `ToppedAll`, `MayWithdrawV1`, `Carries`, `ClosesAll`,
`MovesAll` are in Verif/Spec/AcceptSub.lean.  What the called programs do is a parameter (`cpi`); a request that makes calls is carried out
only if they succeed.  `(w.used n).encode` is the stored wallet after the counter of role `n` has moved on.
-/

namespace Verif
open Client

section
variable {env : Env} {cpi : Cpi} {m : Mem} {swig : Meta} {rest : List Meta} {ix : Bytes} {w : Wallet}
variable (ho : Open m swig.key w) (hp : Plain m w (swig :: rest)) (hl : (swig :: rest).length ≤ 254)
include ho hp hl

/-- Creating a version 1 sub-account. -/
theorem C110_sub_create (hi : rd ix 0 2 = 6) (hk : ∀ x ∈ rest, x.key.length = 32) :
    Accepted env cpi m (swig :: rest) ix ↔ ∃ payer sub sys more, rest = payer :: sub :: sys :: more ∧
      16 ≤ ix.length ∧ (m sub.key).owner = systemId ∧
      (∃ r, Speaks env m (swig :: rest) w (rd ix 4 4) (ix.drop 16) (ix.take 16) r ∧
        ∃ a ∈ r.actions, a.ty = P.subAccount ∧ a.data.take 32 = zeros 32) ∧
      env.pda [ascii "sub-account", w.id, natLE 4 (rd ix 4 4), [ix.getD 8 0]] = some sub.key ∧ Topped env m payer sub 0 := by
  by_cases h2 : ix.length < 2
  · exact ⟨fun h => absurd h (accepted_short ho hp hl h2), fun ⟨_, _, _, _, _, h, _⟩ => absurd h (by omega)⟩
  obtain ⟨cls, e⟩ := accepted_dispatch (env := env) (cpi := cpi) (ix := ix) ho hp hl
  rw [e, dispatch, if_neg h2, hi]
  show (∃ m', createSubV1 env m (swig :: rest) ix = .ok m') ↔ _
  constructor
  · rintro ⟨m', h⟩
    match rest, hk, h with
    | payer :: sub :: sys :: more, hk, h =>
      exact ⟨_, _, _, _, rfl, (createSubV1_iff ho.wf ho.data ho.owner (hk sub (by simp))).mp ⟨m', h⟩⟩
    | [_, _], _, h => cases h
    | [_], _, h => cases h
    | [], _, h => cases h
  · rintro ⟨payer, sub, sys, more, rfl, h⟩
    exact (createSubV1_iff ho.wf ho.data ho.owner (hk sub (by simp))).mpr h

/-- Switching a version 1 sub-account on or off. -/
theorem C110_sub_toggle (hi : rd ix 0 2 = 10) (hk : ∀ x ∈ rest, x.key.length = 32) :
    Accepted env cpi m (swig :: rest) ix ↔ ∃ payer sub more, rest = payer :: sub :: more ∧
      16 ≤ ix.length ∧ (m sub.key).owner = systemId ∧ (ix.getD 2 0 = 0 ∨ ix.getD 2 0 = 1) ∧
      (∃ r, Speaks env m (swig :: rest) w (rd ix 12 4) (ix.drop 16) (ix.take 16) r ∧
        (rd ix 12 4 = rd ix 8 4 ∨ r.holds P.all ∨ r.holds P.manageAuthority)) ∧
      ∃ t, w.role? (rd ix 8 4) = some t ∧ ∃ a ∈ t.actions, a.ty = P.subAccount ∧ a.data.take 32 = sub.key := by
  by_cases h2 : ix.length < 2
  · exact ⟨fun h => absurd h (accepted_short ho hp hl h2), fun ⟨_, _, _, _, h, _⟩ => absurd h (by omega)⟩
  obtain ⟨cls, e⟩ := accepted_dispatch (env := env) (cpi := cpi) (ix := ix) ho hp hl
  rw [e, dispatch, if_neg h2, hi]
  show (∃ m', toggleSubV1 env m (swig :: rest) ix = .ok m') ↔ _
  constructor
  · rintro ⟨m', h⟩
    match rest, hk, h with
    | payer :: sub :: more, hk, h => exact ⟨_, _, _, rfl, (toggleSubV1_iff ho.wf ho.data ho.owner (hk sub (by simp))).mp ⟨m', h⟩⟩
    | [_], _, h => cases h
    | [], _, h => cases h
  · rintro ⟨payer, sub, more, rfl, h⟩
    exact (toggleSubV1_iff ho.wf ho.data ho.owner (hk sub (by simp))).mpr h

/-- Signing with a version 1 sub-account: the role's first grant for the address decides. -/
theorem C110_sub_sign (hi : rd ix 0 2 = 9) (hk : ∀ x ∈ rest, x.key.length = 32) :
    Accepted env cpi m (swig :: rest) ix ↔ ∃ sub sys more, rest = sub :: sys :: more ∧
      16 + rd ix 2 2 ≤ ix.length ∧ env.stackHeight = 1 ∧ (m sub.key).owner = systemId ∧
      ∃ r a ixs m1, Speaks env m (swig :: rest) w (rd ix 4 4) (ix.drop (16 + rd ix 2 2)) (sl ix 16 (16 + rd ix 2 2)) r ∧
        r.actions.find? (fun a => a.grants P.subAccount sub.key) = some a ∧
        a.data.getD 33 0 = 1 ∧ rd a.data 36 4 = rd ix 4 4 ∧ sl a.data 40 72 = w.id ∧
        decodeIxs (swig :: rest) sub.key [] (sl ix 16 (16 + rd ix 2 2)) = .ok ixs ∧
        execAll env cpi (swig :: rest) sub.key [ascii "sub-account", w.id, natLE 4 (rd ix 4 4), [a.data.getD 32 0]]
          (m.setData swig.key (w.used (rd ix 4 4)).encode) ixs = .ok m1 ∧
        env.rent (m1 sub.key).data.length ≤ (m1 sub.key).lamports := by
  by_cases h2 : ix.length < 2
  · exact ⟨fun h => absurd h (accepted_short ho hp hl h2), fun ⟨_, _, _, _, h, _⟩ => absurd h (by omega)⟩
  obtain ⟨cls, e⟩ := accepted_dispatch (env := env) (cpi := cpi) (ix := ix) ho hp hl
  rw [e, dispatch, if_neg h2, hi]
  show (∃ m', subSignV1 env cpi m (swig :: rest) ix = .ok m') ↔ _
  constructor
  · rintro ⟨m', h⟩
    match rest, hk, h with
    | sub :: sys :: more, hk, h => exact ⟨_, _, _, rfl, (subSignV1_iff ho.wf ho.data ho.owner (hk sub (by simp))).mp ⟨m', h⟩⟩
    | [_], _, h => cases h
    | [], _, h => cases h
  · rintro ⟨sub, sys, more, rfl, h⟩
    exact (subSignV1_iff ho.wf ho.data ho.owner (hk sub (by simp))).mpr h

omit hl hp in
/-- An account with another owner than the program is not touched by the counter's update. -/
theorem other_of_owner {k : Key} (h : (m k).owner ≠ swigId) (d : Bytes) : m.setData swig.key d k = m k := by
  unfold Mem.setData Mem.set
  rw [if_neg fun e => h (by rw [e]; exact ho.owner)]

/-- Withdrawing SOL (exactly six accounts) or tokens (nine or more) from a version 1 sub-account. -/
theorem C110_sub_withdraw (hi : rd ix 0 2 = 7) (hk : ∀ x ∈ rest, x.key.length = 32) :
    Accepted env cpi m (swig :: rest) ix ↔ ∃ x1 sub x3 wallet x5 more, rest = x1 :: sub :: x3 :: wallet :: x5 :: more ∧
      16 ≤ ix.length ∧ (m sub.key).owner = systemId ∧ (m wallet.key).owner = systemId ∧
      (∃ b, Canonical env [ascii "swig-wallet-address", swig.key] b wallet.key) ∧
      ∃ r i b, Speaks env m (swig :: rest) w (rd ix 4 4) (ix.drop 16) (ix.take 16) r ∧
        MayWithdrawV1 env w.id (rd ix 4 4) sub.key r i b ∧
        ((more = [] ∧
            (∃ k, env.pda [ascii "sub-account", w.id, natLE 4 i, [b]] = some k ∧ (k = sub.key ∨ sub.signer = true)) ∧
            sub.writable = true ∧ wallet.writable = true ∧ (m sub.key).data = [] ∧ rd ix 8 8 ≤ (m sub.key).lamports) ∨
          ∃ src dst x more' m', more = src :: dst :: x :: more' ∧ 64 ≤ (m dst.key).data.length ∧ sl (m dst.key).data 32 64 = wallet.key ∧
            ((m src.key).owner = tokenId ∨ (m src.key).owner = token2022Id) ∧ (m dst.key).owner = (m src.key).owner ∧
            Carries env cpi (swig :: rest) [ascii "sub-account", w.id, natLE 4 i, [b]]
              (m.setData swig.key (w.used (rd ix 4 4)).encode)
              (moveTokens (m src.key).owner src.key dst.key sub.key (rd ix 8 8)) m') := by
  by_cases h2 : ix.length < 2
  · exact ⟨fun h => absurd h (accepted_short ho hp hl h2), fun ⟨_, _, _, _, _, _, _, h, _⟩ => absurd h (by omega)⟩
  obtain ⟨cls, e⟩ := accepted_dispatch (env := env) (cpi := cpi) (ix := ix) ho hp hl
  rw [e, dispatch, if_neg h2, hi]
  show (∃ m', withdrawSubV1 env cpi m (swig :: rest) ix = .ok m') ↔ _
  have nswig : ∀ {k : Key} {d : Bytes}, ((m.setData swig.key d) k).owner = tokenId ∨ ((m.setData swig.key d) k).owner = token2022Id →
      m.setData swig.key d k = m k := by
    intro k d h
    refine other_of_owner ho ?_ d
    have : ((m.setData swig.key d) k).owner = (m k).owner := by unfold Mem.setData Mem.set; split <;> simp_all
    rw [this] at h
    rcases h with h | h <;> (rw [h]; decide)
  have key : ∀ x1 sub x3 wallet x5 more, rest = x1 :: sub :: x3 :: wallet :: x5 :: more → (m sub.key).owner = systemId → ∀ (i : Nat) (b : UInt8),
      (∃ m', (if 7 ≤ (swig :: rest).length then
          withdrawTokenV1 env cpi (m.setData swig.key (w.used (rd ix 4 4)).encode) (swig :: rest)
            sub.key wallet.key (rd ix 8 8) (subSeeds w.id (natLE 4 i) ++ [[b]])
        else withdrawSol env (m.setData swig.key (w.used (rd ix 4 4)).encode) sub wallet (rd ix 8 8)
          (subSeeds w.id (natLE 4 i) ++ [[b]])) = .ok m') ↔
      ((more = [] ∧
            (∃ k, env.pda [ascii "sub-account", w.id, natLE 4 i, [b]] = some k ∧ (k = sub.key ∨ sub.signer = true)) ∧
            sub.writable = true ∧ wallet.writable = true ∧ (m sub.key).data = [] ∧ rd ix 8 8 ≤ (m sub.key).lamports) ∨
          ∃ src dst x more' m', more = src :: dst :: x :: more' ∧ 64 ≤ (m dst.key).data.length ∧ sl (m dst.key).data 32 64 = wallet.key ∧
            ((m src.key).owner = tokenId ∨ (m src.key).owner = token2022Id) ∧ (m dst.key).owner = (m src.key).owner ∧
            Carries env cpi (swig :: rest) [ascii "sub-account", w.id, natLE 4 i, [b]]
              (m.setData swig.key (w.used (rd ix 4 4)).encode)
              (moveTokens (m src.key).owner src.key dst.key sub.key (rd ix 8 8)) m') := by
    rintro x1 sub x3 wallet x5 more rfl hs i b
    have hsub := other_of_owner ho (k := sub.key) (by rw [hs]; decide) (w.used (rd ix 4 4)).encode
    cases more with
    | nil =>
      rw [if_neg (by simp), withdrawSol_iff, hsub]
      constructor
      · rintro ⟨h1, h3, h4, _, h5, h6⟩
        exact .inl ⟨rfl, h1, h3, h4, h5, h6⟩
      · rintro (⟨_, h1, h3, h4, h5, h6⟩ | ⟨_, _, _, _, _, h, _⟩)
        · exact ⟨h1, h3, h4, hs, h5, h6⟩
        · cases h
    | cons src more =>
      rw [if_pos (by simp)]
      constructor
      · rintro ⟨m', h⟩
        obtain ⟨s, d, x, g1, g2, g3, g4, g5, g6, g7, g8⟩ := withdrawTokenV1_iff.mp h
        match more, g1, g2, g3 with
        | dst :: x' :: more', g1, g2, g3 =>
          cases g1; cases g2; cases g3
          have e1 := nswig g6
          have e2 := nswig (k := d.key) (by rw [g7]; exact g6)
          rw [e2] at g4 g5 g7
          rw [e1] at g6 g7 g8
          exact .inr ⟨_, _, _, _, m', rfl, g4, g5, g6, g7, g8⟩
        | [_], _, _, g3 => simp at g3
        | [], _, g2, _ => simp at g2
      · rintro (⟨h, _⟩ | ⟨s, d, x, more', m', h, g4, g5, g6, g7, g8⟩)
        · cases h
        · cases h
          have f : ∀ {k : Key}, (m k).owner = tokenId ∨ (m k).owner = token2022Id →
              m.setData swig.key (w.used (rd ix 4 4)).encode k = m k := by
            intro k hk
            refine other_of_owner ho ?_ _
            rcases hk with hk | hk <;> (rw [hk]; decide)
          have e1 := f g6
          have e2 := f (k := d.key) (by rw [g7]; exact g6)
          exact ⟨m', withdrawTokenV1_iff.mpr ⟨_, _, _, rfl, rfl, rfl, by rw [e2]; exact g4, by rw [e2]; exact g5, by rw [e1]; exact g6,
            by rw [e1, e2]; exact g7, by rw [e1]; exact g8⟩⟩
  constructor
  · rintro ⟨m', h⟩
    match rest, hk, h, key with
    | x1 :: sub :: x3 :: wallet :: x5 :: more, hk, h, key =>
      obtain ⟨h1, h3, h4, h5, r, i, b, h6, h7, h8⟩ := (withdrawSubV1_front ho.wf ho.data ho.owner (hk sub (by simp))).mp ⟨m', h⟩
      exact ⟨_, _, _, _, _, _, rfl, h1, h3, h4, h5, r, i, b, h6, h7, (key _ _ _ _ _ _ rfl h3 i b).mp h8⟩
    | [_, _, _, _], _, h, _ => cases h
    | [_, _, _], _, h, _ => cases h
    | [_, _], _, h, _ => cases h
    | [_], _, h, _ => cases h
    | [], _, h, _ => cases h
  · rintro ⟨x1, sub, x3, wallet, x5, more, hrest, h1, h3, h4, h5, r, i, b, h6, h7, h8⟩
    have h8 := (key _ _ _ _ _ _ hrest h3 i b).mpr h8
    subst hrest
    exact (withdrawSubV1_front ho.wf ho.data ho.owner (hk sub (by simp))).mpr ⟨h1, h3, h4, h5, r, i, b, h6, h7, h8⟩

omit hl hp ho in
theorem scoped_iff {ty : Nat} (r : Role) {n : Nat} : r.Scoped ty true n ↔
    ∃ a ∈ r.actions, (a.ty = ty ∨ a.ty = P.subAccountV2All) ∧ rd a.data 0 4 = n := by
  unfold Role.Scoped
  simp [rd, sl]

omit hl hp ho in
theorem isV2_iff : isV2 w.header = true ↔ w.walletBump ≠ 0 ∧ w.pad = zeros 3 := by
  simp [isV2, Wallet.header]

omit hl hp ho in
theorem stateOk_iff {b : Bytes} {state asset id : Key} {n : Nat} : StateOk env b state asset id n ↔
    b.length = 72 ∧ b.getD 0 0 = 2 ∧ b.getD 3 0 = 1 ∧ rd b 4 4 = n ∧ sl b 8 40 = id ∧ sl b 40 72 = asset ∧
      env.pda [ascii "sub-account-v2-state", id, natLE 4 n, [b.getD 1 0]] = some state :=
  ⟨fun h => ⟨h.len, h.disc, h.enabled, h.subId, h.swig, h.sub, h.pda⟩, fun ⟨a, b, c, d, e, f, g⟩ => ⟨a, b, c, d, e, f, g⟩⟩

/-- Signing with a version 2 sub-account. -/
theorem C110_v2_sign (hi : rd ix 0 2 = 20) :
    Accepted env cpi m (swig :: rest) ix ↔ ∃ state sub sys more, rest = state :: sub :: sys :: more ∧
      16 + rd ix 2 2 ≤ ix.length ∧ env.stackHeight = 1 ∧ (m sub.key).owner = systemId ∧ w.walletBump ≠ 0 ∧ w.pad = zeros 3 ∧
      (∃ r, Speaks env m (swig :: rest) w (rd ix 4 4) (ix.drop (16 + rd ix 2 2)) (ix.take (16 + rd ix 2 2)) r ∧
        ∃ a ∈ r.actions, (a.ty = P.subAccountV2Sign ∨ a.ty = P.subAccountV2All) ∧ rd a.data 0 4 = rd ix 8 4) ∧
      (m state.key).owner = swigId ∧
      ∃ s ixs m1, (m state.key).data = s ∧ s.length = 72 ∧ s.getD 0 0 = 2 ∧ s.getD 3 0 = 1 ∧ rd s 4 4 = rd ix 8 4 ∧ sl s 8 40 = w.id ∧
        sl s 40 72 = sub.key ∧ env.pda [ascii "sub-account-v2-state", w.id, natLE 4 (rd ix 8 4), [s.getD 1 0]] = some state.key ∧
        decodeIxs (swig :: rest) sub.key [] (sl ix 16 (16 + rd ix 2 2)) = .ok ixs ∧
        execAll env cpi (swig :: rest) sub.key [ascii "sub-account-v2", w.id, natLE 4 (rd ix 8 4), [s.getD 2 0]]
          (m.setData swig.key (w.used (rd ix 4 4)).encode) ixs = .ok m1 ∧
        env.rent (m1 sub.key).data.length ≤ (m1 sub.key).lamports := by
  by_cases h2 : ix.length < 2
  · exact ⟨fun h => absurd h (accepted_short ho hp hl h2), fun ⟨_, _, _, _, _, h, _⟩ => absurd h (by omega)⟩
  obtain ⟨cls, e⟩ := accepted_dispatch (env := env) (cpi := cpi) (ix := ix) ho hp hl
  rw [e, dispatch, if_neg h2, hi]
  show (∃ m', subSignV2 env cpi m (swig :: rest) ix = .ok m') ↔ _
  constructor
  · rintro ⟨m', h⟩
    match rest, h with
    | state :: sub :: sys :: more, h =>
      obtain ⟨h1, h3, h4, h5, ⟨r, h6, h7⟩, h8, h9, ixs, m1, h10, h11, h12⟩ := (subSignV2_iff ho.wf ho.data ho.owner).mp ⟨m', h⟩
      obtain ⟨v1, v2⟩ := isV2_iff.mp h5
      obtain ⟨s1, s2, s3, s4, s5, s6, s7⟩ := stateOk_iff.mp h9
      exact ⟨_, _, _, _, rfl, h1, h3, h4, v1, v2, ⟨r, h6, (scoped_iff r).mp h7⟩, h8, _, ixs, m1, rfl, s1, s2, s3, s4, s5, s6, s7, h10, h11, h12⟩
    | [_, _], h => cases h
    | [_], h => cases h
    | [], h => cases h
  · rintro ⟨state, sub, sys, more, rfl, h1, h3, h4, v1, v2, ⟨r, h6, h7⟩, h8, s, ixs, m1, rfl, s1, s2, s3, s4, s5, s6, s7, h10, h11, h12⟩
    exact (subSignV2_iff ho.wf ho.data ho.owner).mpr ⟨h1, h3, h4, isV2_iff.mpr ⟨v1, v2⟩, ⟨r, h6, (scoped_iff r).mpr h7⟩, h8,
      stateOk_iff.mpr ⟨s1, s2, s3, s4, s5, s6, s7⟩, ixs, m1, h10, h11, h12⟩

/-- Withdrawing SOL (exactly seven accounts) or tokens (exactly ten) from a version 2 sub-account. -/
theorem C110_v2_withdraw (hi : rd ix 0 2 = 21) :
    Accepted env cpi m (swig :: rest) ix ↔ ∃ x1 state sub wallet x5 x6 more, rest = x1 :: state :: sub :: wallet :: x5 :: x6 :: more ∧
      24 ≤ ix.length ∧ (m sub.key).owner = systemId ∧ (m wallet.key).owner = systemId ∧ w.walletBump ≠ 0 ∧ w.pad = zeros 3 ∧
      (∃ r, Speaks env m (swig :: rest) w (rd ix 4 4) (ix.drop 24) (ix.take 24) r ∧
        ∃ a ∈ r.actions, (a.ty = P.subAccountV2Withdraw ∨ a.ty = P.subAccountV2All) ∧ rd a.data 0 4 = rd ix 8 4) ∧
      (m state.key).owner = swigId ∧ env.pda [ascii "swig-wallet-address", swig.key, [w.walletBump]] = some wallet.key ∧
      ∃ s, (m state.key).data = s ∧ s.length = 72 ∧ s.getD 0 0 = 2 ∧ s.getD 3 0 = 1 ∧ rd s 4 4 = rd ix 8 4 ∧ sl s 8 40 = w.id ∧
        sl s 40 72 = sub.key ∧ env.pda [ascii "sub-account-v2-state", w.id, natLE 4 (rd ix 8 4), [s.getD 1 0]] = some state.key ∧
        ((more = [] ∧
            (∃ k, env.pda [ascii "sub-account-v2", w.id, natLE 4 (rd ix 8 4), [s.getD 2 0]] = some k ∧ (k = sub.key ∨ sub.signer = true)) ∧
            sub.writable = true ∧ wallet.writable = true ∧ (m sub.key).data = [] ∧ rd ix 16 8 ≤ (m sub.key).lamports) ∨
          ∃ src dst program m', more = [src, dst, program] ∧ (program.key = tokenId ∨ program.key = token2022Id) ∧
            (m src.key).owner = program.key ∧ (m dst.key).owner = program.key ∧
            165 ≤ (m src.key).data.length ∧ 165 ≤ (m dst.key).data.length ∧
            (m src.key).data.getD 108 0 = 1 ∧ (m dst.key).data.getD 108 0 = 1 ∧
            sl (m src.key).data 0 32 = sl (m dst.key).data 0 32 ∧ sl (m src.key).data 32 64 = sub.key ∧
            sl (m dst.key).data 32 64 = wallet.key ∧
            Carries env cpi (swig :: rest) [ascii "sub-account-v2", w.id, natLE 4 (rd ix 8 4), [s.getD 2 0]]
              (m.setData swig.key (w.used (rd ix 4 4)).encode)
              (moveTokens program.key src.key dst.key sub.key (rd ix 16 8)) m') := by
  by_cases h2 : ix.length < 2
  · exact ⟨fun h => absurd h (accepted_short ho hp hl h2), fun ⟨_, _, _, _, _, _, _, _, h, _⟩ => absurd h (by omega)⟩
  obtain ⟨cls, e⟩ := accepted_dispatch (env := env) (cpi := cpi) (ix := ix) ho hp hl
  rw [e, dispatch, if_neg h2, hi]
  show (∃ m', withdrawSubV2 env cpi m (swig :: rest) ix = .ok m') ↔ _
  have owner : ∀ (k : Key) (d : Bytes), ((m.setData swig.key d) k).owner = (m k).owner := by
    intro k d
    unfold Mem.setData Mem.set
    split <;> simp_all
  have tok : ∀ {k p : Key} (d : Bytes), (m k).owner = p → p = tokenId ∨ p = token2022Id → m.setData swig.key d k = m k := by
    intro k p d h1 h
    refine other_of_owner ho ?_ d
    rw [h1]
    rcases h with h | h <;> (rw [h]; decide)
  have key : ∀ x1 state sub wallet x5 x6 more, rest = x1 :: state :: sub :: wallet :: x5 :: x6 :: more → (m sub.key).owner = systemId →
      ∀ (b : UInt8),
      (∃ m', withdrawV2 env cpi (m.setData swig.key (w.used (rd ix 4 4)).encode) (swig :: rest) sub wallet (rd ix 16 8)
        (subV2Seeds w.id (natLE 4 (rd ix 8 4)) ++ [[b]]) = .ok m') ↔
      ((more = [] ∧
            (∃ k, env.pda [ascii "sub-account-v2", w.id, natLE 4 (rd ix 8 4), [b]] = some k ∧ (k = sub.key ∨ sub.signer = true)) ∧
            sub.writable = true ∧ wallet.writable = true ∧ (m sub.key).data = [] ∧ rd ix 16 8 ≤ (m sub.key).lamports) ∨
          ∃ src dst program m', more = [src, dst, program] ∧ (program.key = tokenId ∨ program.key = token2022Id) ∧
            (m src.key).owner = program.key ∧ (m dst.key).owner = program.key ∧
            165 ≤ (m src.key).data.length ∧ 165 ≤ (m dst.key).data.length ∧
            (m src.key).data.getD 108 0 = 1 ∧ (m dst.key).data.getD 108 0 = 1 ∧
            sl (m src.key).data 0 32 = sl (m dst.key).data 0 32 ∧ sl (m src.key).data 32 64 = sub.key ∧
            sl (m dst.key).data 32 64 = wallet.key ∧
            Carries env cpi (swig :: rest) [ascii "sub-account-v2", w.id, natLE 4 (rd ix 8 4), [b]]
              (m.setData swig.key (w.used (rd ix 4 4)).encode)
              (moveTokens program.key src.key dst.key sub.key (rd ix 16 8)) m') := by
    rintro x1 state sub wallet x5 x6 more rfl hs b
    have hsub := other_of_owner ho (k := sub.key) (by rw [hs]; decide) (w.used (rd ix 4 4)).encode
    generalize hd : (w.used (rd ix 4 4)).encode = d at *
    unfold withdrawV2
    constructor
    · rintro ⟨m', h⟩
      split at h
      · rename_i h10
        match more, h10 with
        | [src, dst, program], _ =>
          replace h : (do
            checkWithdrawTokens (m.setData swig.key d) sub.key wallet.key src.key dst.key program.key
            tokenTransfer env cpi (m.setData swig.key d) (swig :: x1 :: state :: sub :: wallet :: x5 :: x6 :: [src, dst, program]) program.key
              src.key dst.key sub.key (rd ix 16 8) (subV2Seeds w.id (natLE 4 (rd ix 8 4)) ++ [[b]])) = .ok m' := h
          obtain ⟨_, g, h⟩ := bind_ok_iff.mp h
          obtain ⟨g1, g2, g3, g4⟩ := checkWithdrawTokens_iff.mp g
          rw [owner] at g2 g3
          rw [tok d g2 g1, tok d g3 g1] at g4
          obtain ⟨g4, g5, g6, g7, g8, g9, g10⟩ := g4
          exact .inr ⟨_, _, _, m', rfl, g1, g2, g3, g4, g5, g6, g7, g8, g9, g10, tokenTransfer_carries.mp h⟩
      · split at h
        · rename_i h7
          have hm : more = [] := List.eq_nil_of_length_eq_zero (by simp at h7; exact List.length_eq_zero_iff.mpr h7)
          obtain ⟨a1, a2, a3, a4, a5, a6⟩ := withdrawSol_iff.mp ⟨m', h⟩
          rw [hsub] at a5 a6
          exact .inl ⟨hm, a1, a2, a3, a5, a6⟩
        · cases h
    · rintro (⟨rfl, a1, a2, a3, a5, a6⟩ | ⟨src, dst, program, m', rfl, g1, g2, g3, g4, g5, g6, g7, g8, g9, g10, h⟩)
      · rw [if_neg (by simp), if_pos (by simp)]
        exact withdrawSol_iff.mpr ⟨a1, a2, a3, by rw [hsub]; exact hs, by rw [hsub]; exact a5, by rw [hsub]; exact a6⟩
      · refine ⟨m', ?_⟩
        rw [if_pos (by simp)]
        show (do
            checkWithdrawTokens (m.setData swig.key d) sub.key wallet.key src.key dst.key program.key
            tokenTransfer env cpi (m.setData swig.key d) (swig :: x1 :: state :: sub :: wallet :: x5 :: x6 :: [src, dst, program]) program.key
              src.key dst.key sub.key (rd ix 16 8) (subV2Seeds w.id (natLE 4 (rd ix 8 4)) ++ [[b]])) = .ok m'
        have hc : checkWithdrawTokens (m.setData swig.key d) sub.key wallet.key src.key dst.key program.key = .ok () := by
          refine checkWithdrawTokens_iff.mpr ⟨g1, by rw [owner]; exact g2, by rw [owner]; exact g3, ?_⟩
          rw [tok d g2 g1, tok d g3 g1]
          exact ⟨g4, g5, g6, g7, g8, g9, g10⟩
        rw [hc, ok_bind]
        exact tokenTransfer_carries.mpr h
  constructor
  · rintro ⟨m', h⟩
    match rest, h, key with
    | x1 :: state :: sub :: wallet :: x5 :: x6 :: more, h, key =>
      obtain ⟨h1, h3, h4, h5, ⟨r, h6, h7⟩, h8, h9, h10, h11⟩ := (withdrawSubV2_front ho.wf ho.data ho.owner).mp ⟨m', h⟩
      obtain ⟨v1, v2⟩ := isV2_iff.mp h5
      obtain ⟨s1, s2, s3, s4, s5, s6, s7⟩ := stateOk_iff.mp h9
      exact ⟨_, _, _, _, _, _, _, rfl, h1, h3, h4, v1, v2, ⟨r, h6, (scoped_iff r).mp h7⟩, h8, h10, _, rfl, s1, s2, s3, s4, s5, s6, s7,
        (key _ _ _ _ _ _ _ rfl h3 _).mp h11⟩
    | [_, _, _, _, _], h, _ => cases h
    | [_, _, _, _], h, _ => cases h
    | [_, _, _], h, _ => cases h
    | [_, _], h, _ => cases h
    | [_], h, _ => cases h
    | [], h, _ => cases h
  · rintro ⟨x1, state, sub, wallet, x5, x6, more, hrest, h1, h3, h4, v1, v2, ⟨r, h6, h7⟩, h8, h10, s, rfl, s1, s2, s3, s4, s5, s6, s7, h11⟩
    have h11 := (key _ _ _ _ _ _ _ hrest h3 _).mpr h11
    subst hrest
    exact (withdrawSubV2_front ho.wf ho.data ho.owner).mpr ⟨h1, h3, h4, isV2_iff.mpr ⟨v1, v2⟩, ⟨r, h6, (scoped_iff r).mpr h7⟩, h8,
      stateOk_iff.mpr ⟨s1, s2, s3, s4, s5, s6, s7⟩, h10, h11⟩

/-- Closing token accounts: those from the stated position on. -/
theorem C110_close_tokens (hi : rd ix 0 2 = 14) (hne : ∀ wallet more, rest = wallet :: more → swig.key ≠ wallet.key) :
    Accepted env cpi m (swig :: rest) ix ↔ ∃ wallet dst prog more, rest = wallet :: dst :: prog :: more ∧
      8 ≤ ix.length ∧
      (∃ r, Speaks env m (swig :: rest) w (rd ix 4 4) (ix.drop 8) (ix.take 8) r ∧
        (r.holds P.all ∨ r.holds P.manageAuthority ∨ r.holds P.closeSwigAuthority)) ∧
      (w.claimer = none ∨ w.claimer = some dst.key) ∧ (prog.key = tokenId ∨ prog.key = token2022Id) ∧
      rd ix 2 2 < (swig :: rest).length ∧
      ∃ b m', Canonical env [ascii "swig-wallet-address", swig.key] b wallet.key ∧
        ClosesAll env cpi (swig :: rest) prog.key swig.key wallet.key dst.key [ascii "swig-wallet-address", swig.key, [b]]
          [ascii "swig", w.id, [w.bump]] (m.setData swig.key (w.used (rd ix 4 4)).encode) ((swig :: rest).drop (rd ix 2 2)) m' := by
  by_cases h2 : ix.length < 2
  · exact ⟨fun h => absurd h (accepted_short ho hp hl h2), fun ⟨_, _, _, _, _, h, _⟩ => absurd h (by omega)⟩
  obtain ⟨cls, e⟩ := accepted_dispatch (env := env) (cpi := cpi) (ix := ix) ho hp hl
  rw [e, dispatch, if_neg h2, hi]
  show (∃ m', closeTokenV1 env cpi m (swig :: rest) ix = .ok m') ↔ _
  constructor
  · rintro ⟨m', h⟩
    match rest, hne, h with
    | wallet :: dst :: prog :: more, hne, h =>
      obtain ⟨h1, h3, h4, h5, h6, b, h7, m1, h8⟩ := (closeTokenV1_iff ho.wf ho.data ho.owner).mp ⟨m', h⟩
      exact ⟨_, _, _, _, rfl, h1, h3, h4, h5, h6, b, m1, h7, (closeTokensGo_iff (hne _ _ rfl) _ _).mp h8⟩
    | [_, _], _, h => cases h
    | [_], _, h => cases h
    | [], _, h => cases h
  · rintro ⟨wallet, dst, prog, more, rfl, h1, h3, h4, h5, h6, b, m1, h7, h8⟩
    exact (closeTokenV1_iff ho.wf ho.data ho.owner).mpr ⟨h1, h3, h4, h5, h6, b, h7, m1, (closeTokensGo_iff (hne _ _ rfl) _ _).mpr h8⟩

/-- Moving the configuration account's assets to the wallet address.  `transferSol` moves what the account holds above its rent minimum
(C45); it cannot fail. -/
theorem C110_transfer (hi : rd ix 0 2 = 13) :
    Accepted env cpi m (swig :: rest) ix ↔ ∃ wallet x2 x3 more, rest = wallet :: x2 :: x3 :: more ∧
      8 ≤ ix.length ∧
      (∃ r, Speaks env m (swig :: rest) w (rd ix 4 4) (ix.drop 8) (ix.take 8) r ∧ (r.holds P.all ∨ r.holds P.manageAuthority)) ∧
      w.walletBump ≠ 0 ∧ env.pda [ascii "swig-wallet-address", swig.key, [w.walletBump]] = some wallet.key ∧
      ∃ m', MovesAll env cpi (swig :: rest) swig.key wallet.key [ascii "swig", w.id, [w.bump]]
        (transferSol env (m.setData swig.key (w.used (rd ix 4 4)).encode) swig.key wallet.key) more m' := by
  by_cases h2 : ix.length < 2
  · exact ⟨fun h => absurd h (accepted_short ho hp hl h2), fun ⟨_, _, _, _, _, h, _⟩ => absurd h (by omega)⟩
  obtain ⟨cls, e⟩ := accepted_dispatch (env := env) (cpi := cpi) (ix := ix) ho hp hl
  rw [e, dispatch, if_neg h2, hi]
  show (∃ m', transferAssetsV1 env cpi m (swig :: rest) ix = .ok m') ↔ _
  constructor
  · rintro ⟨m', h⟩
    match rest, h with
    | wallet :: x2 :: x3 :: more, h =>
      obtain ⟨h1, h3, h4, h5, m1, h6⟩ := (transferAssetsV1_iff ho.wf ho.data ho.owner).mp ⟨m', h⟩
      exact ⟨_, _, _, _, rfl, h1, h3, h4, h5, m1, (transferTokensGo_iff _ _ _ (Nat.le_refl _)).mp h6⟩
    | [_, _], h => cases h
    | [_], h => cases h
    | [], h => cases h
  · rintro ⟨wallet, x2, x3, more, rfl, h1, h3, h4, h5, m1, h6⟩
    exact (transferAssetsV1_iff ho.wf ho.data ho.owner).mpr ⟨h1, h3, h4, h5, m1, (transferTokensGo_iff _ _ _ (Nat.le_refl _)).mpr h6⟩

/-- Creating a version 2 sub-account, by a payer that is none of the three accounts that are paid to.  If the role has no grant for all
operations of the new number yet, one of 16 bytes is appended to it, and the account has to grow and be paid for. -/
theorem C110_v2_create (hi : rd ix 0 2 = 18) (hd : ∀ payer state sub more, rest = payer :: state :: sub :: more →
      payer.key ≠ swig.key ∧ payer.key ≠ state.key ∧ payer.key ≠ sub.key ∧ state.key ≠ sub.key) :
    Accepted env cpi m (swig :: rest) ix ↔ ∃ payer state sub sys more, rest = payer :: state :: sub :: sys :: more ∧
      16 ≤ ix.length ∧ sys.key = systemId ∧ (m state.key).owner = systemId ∧ (m state.key).data = [] ∧ state.writable = true ∧
      (m sub.key).owner = systemId ∧ w.walletBump ≠ 0 ∧ w.pad = zeros 3 ∧ w.subCounter + 1 < 2 ^ 32 ∧
      env.pda [ascii "sub-account-v2-state", w.id, natLE 4 w.subCounter, [ix.getD 8 0]] = some state.key ∧
      env.pda [ascii "sub-account-v2", w.id, natLE 4 w.subCounter, [ix.getD 9 0]] = some sub.key ∧
      ∃ r, Speaks env m (swig :: rest) w (rd ix 4 4) (ix.drop 16) (ix.take 16) r ∧ r.holds P.subAccountV2Create ∧
        (((∃ a ∈ r.actions, a.ty = P.subAccountV2All ∧ rd a.data 0 4 = w.subCounter) ∧ ToppedAll env m payer [(state, 72), (sub, 0)]) ∨
          ((∀ a ∈ r.actions, a.ty = P.subAccountV2All → rd a.data 0 4 ≠ w.subCounter) ∧ (∀ x ∈ r.actions, x.Fresh) ∧
            r.actions.length < 255 ∧ MayGrow w.encode.length 16 ∧
            ToppedAll env m payer [(state, 72), (sub, 0), (swig, w.encode.length + 16)])) := by
  by_cases h2 : ix.length < 2
  · exact ⟨fun h => absurd h (accepted_short ho hp hl h2), fun ⟨_, _, _, _, _, _, h, _⟩ => absurd h (by omega)⟩
  obtain ⟨cls, e⟩ := accepted_dispatch (env := env) (cpi := cpi) (ix := ix) ho hp hl
  rw [e, dispatch, if_neg h2, hi]
  show (∃ m', createSubV2 env m (swig :: rest) ix = .ok m') ↔ _
  have hsc : ∀ r : Role, r.Scoped P.subAccountV2All false w.subCounter ↔ ∃ a ∈ r.actions, a.ty = P.subAccountV2All ∧ rd a.data 0 4 = w.subCounter := by
    intro r
    unfold Role.Scoped
    simp [rd, sl]
  have hif : ∀ (r : Role) (A B : Prop), (if r.Scoped P.subAccountV2All false w.subCounter then A else B) ↔
      ((∃ a ∈ r.actions, a.ty = P.subAccountV2All ∧ rd a.data 0 4 = w.subCounter) ∧ A) ∨
        ((∀ a ∈ r.actions, a.ty = P.subAccountV2All → rd a.data 0 4 ≠ w.subCounter) ∧ B) := by
    intro r A B
    split
    · rename_i h
      have h := (hsc r).mp h
      refine ⟨fun a => .inl ⟨h, a⟩, ?_⟩
      rintro (h' | h')
      · exact h'.2
      · obtain ⟨a, h1, h3, h4⟩ := h
        exact absurd h4 (h'.1 a h1 h3)
    · rename_i h
      have h := fun h' => h ((hsc r).mpr h')
      refine ⟨fun a => .inr ⟨fun a h1 h3 h4 => h ⟨a, h1, h3, h4⟩, a⟩, ?_⟩
      rintro (h' | h')
      · exact absurd h'.1 h
      · exact h'.2
  constructor
  · rintro ⟨m', h⟩
    match rest, hd, h with
    | payer :: state :: sub :: sys :: more, hd, h =>
      obtain ⟨d1, d2, d3, d4⟩ := hd _ _ _ _ rfl
      obtain ⟨h1, h3, h4, h5, h6, h7, h8, h9, h10, h11, r, h12, h13, h14⟩ := (createSubV2_iff ho.wf ho.data ho.owner d1 d2 d3 d4).mp ⟨m', h⟩
      obtain ⟨v1, v2⟩ := isV2_iff.mp h8
      exact ⟨_, _, _, _, _, rfl, h1, h3, h4, h5, h6, h7, v1, v2, h9, h10, h11, r, h12, h13, (hif r _ _).mp h14⟩
    | [_, _, _], _, h => cases h
    | [_, _], _, h => cases h
    | [_], _, h => cases h
    | [], _, h => cases h
  · rintro ⟨payer, state, sub, sys, more, rfl, h1, h3, h4, h5, h6, h7, v1, v2, h9, h10, h11, r, h12, h13, h14⟩
    obtain ⟨d1, d2, d3, d4⟩ := hd _ _ _ _ rfl
    exact (createSubV2_iff ho.wf ho.data ho.owner d1 d2 d3 d4).mpr
      ⟨h1, h3, h4, h5, h6, h7, isV2_iff.mpr ⟨v1, v2⟩, h9, h10, h11, r, h12, h13, (hif r _ _).mpr h14⟩

end

/-- Creating a wallet.  No account sent belongs to the program or the stake program; the permissions `as` of the first role are written one
after the other behind the credential. -/
theorem C110_create {env : Env} {cpi : Cpi} {m : Mem} {swig : Meta} {rest : List Meta} {ix : Bytes} {as : List Act}
    (ho : ∀ a ∈ swig :: rest, (m a.key).owner ≠ swigId ∧ (m a.key).owner ≠ stakeId) (hl : (swig :: rest).length ≤ 254)
    (hi : rd ix 0 2 = 0) (hwf : ∀ x ∈ as, x.WF) (hact : ix.drop (40 + rd ix 4 2) = encActs 0 as)
    (hd : ∀ payer wallet more, rest = payer :: wallet :: more → payer.key ≠ wallet.key ∧ swig.key ≠ wallet.key) :
    Accepted env cpi m (swig :: rest) ix ↔ ∃ payer wallet sys more, rest = payer :: wallet :: sys :: more ∧
      40 + rd ix 4 2 ≤ ix.length ∧ (m swig.key).owner = systemId ∧ (m swig.key).data = [] ∧ (m swig.key).lamports = 0 ∧
      (m wallet.key).owner = systemId ∧ (m wallet.key).data = [] ∧
      env.pda [ascii "swig", sl ix 8 40, [ix.getD 6 0]] = some swig.key ∧
      env.pda [ascii "swig-wallet-address", swig.key, [ix.getD 7 0]] = some wallet.key ∧
      (∃ x ∈ as, x.ty = P.all ∨ x.ty = P.manageAuthority) ∧ (∀ x ∈ as, x.Fresh) ∧ as.length ≤ 255 ∧ NoV2Dup as ∧
      ∃ a, initialAuth (rd ix 2 2) (sl ix 40 (40 + rd ix 4 2)) = some a ∧ 64 + a.encode.length + actsSize as ≤ 10240 ∧
        payer.key ≠ swig.key ∧ MayPay m payer swig ∧ ToppedAll env m payer [(swig, 64 + a.encode.length + actsSize as), (wallet, 0)] := by
  obtain ⟨cls, e⟩ := process_bare (env := env) (cpi := cpi) (ix := ix) ho hl
  unfold Accepted
  rw [e]
  by_cases h2 : ix.length < 2
  · constructor
    · rintro ⟨m', h⟩
      unfold dispatch at h
      rw [if_pos h2] at h
      cases h
    · rintro ⟨_, _, _, _, _, h, _⟩
      omega
  rw [dispatch, if_neg h2, hi]
  show (∃ m', createV1 env m (swig :: rest) ix = .ok m') ↔ _
  constructor
  · rintro ⟨m', h⟩
    match rest, hd, h with
    | payer :: wallet :: sys :: more, hd, h =>
      obtain ⟨d1, d2⟩ := hd _ _ _ rfl
      exact ⟨_, _, _, _, rfl, (createV1_iff hwf hact d1 d2).mp ⟨m', h⟩⟩
    | [_, _], _, h => cases h
    | [_], _, h => cases h
    | [], _, h => cases h
  · rintro ⟨payer, wallet, sys, more, rfl, h⟩
    obtain ⟨d1, d2⟩ := hd _ _ _ rfl
    exact (createV1_iff hwf hact d1 d2).mpr h

/-! ## Worked cases: for every kind of request one that is carried out and one that misses a single condition -/
section
open Sample

/-- Addresses: sub-account 0 (version 2) at `K 5` with its record at `K 4`, the next one at `K 9` and `K 8`; the version 1 sub-account of
role 1 at `K 3`, those of the other roles at `K 13`. -/
def famEnv : Env :=
  { env with pda := fun seeds =>
      let zero := decide (seeds[2]? = some (natLE 4 0))
      if seeds.head? = some (ascii "sub-account-v2-state") then some (if zero then K 4 else K 8)
      else if seeds.head? = some (ascii "sub-account-v2") then some (if zero then K 5 else K 9)
      else if seeds.head? = some (ascii "sub-account") then some (if seeds[2]? = some (natLE 4 1) then K 3 else K 13)
      else env.pda seeds }

/-- The owner may create sub-accounts and has all rights on number 0; role 1 has a version 1 sub-account; role 2 may create one. -/
def famWallet : Wallet := ⟨255, K 70, 3, 254, zeros 3, 1,
  [⟨1, 0, K 10, [⟨7, []⟩, ⟨22, []⟩, ⟨23, natLE 4 0 ++ zeros 4⟩]⟩,
    ⟨1, 1, K 11, [⟨9, K 3 ++ [255, 1] ++ zeros 2 ++ natLE 4 1 ++ K 70⟩]⟩, ⟨1, 2, K 10, [⟨9, zeros 72⟩]⟩], none⟩

theorem famWallet_wf : famWallet.WF where
  idLen := by decide
  padLen := by decide
  counter := by decide
  subCounter := by decide
  count := by decide
  roles := by
    intro r hr
    simp only [famWallet, List.mem_cons, List.not_mem_nil, or_false] at hr
    rcases hr with rfl | rfl | rfl
    · exact ⟨by decide, by decide, by decide, by decide, by decide⟩
    · exact ⟨by decide, by decide, by decide, by decide, by decide⟩
    · exact ⟨by decide, by decide, by decide, by decide, by decide⟩
  idsNodup := by decide
  idsLt := by decide
  claimer := by simp [famWallet]
  size := by decide

/-- The ledger, with token accounts of the wallet address (`K 30`, empty), the configuration account (`K 31`), the sub-account `K 5` (`K 32`)
and the sub-account `K 3` (`K 33`). -/
def famMem : Mem :=
  let tok (auth : Key) (n : Nat) : Acct := ⟨tokenId, 2039280, K 50 ++ auth ++ natLE 8 n ++ zeros 36 ++ [1] ++ zeros 56⟩
  (((((((mem famWallet).set (K 4) ⟨swigId, 2000000, [2, 255, 255, 1] ++ natLE 4 0 ++ K 70 ++ K 5⟩).setLamports (K 5) 2000000000).setLamports
    (K 3) 2000000000).set (K 30) (tok (K 2) 0)).set (K 31) (tok (K 1) 7)).set (K 32) (tok (K 5) 2000)).set (K 33) (tok (K 3) 2000)

theorem fam_open : Open famMem (K 1) famWallet := ⟨rfl, famWallet_wf, rfl⟩

def famCreateV1 : List Meta := [⟨K 1, false, true⟩, ⟨K 10, true, true⟩, ⟨K 13, false, true⟩, ⟨systemId, false, false⟩]

def famToggleV1 : List Meta := [⟨K 1, false, true⟩, ⟨K 11, true, true⟩, ⟨K 3, false, true⟩]

def famCreateV2 : List Meta :=
  [⟨K 1, false, true⟩, ⟨K 10, true, true⟩, ⟨K 8, false, true⟩, ⟨K 9, false, true⟩, ⟨systemId, false, false⟩]

def famTokensV1 : List Meta := v1WithdrawMetas ++ [⟨K 33, false, true⟩, ⟨K 30, false, true⟩, ⟨tokenId, false, false⟩]

def famTokensV2 : List Meta := withdrawSubMetas ++ [⟨K 32, false, true⟩, ⟨K 30, false, true⟩, ⟨tokenId, false, false⟩]

/-- Role 2 creates its version 1 sub-account. -/
def createSubV1Ix : Bytes := natLE 2 6 ++ zeros 2 ++ natLE 4 2 ++ [255] ++ zeros 7 ++ [1]

/-- The common hypotheses, for all the lists of accounts used below. -/
example : Open famMem (K 1) famWallet ∧ ∀ l ∈ [famCreateV1, famToggleV1, v1SignMetas, v1WithdrawMetas, famTokensV1, famCreateV2,
      subSignMetas (K 4), withdrawSubMetas, famTokensV2, closeTokenMetas, transferMetas], l.length ≤ 254 ∧ Plain famMem famWallet l ∧
        (∀ x ∈ l, x.key.length = 32) ∧ ((l[1]?).map (·.key)) ≠ some (K 1) := by
  refine ⟨fam_open, ?_⟩
  unfold Plain
  decide +kernel

/-- ... and of `C110_create`. -/
example : (∀ a ∈ createMetas, (mem0 a.key).owner ≠ swigId ∧ (mem0 a.key).owner ≠ stakeId) ∧ rd createIx 0 2 = 0 ∧
    (⟨7, []⟩ : Act).WF ∧ createIx.drop (40 + rd createIx 4 2) = encActs 0 [⟨7, []⟩] :=
  ⟨by decide +kernel, by decide +kernel, by decide, by decide +kernel⟩

/-- Carried out ... -/
example : Accepted famEnv demoCpi mem0 createMetas createIx ∧ Accepted famEnv demoCpi famMem famCreateV1 createSubV1Ix ∧
    Accepted famEnv demoCpi famMem famToggleV1 v1ToggleIx ∧ Accepted famEnv demoCpi famMem v1SignMetas v1SignIx ∧
    Accepted famEnv demoCpi famMem v1WithdrawMetas v1WithdrawIx ∧ Accepted famEnv demoCpi famMem famTokensV1 v1WithdrawIx ∧
    Accepted famEnv demoCpi famMem famCreateV2 (createSubIx 255) ∧ Accepted famEnv demoCpi famMem (subSignMetas (K 4)) subSignIx ∧
    Accepted famEnv demoCpi famMem withdrawSubMetas withdrawSubIx ∧ Accepted famEnv demoCpi famMem famTokensV2 withdrawSubIx ∧
    Accepted famEnv demoCpi famMem closeTokenMetas closeTokenIx ∧ Accepted famEnv demoCpi famMem transferMetas transferIx := by
  have acc : ∀ {env cpi m metas ix}, ok (process env cpi m metas ix) = true → Accepted env cpi m metas ix := exists_of_ok
  refine ⟨acc ?_, acc ?_, acc ?_, acc ?_, acc ?_, acc ?_, acc ?_, acc ?_, acc ?_, acc ?_, acc ?_, acc ?_⟩ <;> decide +kernel

/-- ... and refused: an address in use; a role without the permission; the state 2; a disabled grant; too little SOL; a token account of
somebody else; a sub-account that exists; another number; too little SOL; a token account of another owner; tokens in the account; no wallet
bump. -/
example : ¬ Accepted famEnv demoCpi (mem0.setLamports (K 1) 1) createMetas createIx ∧
    ¬ Accepted famEnv demoCpi famMem famCreateV1 (natLE 2 6 ++ zeros 2 ++ natLE 4 0 ++ [255] ++ zeros 7 ++ [1]) ∧
    ¬ Accepted famEnv demoCpi famMem famToggleV1 (natLE 2 10 ++ [2, 0] ++ zeros 4 ++ natLE 4 1 ++ natLE 4 1 ++ [1]) ∧
    ¬ Accepted famEnv sysCpi (v1Mem 0) v1SignMetas v1SignIx ∧
    ¬ Accepted famEnv demoCpi (famMem.setLamports (K 3) 999) v1WithdrawMetas v1WithdrawIx ∧
    ¬ Accepted famEnv demoCpi famMem (v1WithdrawMetas ++ [⟨K 33, false, true⟩, ⟨K 31, false, true⟩, ⟨tokenId, false, false⟩]) v1WithdrawIx ∧
    ¬ Accepted famEnv demoCpi famMem (createSubMetas (K 4)) (createSubIx 255) ∧
    ¬ Accepted famEnv demoCpi famMem (subSignMetas (K 4)) (natLE 2 20 ++ natLE 2 0 ++ natLE 4 0 ++ natLE 4 1 ++ zeros 4 ++ [4]) ∧
    ¬ Accepted famEnv demoCpi (famMem.setLamports (K 5) 999) withdrawSubMetas withdrawSubIx ∧
    ¬ Accepted famEnv demoCpi famMem (withdrawSubMetas ++ [⟨K 33, false, true⟩, ⟨K 30, false, true⟩, ⟨tokenId, false, false⟩]) withdrawSubIx ∧
    ¬ Accepted famEnv demoCpi famMem (closeTokenMetas.set 5 ⟨K 31, false, true⟩) closeTokenIx ∧
    ¬ Accepted famEnv demoCpi (mem { famWallet with walletBump := 0 }) transferMetas transferIx := by
  have rej : ∀ {env cpi m metas ix}, ok (process env cpi m metas ix) = false → ¬ Accepted env cpi m metas ix := by
    rintro env cpi m metas ix h ⟨m', e⟩
    rw [e] at h
    cases h
  refine ⟨rej ?_, rej ?_, rej ?_, rej ?_, rej ?_, rej ?_, rej ?_, rej ?_, rej ?_, rej ?_, rej ?_, rej ?_⟩ <;> decide +kernel

end

end Verif
