import Verif.Spec.OneRequest
import Verif.Proofs.Lifetime

/-! # Lemmas for property C119 -/

namespace Verif

/-- The first inner instruction calls the account its second byte names. -/
theorem decodeIxs_first {metas : List Meta} {signer : Key} {restricted : List Key} {b : Bytes} {ixs : List Inner}
    (h : decodeIxs metas signer restricted b = .ok ixs) (h0 : b.getD 0 0 ≠ 0) :
    ∃ i more a, ixs = i :: more ∧ metas[(b.getD 1 0).toNat]? = some a ∧ i.program = a.key ∧
      (i.usesSigner = true → ∃ x ∈ i.accounts, x.signer = true ∧ x.key = signer) := by
  unfold decodeIxs at h
  split at h
  · cases h
  · have hp : 0 < (b.getD 0 0).toNat := by
      rcases Nat.eq_zero_or_pos (b.getD 0 0).toNat with g | g
      · exact (h0 (UInt8.toNat_inj.mp g)).elim
      · exact g
    obtain ⟨n, hn⟩ := Nat.exists_eq_succ_of_ne_zero (Nat.pos_iff_ne_zero.mp hp)
    rw [hn] at h
    simp only [decodeGo] at h
    obtain ⟨⟨i, c⟩, h1, h⟩ := bind_ok_iff.mp h
    obtain ⟨more, _, h⟩ := bind_ok_iff.mp h
    cases h
    unfold parseNext at h1
    obtain ⟨⟨p, c1⟩, g1, h1⟩ := bind_ok_iff.mp h1
    obtain ⟨a, g2, h1⟩ := bind_ok_iff.mp h1
    obtain ⟨⟨_, _⟩, _, h1⟩ := bind_ok_iff.mp h1
    obtain ⟨⟨_, as, _⟩, _, h1⟩ := bind_ok_iff.mp h1
    obtain ⟨⟨_, _⟩, _, h1⟩ := bind_ok_iff.mp h1
    obtain ⟨⟨_, _⟩, _, h1⟩ := bind_ok_iff.mp h1
    cases h1
    refine ⟨_, _, a, rfl, ?_, rfl, ?_⟩
    · unfold readU8 at g1
      split at g1
      · cases g1
      · cases g1
        unfold getOr at g2
        split at g2
        · cases g2; assumption
        · cases g2
    · intro hu
      obtain ⟨x, hx, hy⟩ := List.any_eq_true.mp hu
      simp at hy
      exact ⟨x, hx, hy.1, hy.2⟩

theorem execInner_calls {env : Env} {cpi : Cpi} {m m' : Mem} {metas : List Meta} {signer : Key} {seeds : List Bytes} {i : Inner}
    (hown : (m signer).owner = systemId) (h : execInner env cpi m metas signer seeds i = .ok m') :
    cpi m i.cpi = .ok m' ∧ ∃ k, env.pda seeds = some k ∧
      ∀ a ∈ i.accounts, a.signer = true → a.key = k ∨ ∃ o ∈ metas, o.key = a.key ∧ o.signer = true := by
  have key : invokeSigned env cpi m metas i.cpi seeds = .ok m' := by
    unfold execInner at h
    split at h
    · split at h
      · cases h
      · split at h
        · rename_i hc
          rw [hc.1] at hc
          exact (hc.2 hown).elim
        · exact h
    · exact h
  unfold invokeSigned at key
  split at key
  · cases key
  · rename_i k hk
    split at key
    · rename_i ha
      exact ⟨key, k, hk, fun a h => (ha a h).1⟩
    · cases key

/-- What a request that signs inner instructions has executed. -/
theorem signs_first {env : Env} {cpi : Cpi} {m m' : Mem} {swig : Meta} {rest : List Meta} {ix : Bytes} (hn : SignsCalls ix)
    (e : process env cpi m (swig :: rest) ix = .ok m') : ∃ second more ixs seeds, rest = second :: more ∧
      decodeIxs (swig :: rest) second.key [] (signedPart ix) = .ok ixs ∧
      (rd ix 0 2 = 11 → ∃ b, seeds = walletSeeds swig.key ++ [[b]]) ∧
      (rd ix 0 2 = 9 → ∃ id role b, seeds = subSeeds id role ++ [[b]]) ∧
      ∀ i tail, ixs = i :: tail → ∃ m0 m1, (m0 second.key).owner = systemId ∧
        execInner env cpi m0 (swig :: rest) second.key seeds i = .ok m1 := by
  unfold process at e
  obtain ⟨_, _, e⟩ := bind_ok_iff.mp e
  obtain ⟨cls, hcls, e⟩ := bind_ok_iff.mp e
  unfold dispatch at e
  split at e
  · cases e
  rcases hn with hn | hn
  · rw [hn] at e
    have e : subSignV1 env cpi m (swig :: rest) ix = .ok m' := e
    match rest, e with
    | sub :: sys :: rest, e =>
      simp only [subSignV1] at e
      obtain ⟨_, _, e⟩ := bind_ok_iff.mp e
      obtain ⟨_, _, e⟩ := bind_ok_iff.mp e
      obtain ⟨_, hs, e⟩ := bind_ok_iff.mp e
      have hs := require_ok_iff.mp hs
      obtain ⟨a, ha, e⟩ := bind_ok_iff.mp e
      obtain ⟨_, _, e⟩ := bind_ok_iff.mp e
      obtain ⟨⟨_, _⟩, _, e⟩ := bind_ok_iff.mp e
      obtain ⟨_, _, e⟩ := bind_ok_iff.mp e
      obtain ⟨d, _, e⟩ := bind_ok_iff.mp e
      obtain ⟨_, _, e⟩ := bind_ok_iff.mp e
      obtain ⟨ixs, hd, e⟩ := bind_ok_iff.mp e
      obtain ⟨m1, h1, e⟩ := bind_ok_iff.mp e
      refine ⟨sub, _, ixs, subSeeds (SubAct.decode d).swigId (natLE 4 (SubAct.decode d).roleId) ++ [[(SubAct.decode d).bump]], rfl, ?_,
        fun h => by omega, fun _ => ⟨_, _, _, rfl⟩, ?_⟩
      · rw [(parseSubSign_payload ha).1] at hd
        rw [signedPart, if_pos hn]
        exact hd
      · rintro i tail rfl
        simp only [execAll] at h1
        obtain ⟨m2, h2, _⟩ := bind_ok_iff.mp h1
        exact ⟨_, m2, by simpa using hs, h2⟩
    | [_], e => cases e
    | [], e => cases e
  · rw [hn] at e
    have e : signV2 env cpi m (swig :: rest) cls ix = .ok m' := e
    match rest, e, hcls with
    | wallet :: x3 :: rest, e, hcls =>
      simp only [signV2] at e
      obtain ⟨_, _, e⟩ := bind_ok_iff.mp e
      obtain ⟨_, _, e⟩ := bind_ok_iff.mp e
      obtain ⟨_, h0, e⟩ := bind_ok_iff.mp e
      have hs : (m wallet.key).owner = systemId := by
        have h0 := require_ok_iff.mp h0
        obtain ⟨c, cs, rfl, _, h3, h4⟩ := classifyAll_rest hcls
        cases cs with
        | nil => simp at h3
        | cons c1 cs =>
          simp at h0
          subst h0
          have h5 := (h4 (wallet, .wallet) (by simp)).1
          cases h5; assumption
      obtain ⟨a, ha, e⟩ := bind_ok_iff.mp e
      obtain ⟨_, _, e⟩ := bind_ok_iff.mp e
      obtain ⟨⟨p, _⟩, _, e⟩ := bind_ok_iff.mp e
      obtain ⟨ixs, hd, e⟩ := bind_ok_iff.mp e
      refine ⟨wallet, _, ixs, walletSeeds swig.key ++ [[p.header.walletBump]], rfl, ?_, fun _ => ⟨_, rfl⟩, fun h => by omega, ?_⟩
      · rw [(parseSign_ok ha).2.1] at hd
        rw [signedPart, if_neg (by omega), if_pos hn]
        exact hd
      · rintro i tail rfl
        unfold signWith at e
        obtain ⟨_, _, e⟩ := bind_ok_iff.mp e
        split at e
        · simp only [execAll] at e
          obtain ⟨m2, h2, _⟩ := bind_ok_iff.mp e
          exact ⟨_, m2, by simpa using hs, h2⟩
        · obtain ⟨_, _, e⟩ := bind_ok_iff.mp e
          obtain ⟨_, _, e⟩ := bind_ok_iff.mp e
          unfold signLimited at e
          obtain ⟨_, _, e⟩ := bind_ok_iff.mp e
          obtain ⟨⟨_, _, _⟩, h1, e⟩ := bind_ok_iff.mp e
          simp only [runIxs] at h1
          obtain ⟨_, _, h1⟩ := bind_ok_iff.mp h1
          obtain ⟨_, _, h1⟩ := bind_ok_iff.mp h1
          obtain ⟨m2, h2, _⟩ := bind_ok_iff.mp h1
          exact ⟨_, m2, by simpa using hs, h2⟩
    | [_], e, _ => cases e
    | [], e, _ => cases e

theorem rd_of_take {b c : Bytes} {n i k : Nat} (h : b.take n = c) (hn : i + k ≤ n) : rd b i k = rd c i k := by
  subst h
  unfold rd sl
  rw [List.drop_take, List.take_take, Nat.min_eq_left (by omega)]

/-- The credential begins after the fields that name the request and the acting role. -/
theorem credentialAt_ge (ix : Bytes) : 8 ≤ credentialAt ix := by
  unfold credentialAt
  split <;> omega

/-- Requests that do not sign calls and agree before their credentials agree in number, acting role and place of the credential. -/
theorem named_before {ix ix' : Bytes} (h : ix.take (credentialAt ix) = ix'.take (credentialAt ix')) :
    rd ix 0 2 = rd ix' 0 2 ∧ actingRole ix = actingRole ix' ∧ credentialAt ix = credentialAt ix' := by
  have g1 := credentialAt_ge ix
  have g2 := credentialAt_ge ix'
  have key : ∀ i k, i + k ≤ credentialAt ix → i + k ≤ credentialAt ix' → rd ix i k = rd ix' i k := by
    intro i k h1 h2
    rw [rd_of_take h h1]
    exact (rd_of_take rfl h2).symm
  have hn := key 0 2 (by omega) (by omega)
  have h2 := key 2 2 (by omega) (by omega)
  have h4 := key 4 2 (by omega) (by omega)
  have h44 := key 4 4 (by omega) (by omega)
  refine ⟨hn, ?_, ?_⟩
  · unfold actingRole
    rw [← hn, ← h44]
    split
    · rename_i hx
      have e1 : 16 ≤ credentialAt ix := by unfold credentialAt; rcases hx with hx | hx <;> rw [hx] <;> simp <;> omega
      have e2 : 16 ≤ credentialAt ix' := by unfold credentialAt; rcases hx with hx | hx <;> rw [← hn, hx] <;> simp <;> omega
      exact key 12 4 (by omega) (by omega)
    · split
      · rename_i hx
        have e1 : 16 ≤ credentialAt ix := by unfold credentialAt; rcases hx with hx | hx <;> rw [hx] <;> simp
        have e2 : 16 ≤ credentialAt ix' := by unfold credentialAt; rcases hx with hx | hx <;> rw [← hn, hx] <;> simp
        exact key 8 4 (by omega) (by omega)
      · rfl
  · by_cases h16 : rd ix 0 2 = 16
    · have e1 : 16 ≤ credentialAt ix := by unfold credentialAt; rw [h16]; simp
      have e2 : 16 ≤ credentialAt ix' := by unfold credentialAt; rw [← hn, h16]; simp
      have h12 := key 12 2 (by omega) (by omega)
      unfold credentialAt
      rw [← hn, h16]
      simp [h12]
    · unfold credentialAt
      rw [← hn, ← h2, ← h4]
      split <;> first | rfl | contradiction

/-- A request for an existing wallet has a number the program knows. -/
theorem known_number {env : Env} {cpi : Cpi} {m m' : Mem} {swig : Meta} {rest : List Meta} {ix : Bytes} (ho : (m swig.key).owner = swigId)
    (e : process env cpi m (swig :: rest) ix = .ok m') : KnownNumber ix := by
  unfold process at e
  obtain ⟨_, _, e⟩ := bind_ok_iff.mp e
  obtain ⟨cls, _, e⟩ := bind_ok_iff.mp e
  unfold dispatch at e
  split at e
  · cases e
  unfold KnownNumber
  split at e <;> first
    | (rename_i h; rw [h]; omega)
    | (exfalso
       match rest, e with
       | payer :: wallet :: sys :: rest, e =>
         obtain ⟨_, h0, _⟩ := bind_ok_iff.mp e
         unfold createChecks at h0
         obtain ⟨_, h0, _⟩ := bind_ok_iff.mp h0
         have := require_ok_iff.mp h0
         rw [ho] at this
         exact absurd this (by decide)
       | [_, _], e => cases e
       | [_], e => cases e
       | [], e => cases e)

/-- The bytes of a known request, read as inner instructions, call the first account of the transaction. -/
theorem calls_first_account {env : Env} {cpi : Cpi} {m m' : Mem} {swig : Meta} {rest : List Meta} {ix ix' : Bytes} (hn : SignsCalls ix)
    (hk : KnownNumber ix') (h' : ¬ SignsCalls ix') (hx : NoProgram cpi swig.key) (hs : signedPart ix = signedPart ix')
    (e : process env cpi m (swig :: rest) ix = .ok m') : False := by
  obtain ⟨second, more, ixs, seeds, rfl, hd, _, _, hrun⟩ := signs_first hn e
  have hp : signedPart ix' = ix'.take (credentialAt ix') := by
    unfold SignsCalls at h'
    unfold signedPart
    rw [if_neg (by omega), if_neg (by omega)]
  have hge := credentialAt_ge ix'
  have e0 : (signedPart ix).getD 0 0 = ix'.getD 0 0 := by
    rw [hs, hp]; simp [List.getD_eq_getElem?_getD, show 0 < credentialAt ix' by omega]
  have e1 : (signedPart ix).getD 1 0 = ix'.getD 1 0 := by
    rw [hs, hp]; simp [List.getD_eq_getElem?_getD, show 1 < credentialAt ix' by omega]
  have hnum : rd ix' 0 2 = (ix'.getD 0 0).toNat + 256 * (ix'.getD 1 0).toNat := by
    unfold rd sl
    match ix' with
    | [] => rfl
    | [a] => simp [leNat]
    | a :: b :: _ => simp [leNat]
  obtain ⟨k1, k2⟩ := hk
  rw [hnum] at k1 k2
  have z1 : (ix'.getD 1 0).toNat = 0 := by omega
  obtain ⟨i, tail, a, rfl, ha, hi, _⟩ := decodeIxs_first hd (by
    rw [e0]; intro h; rw [h] at k1; rw [z1] at k1; simp at k1)
  rw [e1, z1] at ha
  simp at ha
  subst ha
  obtain ⟨m0, m1, hown, h1⟩ := hrun i tail rfl
  exact hx _ i.cpi _ hi (execInner_calls hown h1).1

end Verif
