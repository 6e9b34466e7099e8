import Verif.Proofs.Accept
import Verif.Props.Sub
import Verif.Props.Manage
import Verif.Props.Close
import Verif.Spec.Evolve

/-!
# Exactly which requests are accepted (C109)

For every kind of request that manages a wallet, the conditions under which the program carries it out, in both directions: a request that
meets them is never refused, and a request that misses one of them is never carried out.  The conditions are on the bytes of the request, the
accounts sent with it and the wallet stored at the first account; `Speaks`, `Topped`, `Emptied`, `AsksUpdate` are in Verif/Spec/Accept.lean.  Assumed
throughout: a well-formed wallet at the first account, at most 254 accounts, and none of them inspected before the request is
looked at (`Plain`, property C67).  The runtime's refusal of changes to accounts passed read-only comes on top (DESIGN.md, C87).
-/

namespace Verif
open Client

theorem updateOp_iff {n : UInt8} {b : Bytes} {op : UpdateOp} : updateOp n b = .ok op ↔ AsksUpdate n b op := by
  have u16 : ∀ (b : Bytes), b.length % 2 = 0 → b = (u16List b).flatMap (natLE 2) ∧ ∀ i ∈ u16List b, i < 2 ^ 16 := by
    intro b
    induction b using u16List.induct with
    | case1 a c rest ih =>
      intro h
      obtain ⟨h1, h2⟩ := ih (by simp at h; omega)
      unfold u16List
      have hl : leNat [a, c] < 2 ^ 16 := by
        have := leNat_lt [a, c]
        simpa using this
      refine ⟨?_, ?_⟩
      · rw [List.flatMap_cons, ← h1, show natLE 2 (leNat [a, c]) = [a, c] from natLE_leNat [a, c]]
        rfl
      · intro i hi
        rcases List.mem_cons.mp hi with rfl | hi
        · exact hl
        · exact h2 i hi
    | case2 b hb =>
      intro h
      match b, hb with
      | [], _ => exact ⟨rfl, fun _ hi => nomatch hi⟩
      | [x], _ => simp at h
      | x :: y :: r, hb => exact absurd rfl (hb x y r)
  have back : ∀ (l : List Nat), (∀ i ∈ l, i < 2 ^ 16) → u16List (l.flatMap (natLE 2)) = l ∧ (l.flatMap (natLE 2)).length % 2 = 0 := by
    intro l
    induction l with
    | nil => intro _; exact ⟨rfl, rfl⟩
    | cons i l ih =>
      intro h
      obtain ⟨h1, h2⟩ := ih fun x hx => h x (by simp [hx])
      have hi := h i (by simp)
      rw [List.flatMap_cons]
      match hb : natLE 2 i, natLE_length 2 i with
      | [a, c], _ =>
        have hv : leNat [a, c] = i := by rw [← hb, leNat_natLE]; omega
        exact ⟨by show leNat [a, c] :: u16List (l.flatMap (natLE 2)) = _; rw [hv, h1], by simp; omega⟩
  constructor
  · intro h
    unfold updateOp at h
    split at h
    · rename_i hn
      obtain ⟨rfl, hb⟩ := hn
      match b, hb with
      | x :: b, _ =>
        simp only [List.getD_cons_zero, List.drop_one, List.tail_cons] at h
        split at h
        · rename_i hx; cases h; rw [hx]; exact .all
        · split at h
          · rename_i hx; cases h; rw [hx]; exact .add
          · split at h
            · rename_i hx; cases h; rw [hx]; exact .types
            · split at h
              · rename_i hx
                split at h
                · cases h
                · rename_i hl
                  cases h
                  obtain ⟨h1, h2⟩ := u16 b (by omega)
                  rw [hx]
                  conv => arg 2; rw [h1]
                  exact .positions h2
              · cases h
    · rename_i hn
      cases h
      refine .listed ?_
      by_cases h0 : n = 0
      · exact .inr (Decidable.of_not_not fun hb => hn ⟨h0, hb⟩)
      · exact .inl h0
  · intro h
    cases h with
    | listed h => unfold updateOp; rw [if_neg (by rintro ⟨h1, h2⟩; rcases h with h | h <;> contradiction)]
    | all => rfl
    | add => rfl
    | types => rfl
    | @positions l h =>
      obtain ⟨h1, h2⟩ := back l h
      unfold updateOp
      rw [if_pos ⟨rfl, by simp⟩]
      simp only [List.getD_cons_zero, List.drop_one, List.tail_cons]
      rw [if_neg (by decide), if_neg (by decide), if_neg (by decide), if_pos trivial, if_neg (by omega), h1]

theorem UpdateOp.extra_eq (op : UpdateOp) (n : Nat) : op.extra n = op.growth n := by cases op <;> rfl

section
variable {env : Env} {cpi : Cpi} {m : Mem} {swig : Meta} {rest : List Meta} {ix : Bytes} {w : Wallet}
variable (ho : Open m swig.key w) (hp : Plain m w (swig :: rest)) (hl : (swig :: rest).length ≤ 254)
include ho hp hl

theorem accepted_dispatch : ∃ cls, Accepted env cpi m (swig :: rest) ix ↔ ∃ m', dispatch env cpi m (swig :: rest) cls ix = .ok m' := by
  obtain ⟨cls, e⟩ := process_of (env := env) (cpi := cpi) (ix := ix) ho.wf ho.data ho.owner hp hl
  exact ⟨cls, by unfold Accepted; rw [e]⟩

theorem accepted_short (h : ix.length < 2) : ¬ Accepted env cpi m (swig :: rest) ix := by
  obtain ⟨cls, e⟩ := accepted_dispatch (env := env) (cpi := cpi) (ix := ix) ho hp hl
  rw [e]
  rintro ⟨m', h'⟩
  unfold dispatch at h'
  rw [if_pos h] at h'
  cases h'

/-- Removing a role. -/
theorem C109_remove (hi : rd ix 0 2 = 2) (hs : w.encode.length ≤ 10485760) :
    Accepted env cpi m (swig :: rest) ix ↔
      16 ≤ ix.length ∧ (∃ payer sys more, rest = payer :: sys :: more ∧ sys.key = systemId) ∧
      rd ix 12 4 ≠ 0 ∧ (∃ t, w.role? (rd ix 12 4) = some t) ∧
      ∃ r, Speaks env m (swig :: rest) w (rd ix 8 4) (ix.drop 16) (ix.take 16) r ∧
        (r.holds P.all ∨ r.holds P.manageAuthority ∨ rd ix 8 4 = rd ix 12 4) := by
  by_cases h2 : ix.length < 2
  · exact ⟨fun h => absurd h (accepted_short ho hp hl h2), fun h => absurd h.1 (by omega)⟩
  obtain ⟨cls, e⟩ := accepted_dispatch (env := env) (cpi := cpi) (ix := ix) ho hp hl
  rw [e, dispatch, if_neg h2, hi]
  show (∃ m', removeAuthorityV1 env m (swig :: rest) ix = .ok m') ↔ _
  constructor
  · rintro ⟨m', h⟩
    match rest, h with
    | payer :: sys :: more, h =>
      obtain ⟨a, r, t, h1, h3, h4, h5, h6, _⟩ := removeAuthorityV1_enc ho.wf ho.data h
      unfold parseRemove at h1
      split at h1
      · cases h1
      · cases h1
        exact ⟨by omega, ⟨_, _, _, rfl, removeAuthorityV1_sys h⟩, h3, ⟨t, h6⟩, r, (speaks_iff ho.wf).mpr h4, or_assoc.mp h5⟩
    | [_], h => cases h
    | [], h => cases h
  · rintro ⟨h16, ⟨payer, sys, more, rfl, hsys⟩, h0, ⟨t, ht⟩, r, hr, hperm⟩
    have hpar : parseRemove ix = .ok ⟨rd ix 8 4, rd ix 12 4, ix.take 16, ix.drop 16⟩ := by unfold parseRemove; rw [if_neg (by omega)]
    exact removeAuthorityV1_of ho.wf ho.data ho.owner hsys hs hpar h0 ((speaks_iff ho.wf).mp hr) (or_assoc.mpr hperm) ht

/-- Registering the account that receives the rent. -/
theorem C109_claimer (hi : rd ix 0 2 = 17) :
    Accepted env cpi m (swig :: rest) ix ↔
      40 ≤ ix.length ∧ sl ix 8 40 ≠ zeros 32 ∧ sl ix 8 40 ≠ swig.key ∧
      (∃ wallet, env.pda [ascii "swig-wallet-address", swig.key, [w.walletBump]] = some wallet ∧ sl ix 8 40 ≠ wallet) ∧
      w.claimer = none ∧
      (∃ r, Speaks env m (swig :: rest) w (rd ix 4 4) (ix.drop 40) (ix.take 40) r ∧ (r.holds P.all ∨ r.holds P.closeSwigAuthority)) ∧
      ∃ payer sys more, rest = payer :: sys :: more ∧ sys.key = systemId ∧ MayGrow w.encode.length 40 ∧
        Topped env m payer swig (w.encode.length + 40) := by
  by_cases h2 : ix.length < 2
  · exact ⟨fun h => absurd h (accepted_short ho hp hl h2), fun h => absurd h.1 (by omega)⟩
  obtain ⟨cls, e⟩ := accepted_dispatch (env := env) (cpi := cpi) (ix := ix) ho hp hl
  rw [e, dispatch, if_neg h2, hi]
  show (∃ m', setRentClaimerV1 env m (swig :: rest) ix = .ok m') ↔ _
  constructor
  · rintro ⟨m', h⟩
    match rest, h with
    | payer :: sys :: more, h =>
      obtain ⟨a, r, wallet, h1, h3, h4, h5, h6, h7, h8, h9, _⟩ := setRentClaimerV1_enc ho.wf ho.data h
      obtain ⟨g1, g2, g3⟩ := setRentClaimerV1_paid ho.wf ho.data h
      unfold parseClaimer at h1
      split at h1
      · cases h1
      · cases h1
        exact ⟨by omega, h5, h6, ⟨wallet, h7, h8⟩, h9, ⟨r, (speaks_iff ho.wf).mpr h3, h4⟩, _, _, _, rfl, g1, g2, g3⟩
    | [_], h => cases h
    | [], h => cases h
  · rintro ⟨h40, c1, c2, ⟨wallet, hw, c3⟩, hnone, ⟨r, hr, hperm⟩, payer, sys, more, rfl, hsys, hg, ht⟩
    have hpar : parseClaimer ix = .ok ⟨rd ix 4 4, sl ix 8 40, ix.take 40, ix.drop 40⟩ := by unfold parseClaimer; rw [if_neg (by omega)]
    exact setRentClaimerV1_of ho.wf ho.data ho.owner hsys hg hpar c1 c2 hw c3 ((speaks_iff ho.wf).mp hr) hperm hnone ht

/-- Opening a session. -/
theorem C109_session (hi : rd ix 0 2 = 5) :
    Accepted env cpi m (swig :: rest) ix ↔
      48 ≤ ix.length ∧ 2 ≤ rest.length ∧
      ∃ (r : Role) (a : Auth) (s : Session), w.role? (rd ix 4 4) = some r ∧ a.WF ∧ a.ty = r.authType ∧ a.encode = r.auth ∧ a.session = some s ∧
        (∃ x, authenticate env r.authType r.auth (swig :: rest) (m instructionsSysvarId).data (ix.drop 48) (ix.take 48) = .ok x) ∧
        rd ix 8 8 ≤ s.max := by
  by_cases h2 : ix.length < 2
  · exact ⟨fun h => absurd h (accepted_short ho hp hl h2), fun h => absurd h.1 (by omega)⟩
  obtain ⟨cls, e⟩ := accepted_dispatch (env := env) (cpi := cpi) (ix := ix) ho hp hl
  rw [e, dispatch, if_neg h2, hi]
  show (∃ m', createSessionV1 env m (swig :: rest) ix = .ok m') ↔ _
  constructor
  · rintro ⟨m', h⟩
    match rest, h with
    | payer :: sys :: more, h =>
      obtain ⟨a, r, auth, s, h1, h3, h4, h5, h6, h7, h8, h9, _⟩ := createSessionV1_enc ho.wf ho.data h
      unfold parseSession at h1
      split at h1
      · cases h1
      · cases h1
        exact ⟨by omega, by simp, r, auth, s, h3, h4, h5, h6, h7, ⟨_, h8⟩, h9⟩
    | [_], h => cases h
    | [], h => cases h
  · rintro ⟨h48, hn, r, auth, s, hr, k1, k2, k3, hss, ⟨x, hx⟩, hd⟩
    match rest, hn with
    | payer :: sys :: more, _ =>
      have hpar : parseSession ix = .ok ⟨rd ix 4 4, rd ix 8 8, sl ix 16 48, ix.take 48, ix.drop 48⟩ := by
        unfold parseSession; rw [if_neg (by omega)]
      exact createSessionV1_of ho.wf ho.data ho.owner hpar hr k1 k2 k3 hss hx hd

/-- Adding a role with the credential `cred` and the permissions `as`. -/
theorem C109_add (hi : rd ix 0 2 = 1) (hcount : w.roles.length + 1 < 2 ^ 16) (hctr : w.roleCounter + 1 < 2 ^ 32) :
    Accepted env cpi m (swig :: rest) ix ↔
      16 + rd ix 2 2 + rd ix 4 2 ≤ ix.length ∧
      (∃ r, Speaks env m (swig :: rest) w (rd ix 12 4) (ix.drop (16 + rd ix 2 2 + rd ix 4 2)) (ix.take (16 + rd ix 2 2 + rd ix 4 2)) r ∧
        (r.holds P.all ∨ r.holds P.manageAuthority)) ∧
      ∃ cred as payer sys more, initialAuth (rd ix 6 2) (sl ix 16 (16 + rd ix 2 2)) = some cred ∧
        Submits (sl ix (16 + rd ix 2 2) (16 + rd ix 2 2 + rd ix 4 2)) as ∧ (∀ x ∈ as, x.Fresh) ∧ 1 ≤ as.length ∧ as.length ≤ 255 ∧ NoV2Dup as ∧
        rest = payer :: sys :: more ∧ sys.key = systemId ∧ MayGrow w.encode.length (16 + cred.encode.length + rd ix 4 2) ∧
        Topped env m payer swig (w.encode.length + (16 + cred.encode.length + rd ix 4 2)) := by
  by_cases h2 : ix.length < 2
  · exact ⟨fun h => absurd h (accepted_short ho hp hl h2), fun h => absurd h.1 (by omega)⟩
  obtain ⟨cls, e⟩ := accepted_dispatch (env := env) (cpi := cpi) (ix := ix) ho hp hl
  rw [e, dispatch, if_neg h2, hi]
  show (∃ m', addAuthorityV1 env m (swig :: rest) ix = .ok m') ↔ _
  constructor
  · rintro ⟨m', h⟩
    match rest, h with
    | payer :: sys :: more, h =>
      obtain ⟨a, r, cred, as, h1, h3, h4, h5, h6, h7, h8, h9, h10, _⟩ := addAuthorityV1_enc ho.wf ho.data hcount hctr h
      obtain ⟨g1, g2, g3⟩ := addAuthorityV1_paid ho.wf ho.data h h1 h5 h6 h7
      unfold parseAdd at h1
      split at h1
      · cases h1
      · dsimp only at h1
        split at h1
        · cases h1
        · cases h1
          have hlen : (sl ix (16 + rd ix 2 2) (16 + rd ix 2 2 + rd ix 4 2)).length = rd ix 4 2 := by
            rw [sl_length_of_le (by omega)]; omega
          dsimp only at g2 g3
          rw [hlen] at g2 g3
          exact ⟨by omega, ⟨r, (speaks_iff ho.wf).mpr h3, h4⟩, cred, as, _, _, _, h5, h6, h7, h8, h9, h10, rfl, g1, g2, g3⟩
    | [_], h => cases h
    | [], h => cases h
  · rintro ⟨hn, ⟨r, hr, hperm⟩, cred, as, payer, sys, more, h5, h6, h7, h8, h9, h10, rfl, hsys, g2, g3⟩
    have hpar : parseAdd ix = .ok ⟨rd ix 6 2, rd ix 12 4, sl ix 16 (16 + rd ix 2 2), sl ix (16 + rd ix 2 2) (16 + rd ix 2 2 + rd ix 4 2),
        ix.take (16 + rd ix 2 2 + rd ix 4 2), ix.drop (16 + rd ix 2 2 + rd ix 4 2)⟩ := by
      unfold parseAdd; rw [if_neg (by omega)]; dsimp only; rw [if_neg (by omega)]
    have hlen : (sl ix (16 + rd ix 2 2) (16 + rd ix 2 2 + rd ix 4 2)).length = rd ix 4 2 := by
      rw [sl_length_of_le (by omega)]; omega
    exact addAuthorityV1_of ho.wf ho.data ho.owner hsys hcount hctr hpar ((speaks_iff ho.wf).mp hr) hperm h5 h6 h7 h8 h9 h10
      (by dsimp only; rw [hlen]; exact g2) (by dsimp only; rw [hlen]; exact g3)

/-- Updating the permissions of a role to `as`. -/
theorem C109_update (hi : rd ix 0 2 = 3) (hs : w.encode.length ≤ 10485760) :
    Accepted env cpi m (swig :: rest) ix ↔
      16 + rd ix 2 2 ≤ ix.length ∧ 
      (∃ r, Speaks env m (swig :: rest) w (rd ix 8 4) (ix.drop (16 + rd ix 2 2)) (ix.take (16 + rd ix 2 2)) r ∧
        (r.holds P.all ∨ r.holds P.manageAuthority)) ∧
      ∃ op t as payer sys more, AsksUpdate (ix.getD 4 0) (sl ix 16 (16 + rd ix 2 2)) op ∧ w.role? (rd ix 12 4) = some t ∧
        op.Result t.actions as ∧ (∀ x ∈ as, x.Fresh) ∧ 1 ≤ as.length ∧ as.length ≤ 255 ∧ NoV2Dup as ∧
        rest = payer :: sys :: more ∧ sys.key = systemId ∧
        (op.extra (actsSize t.actions) > 0 → MayGrow w.encode.length (op.extra (actsSize t.actions)) ∧
          Topped env m payer swig (w.encode.length + op.extra (actsSize t.actions))) := by
  by_cases h2 : ix.length < 2
  · exact ⟨fun h => absurd h (accepted_short ho hp hl h2), fun h => absurd h.1 (by omega)⟩
  obtain ⟨cls, e⟩ := accepted_dispatch (env := env) (cpi := cpi) (ix := ix) ho hp hl
  rw [e, dispatch, if_neg h2, hi]
  show (∃ m', updateAuthorityV1 env m (swig :: rest) ix = .ok m') ↔ _
  constructor
  · rintro ⟨m', h⟩
    match rest, h with
    | payer :: sys :: more, h =>
      obtain ⟨a, r, t, as, h1, h3, h4, h5, h6, h7, h8, h9, h10, _⟩ := updateAuthorityV1_enc ho.wf ho.data h
      obtain ⟨g1, g2⟩ := updateAuthorityV1_paid ho.wf ho.data h h1 h5 h6 h7
      unfold parseUpdate at h1
      split at h1
      · cases h1
      · dsimp only at h1
        split at h1
        · cases h1
        · obtain ⟨op, hop, h1⟩ := bind_ok_iff.mp h1
          cases h1
          refine ⟨by omega, ⟨r, (speaks_iff ho.wf).mpr h3, h4⟩, op, t, as, _, _, _, updateOp_iff.mp hop, h5, h6, h7, h8, h9, h10, rfl, g1, ?_⟩
          rw [UpdateOp.extra_eq]
          exact g2
    | [_], h => cases h
    | [], h => cases h
  · rintro ⟨hn, ⟨r, hr, hperm⟩, op, t, as, payer, sys, more, h4, h5, h6, h7, h8, h9, h10, rfl, hsys, g2⟩
    have hpar : parseUpdate ix = .ok ⟨rd ix 8 4, rd ix 12 4, op, ix.take (16 + rd ix 2 2), ix.drop (16 + rd ix 2 2)⟩ := by
      unfold parseUpdate; rw [if_neg (by omega)]; dsimp only; rw [if_neg (by omega), updateOp_iff.mpr h4]; rfl
    rw [UpdateOp.extra_eq] at g2
    exact updateAuthorityV1_of ho.wf ho.data ho.owner hsys hs hpar ((speaks_iff ho.wf).mp hr) hperm h5 h6 h7 h8 h9 h10 g2

/-- Replacing the key of a role, asked by a role that is not a program-execution role (those need a proof as well, C55). -/
theorem C109_replace (hi : rd ix 0 2 = 16) (hx : ∀ r, w.role? (rd ix 4 4) = some r → r.authType ≠ T.programExec) :
    Accepted env cpi m (swig :: rest) ix ↔
      sl ix 2 4 = zeros 2 ∧ sl ix 14 16 = zeros 2 ∧ (rd ix 12 2 = 32 ∨ rd ix 12 2 = 33 ∨ rd ix 12 2 = 64) ∧ 16 + rd ix 12 2 ≤ ix.length ∧
      (∃ r, Speaks env m (swig :: rest) w (rd ix 4 4) (ix.drop (16 + rd ix 12 2)) (ix.take (16 + rd ix 12 2)) r ∧
        (r.holds P.all ∨ r.holds P.manageAuthority ∨ r.holdsFor P.replaceAuthority (natLE 4 (rd ix 8 4)))) ∧
      ∃ (t : Role) (a : Auth) (key : Bytes), w.role? (rd ix 8 4) = some t ∧ a.WF ∧ a.ty = t.authType ∧ a.encode = t.auth ∧
        a.cred.newKey (sl ix 16 (16 + rd ix 12 2)) = some key ∧ a.cred.key ≠ key := by
  by_cases h2 : ix.length < 2
  · exact ⟨fun h => absurd h (accepted_short ho hp hl h2), fun h => absurd h.2.2.2.1 (by omega)⟩
  obtain ⟨cls, e⟩ := accepted_dispatch (env := env) (cpi := cpi) (ix := ix) ho hp hl
  rw [e, dispatch, if_neg h2, hi]
  show (∃ m', replaceAuthorityV1 env m (swig :: rest) ix = .ok m') ↔ _
  constructor
  · rintro ⟨m', h⟩
    obtain ⟨a, r, t, auth, key, h1, h3, h4, h5, h6, h7, h8, h9, h10, _⟩ := replaceAuthorityV1_enc ho.wf ho.data h
    unfold parseReplace at h1
    split at h1
    · cases h1
    · split at h1
      · cases h1
      · rename_i hz
        simp only [ne_eq, not_or, Decidable.not_not] at hz
        dsimp only at h1
        split at h1
        · cases h1
        · split at h1
          · cases h1
          · cases h1
            exact ⟨hz.1, hz.2, by omega, by omega, ⟨r, (speaks_iff ho.wf).mpr h3, h4⟩, t, auth, key, h5, h6, h7, h8, h9, h10⟩
  · rintro ⟨z1, z2, hn, hlen, ⟨r, hr, hperm⟩, t, auth, key, h5, h6, h7, h8, h9, h10⟩
    have hpar : parseReplace ix = .ok ⟨rd ix 4 4, rd ix 8 4, sl ix 16 (16 + rd ix 12 2), ix.take (16 + rd ix 12 2), ix.drop (16 + rd ix 12 2)⟩ := by
      unfold parseReplace
      rw [if_neg (by omega), if_neg (by simp [z1, z2])]
      dsimp only
      rw [if_neg (by omega), if_neg (by omega)]
    exact replaceAuthorityV1_of ho.wf ho.data ho.owner hpar ((speaks_iff ho.wf).mp hr) hperm (hx r hr.1) h5 h6 h7 h8 h9 h10

/-- Closing the wallet. -/
theorem C109_close (hi : rd ix 0 2 = 15) :
    Accepted env cpi m (swig :: rest) ix ↔ ∃ wallet dst sys more, rest = wallet :: dst :: sys :: more ∧
      8 ≤ ix.length ∧ sys.key = systemId ∧ (∃ b, Canonical env [ascii "swig-wallet-address", swig.key] b wallet.key) ∧
      (∃ r, Speaks env m (swig :: rest) w (rd ix 4 4) (ix.drop 8) (ix.take 8) r ∧
        (r.holds P.all ∨ r.holds P.manageAuthority ∨ r.holds P.closeSwigAuthority)) ∧
      (w.claimer = none ∨ w.claimer = some dst.key) ∧ (m swig.key).lamports ≤ env.rent w.encode.length ∧
      (m wallet.key).lamports ≤ env.rent 0 ∧ Emptied env m swig.key w.walletBump wallet dst := by
  by_cases h2 : ix.length < 2
  · exact ⟨fun h => absurd h (accepted_short ho hp hl h2), fun ⟨_, _, _, _, _, h, _⟩ => absurd h (by omega)⟩
  obtain ⟨cls, e⟩ := accepted_dispatch (env := env) (cpi := cpi) (ix := ix) ho hp hl
  rw [e, dispatch, if_neg h2, hi]
  show (∃ m', closeSwigV1 env m (swig :: rest) ix = .ok m') ↔ _
  constructor
  · intro h
    match rest, h with
    | wallet :: dst :: sys :: more, h => exact ⟨_, _, _, _, rfl, (closeSwigV1_iff ho.wf ho.data ho.owner).mp h⟩
    | [_, _], ⟨_, h⟩ => cases h
    | [_], ⟨_, h⟩ => cases h
    | [], ⟨_, h⟩ => cases h
  · rintro ⟨wallet, dst, sys, more, rfl, h⟩
    exact (closeSwigV1_iff ho.wf ho.data ho.owner).mpr h

/-- Migrating the wallet to a wallet address. -/
theorem C109_migrate (hi : rd ix 0 2 = 12) :
    Accepted env cpi m (swig :: rest) ix ↔ ∃ x payer wallet y more, rest = x :: payer :: wallet :: y :: more ∧
      8 ≤ ix.length ∧ (∃ r, Speaks env m (swig :: rest) w (rd ix 4 4) (ix.drop 8) (ix.take 8) r ∧ (r.holds P.all ∨ r.holds P.manageAuthority)) ∧
      (m wallet.key).owner = systemId ∧ (m wallet.key).data = [] ∧
      env.pda [ascii "swig-wallet-address", swig.key, [ix.getD 2 0]] = some wallet.key ∧ Topped env m payer wallet 0 := by
  by_cases h2 : ix.length < 2
  · exact ⟨fun h => absurd h (accepted_short ho hp hl h2), fun ⟨_, _, _, _, _, _, h, _⟩ => absurd h (by omega)⟩
  obtain ⟨cls, e⟩ := accepted_dispatch (env := env) (cpi := cpi) (ix := ix) ho hp hl
  rw [e, dispatch, if_neg h2, hi]
  show (∃ m', migrateV1 env m (swig :: rest) ix = .ok m') ↔ _
  constructor
  · intro h
    match rest, h with
    | x :: payer :: wallet :: y :: more, h => exact ⟨_, _, _, _, _, rfl, (migrateV1_iff ho.wf ho.data ho.owner).mp h⟩
    | [_, _, _], ⟨_, h⟩ => cases h
    | [_, _], ⟨_, h⟩ => cases h
    | [_], ⟨_, h⟩ => cases h
    | [], ⟨_, h⟩ => cases h
  · rintro ⟨x, payer, wallet, y, more, rfl, h⟩
    exact (migrateV1_iff ho.wf ho.data ho.owner).mpr h

/-- Switching a V2 sub-account on or off; `s` is the data of its state account. -/
theorem C109_toggle (hi : rd ix 0 2 = 19) :
    Accepted env cpi m (swig :: rest) ix ↔ ∃ x state more, rest = x :: state :: more ∧
      16 ≤ ix.length ∧ (ix.getD 2 0 = 0 ∨ ix.getD 2 0 = 1) ∧ w.walletBump ≠ 0 ∧ w.pad = zeros 3 ∧
      (∃ r, Speaks env m (swig :: rest) w (rd ix 4 4) (ix.drop 16) (ix.take 16) r ∧
        ∃ a ∈ r.actions, (a.ty = P.subAccountV2Toggle ∨ a.ty = P.subAccountV2All) ∧ rd a.data 0 4 = rd ix 8 4) ∧
      (m state.key).owner = swigId ∧
      ∃ s, (m state.key).data = s ∧ s.length = 72 ∧ s.getD 0 0 = 2 ∧ (s.getD 3 0 = 0 ∨ s.getD 3 0 = 1) ∧ rd s 4 4 = rd ix 8 4 ∧ sl s 8 40 = w.id ∧
        env.pda (subV2StateSeeds w.id (natLE 4 (rd ix 8 4)) ++ [[s.getD 1 0]]) = some state.key := by
  by_cases h2 : ix.length < 2
  · exact ⟨fun h => absurd h (accepted_short ho hp hl h2), fun ⟨_, _, _, _, h, _⟩ => absurd h (by omega)⟩
  obtain ⟨cls, e⟩ := accepted_dispatch (env := env) (cpi := cpi) (ix := ix) ho hp hl
  rw [e, dispatch, if_neg h2, hi]
  show (∃ m', toggleSubV2 env m (swig :: rest) ix = .ok m') ↔ _
  have hscoped : ∀ r : Role, r.Scoped P.subAccountV2Toggle true (rd ix 8 4) ↔
      ∃ a ∈ r.actions, (a.ty = P.subAccountV2Toggle ∨ a.ty = P.subAccountV2All) ∧ rd a.data 0 4 = rd ix 8 4 := by
    intro r
    unfold Role.Scoped
    simp [rd, sl]
  have hv2 : isV2 w.header = true ↔ w.walletBump ≠ 0 ∧ w.pad = zeros 3 := by
    simp [isV2, Wallet.header]
  constructor
  · rintro ⟨m', h⟩
    match rest, h with
    | x :: state :: more, h =>
      obtain ⟨r, h1, h3, h4, _, h5, h6, h7, h8, h9, h10, h11, _⟩ := toggleSubV2_enc ho.wf ho.data h
      obtain ⟨g1, g2, g3⟩ := toggleSubV2_more ho.wf ho.data h
      exact ⟨_, _, _, rfl, g1, h6, (hv2.mp g2).1, (hv2.mp g2).2, ⟨r, (speaks_iff ho.wf).mpr h1, (hscoped r).mp h3⟩, h5, _, rfl, h7, h8, g3, h9, h10, h11⟩
    | [_], h => cases h
    | [], h => cases h
  · rintro ⟨x, state, more, rfl, g1, h6, v1, v2, ⟨r, h1, h3⟩, h5, s, rfl, h7, h8, g3, h9, h10, h11⟩
    have hne : state.key ≠ swig.key := by
      intro he
      rw [he, ho.data, Wallet.encode_disc] at h8
      exact absurd h8 (by decide)
    exact toggleSubV2_of ho.wf ho.data ho.owner (hv2.mpr ⟨v1, v2⟩) g1 h6 ((speaks_iff ho.wf).mp h1) ((hscoped r).mpr h3) hne h5 h7 h8 g3 h9 h10 h11

end

/-! ## Worked cases: for every kind of request one that is carried out and one that misses a single condition -/
section
open Sample

/-- A wallet with the owner (who may also switch sub-account 0), a restricted role and a session role. -/
def manyWallet : Wallet := ⟨255, K 70, 3, 254, zeros 3, 1,
  [⟨1, 0, K 10, [⟨7, []⟩, ⟨26, natLE 4 0 ++ zeros 4⟩]⟩, limited, ⟨2, 2, (⟨.ed25519 (K 11), some ⟨zeros 32, 60, 0⟩⟩ : Auth).encode, [⟨1, natLE 8 500⟩]⟩], none⟩

theorem manyWallet_wf : manyWallet.WF where
  idLen := by decide
  padLen := by decide
  counter := by decide
  subCounter := by decide
  count := by decide
  roles := by
    intro r hr
    simp only [manyWallet, List.mem_cons, List.not_mem_nil, or_false] at hr
    rcases hr with rfl | rfl | rfl
    · exact ⟨by decide, by decide, by decide, by decide, by decide⟩
    · exact ⟨by decide, by decide, by decide, by decide, by decide⟩
    · exact ⟨by decide, by decide, by decide, by decide, by decide⟩
  idsNodup := by decide
  idsLt := by decide
  claimer := by simp [manyWallet]
  size := by decide

/-- The ledger: the wallet and the record of its sub-account 0, at `K 4`. -/
def manyMem : Mem := (mem manyWallet).set (K 4) ⟨swigId, 2000000, [2, 255, 255, 1] ++ natLE 4 0 ++ K 70 ++ K 5⟩

/-- The same with no more than the rent in the wallet's two accounts. -/
def manyMem' : Mem := (manyMem.setLamports (K 1) (env.rent manyWallet.encode.length)).setLamports (K 2) (env.rent 0)

def noCall : Cpi := fun m _ => .ok m

theorem many_open : Open manyMem (K 1) manyWallet ∧ Open manyMem' (K 1) manyWallet :=
  ⟨⟨rfl, manyWallet_wf, rfl⟩, ⟨rfl, manyWallet_wf, rfl⟩⟩

/-- The common hypotheses, for all the lists of accounts used below. -/
example : Open manyMem (K 1) manyWallet ∧ Open manyMem' (K 1) manyWallet ∧ manyWallet.encode.length ≤ 10485760 ∧
    manyWallet.roles.length + 1 < 2 ^ 16 ∧ manyWallet.roleCounter + 1 < 2 ^ 32 ∧
    ∀ l ∈ [metas (K 10), metas (K 11), closeMetas (K 20), migrateMetas, toggleSubMetas], l.length ≤ 254 ∧
      Plain manyMem manyWallet l ∧ Plain manyMem' manyWallet l := by
  refine ⟨many_open.1, many_open.2, by decide +kernel, by decide, by decide, ?_⟩
  unfold Plain
  decide +kernel

/-- Carried out ... -/
example : (∀ ix ∈ [addIx, removeIx, updateIx, updateRemoveIx, replaceIx, claimerIx], Accepted env noCall manyMem (metas (K 10)) ix) ∧
    Accepted env noCall manyMem (metas (K 11)) (sessionIx 60) ∧ Accepted env noCall manyMem' (closeMetas (K 20)) closeIx ∧
    Accepted env noCall manyMem migrateMetas migrateIx ∧ Accepted env noCall manyMem toggleSubMetas disableIx := by
  have acc : ∀ {env cpi m metas ix}, ok (process env cpi m metas ix) = true → Accepted env cpi m metas ix := exists_of_ok
  refine ⟨?_, acc (by decide +kernel), acc (by decide +kernel), acc (by decide +kernel), acc (by decide +kernel)⟩
  intro ix hix
  refine acc ?_
  revert ix
  decide +kernel

/-- ... and refused: signed by another role's key; a longer session; more than the rent in the wallet; no wallet address given; a
sub-account of another number. -/
example : (∀ ix ∈ [addIx, removeIx, updateIx, updateRemoveIx, replaceIx, claimerIx], ¬ Accepted env noCall manyMem (metas (K 11)) ix) ∧
    ¬ Accepted env noCall manyMem (metas (K 11)) (sessionIx 61) ∧ ¬ Accepted env noCall manyMem (closeMetas (K 20)) closeIx ∧
    ¬ Accepted env noCall manyMem (metas (K 10)) migrateIx ∧
    ¬ Accepted env noCall manyMem toggleSubMetas (natLE 2 19 ++ [0, 0] ++ natLE 4 0 ++ natLE 4 1 ++ zeros 4 ++ [1]) := by
  have rej : ∀ {env cpi m metas ix}, ok (process env cpi m metas ix) = false → ¬ Accepted env cpi m metas ix := by
    rintro env cpi m metas ix h ⟨m', e⟩
    rw [e] at h
    cases h
  refine ⟨?_, rej (by decide +kernel), rej (by decide +kernel), rej (by decide +kernel), rej (by decide +kernel)⟩
  intro ix hix
  refine rej ?_
  revert ix
  decide +kernel

end

end Verif
