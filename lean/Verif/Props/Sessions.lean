import Verif.Props.Lifetime
import Verif.Props.Manage
import Verif.Proofs.Accept

/-!
# Property C121: one session per role, for as long as was stated

Vocabulary: Spec/Evolve.lean (`Steps`, `Open`, `actingRole`), Spec/Authn.lean (`credentialAt`), Spec/Lifetime.lean (`Rekeys`), Spec/Accept.lean
(`Speaks`: the credential or session of a role accepts).  In a CreateSession request (number 5) the role is at byte 4, the duration at byte 8 and the key at byte 16.
-/

namespace Verif

/-- The request starts a session of the role. -/
def StartsSession (ix : Bytes) (id : Nat) : Prop := rd ix 0 2 = 5 ∧ rd ix 4 4 = id

section
variable {env0 env : Env} {cpi0 cpi : Cpi} {m m1 m2 m3 : Mem} {swig0 swig : Meta} {rest0 rest : List Meta} {ix0 ix : Bytes} {w : Wallet} {id : Nat} {k : Key}

/-- The role record after an accepted CreateSession. -/
theorem session_started (ho : Open m swig0.key w) (hs : StartsSession ix0 id) (e : process env0 cpi0 m (swig0 :: rest0) ix0 = .ok m1) :
    ∃ (w1 : Wallet) (r1 : Role) (a : Auth) (max : Nat), Open m1 swig0.key w1 ∧ w1.role? id = some r1 ∧ a.WF ∧ a.ty = r1.authType ∧ a.encode = r1.auth ∧
      a.session = some ⟨sl ix0 16 48, max, (env0.slot + rd ix0 8 8) % 2 ^ 64⟩ := by
  obtain ⟨h5, hid⟩ := hs
  unfold process at e
  obtain ⟨_, _, e⟩ := bind_ok_iff.mp e
  obtain ⟨cls, _, e⟩ := bind_ok_iff.mp e
  unfold dispatch at e
  split at e
  · cases e
  rw [h5] at e
  have e : createSessionV1 env0 m (swig0 :: rest0) ix0 = .ok m1 := e
  match rest0, e with
  | payer :: sys :: rest0, e =>
    obtain ⟨a, r, auth, s, h1, h2, h3, h4, h5, h6, h7, h8, h9, h10, h11⟩ := createSessionV1_enc ho.wf ho.data e
    have hp : a.role = id ∧ a.key = sl ix0 16 48 ∧ a.duration = rd ix0 8 8 ∧ (sl ix0 16 48).length = 32 := by
      unfold parseSession at h1
      split at h1
      · cases h1
      · cases h1
        exact ⟨hid, rfl, rfl, by rw [sl_length_of_le (by omega)]⟩
    obtain ⟨p1, p2, p3, p4⟩ := hp
    rw [p1, p2, p3] at h9 h10
    rw [p1] at h2
    refine ⟨_, { r with auth := (⟨auth.cred.used, some ⟨sl ix0 16 48, s.max, (env0.slot + rd ix0 8 8) % 2 ^ 64⟩⟩ : Auth).encode },
      ⟨auth.cred.used, some ⟨sl ix0 16 48, s.max, (env0.slot + rd ix0 8 8) % 2 ^ 64⟩⟩, s.max, ⟨?_, h10, h9⟩, ?_,
      ⟨Cred.used_wf h3.cred, ?_⟩, ?_, rfl, rfl⟩
    · rw [h11]; simpa using ho.owner
    · unfold Wallet.setAuth
      have g := mapRole_find w id id (fun x : Role => { x with auth := (⟨auth.cred.used, some ⟨sl ix0 16 48, s.max, (env0.slot + rd ix0 8 8) % 2 ^ 64⟩⟩ : Auth).encode })
        (fun _ => rfl)
      rw [h2] at g
      simpa [(role?_mem h2).2] using g
    · rintro t ht
      cases ht
      exact ⟨p4, (h3.session s h6).max, Nat.mod_lt _ (by decide)⟩
    · rw [← h4]
      rcases auth with ⟨c, t⟩
      cases h6
      cases c <;> rfl
  | [_], e => cases e
  | [], e => cases e

/-- As long as no session of the role is started and its key is not replaced, its credential stays. -/
theorem session_stays {r : Role} (ho : Open m k w) (hr : w.role? id = some r) (hb : sessionBased r.authType = true)
    (h : Steps (fun ix => ¬ StartsSession ix id ∧ ¬ Rekeys ix id) k m m1) :
    IsClosed m1 k ∨ ∃ w', Open m1 k w' ∧
      (w'.role? id = none ∨ ∃ r', w'.role? id = some r' ∧ r'.authType = r.authType ∧ r'.auth = r.auth) := by
  rcases C01_refines ho h with hc | ⟨w', ho', hch⟩
  · exact .inl hc
  · obtain ⟨hm, hid⟩ := role?_mem hr
    have hlt : id < w.roleCounter := hid ▸ ho.wf.idsLt r hm
    have hkeep : ∀ kd r1 r2, (∃ ix, (¬ StartsSession ix id ∧ ¬ Rekeys ix id) ∧ Does ix kd) → Effect kd id r1 r2 →
        (r1.authType = r.authType ∧ r1.auth = r.auth) → r2.authType = r.authType ∧ r2.auth = r.auth := by
      rintro kd r1 r2 ⟨ix, ⟨h0, h1⟩, h2⟩ he ⟨e1, e2⟩
      refine ⟨he.authType.trans e1, ?_⟩
      rcases he.auth with ⟨_, g⟩ | ⟨rfl, _⟩ | rfl | g
      · rw [g, e1, e2]
        unfold usedCred
        rw [if_neg]
        rintro (g | g) <;> rw [g] at hb <;> simp [sessionBased] at hb
      · refine (h0 ⟨h2.1, ?_⟩).elim
        rw [h2.2]; simp [actingRole, h2.1]
      · exact (h1 ⟨h2.1, h2.2.symm⟩).elim
      · exact g.2.trans e2
    rcases hch.role hr hlt (Q := fun x => x.authType = r.authType ∧ x.auth = r.auth) ⟨rfl, rfl⟩ hkeep with ⟨r', h1, h2⟩ | ⟨_, h2⟩
    · exact .inr ⟨w', ho', .inr ⟨r', h1, h2⟩⟩
    · exact .inr ⟨w', ho', .inl h2⟩

/-- Whatever happens after a session of a role was started, as long as no further one is started and the key of the role is not replaced: every accepted request of the
role (except one that starts a session) is signed by the key of this session, and comes within the stated number of slots. -/
theorem C121_only_latest (ho : Open m k w) (hk0 : swig0.key = k) (hs : StartsSession ix0 id) (e0 : process env0 cpi0 m (swig0 :: rest0) ix0 = .ok m1)
    (h : Steps (fun ix => ¬ StartsSession ix id ∧ ¬ Rekeys ix id) k m1 m2) (hk : swig.key = k) (hid : actingRole ix = id) (hn : rd ix 0 2 ≠ 5)
    (hf : Fine env cpi m2 (swig :: rest) ix) (e : process env cpi m2 (swig :: rest) ix = .ok m3) :
    env.slot ≤ env0.slot + rd ix0 8 8 ∧
    ∃ i more a, ix.drop (credentialAt ix) = i :: more ∧ (swig :: rest)[i.toNat]? = some a ∧ a.key = sl ix0 16 48 ∧ a.signer = true := by
  subst hk0
  obtain ⟨w1, r1, a, max, ho1, hr1, ha, hty, henc, hss⟩ := session_started ho hs e0
  have hb : sessionBased r1.authType = true := by rw [← hty, Auth.sessionBased_iff, hss]; rfl
  rcases session_stays ho1 hr1 hb h with hc | ⟨w', ho', g⟩
  · exact (process_closed ⟨swig, rest, rfl, hk⟩ hc.1 hc.2 e).elim
  · rw [← hk] at ho'
    rcases process_acts ho' (hf.runtime _ _ rfl).keys (hf.room _ _ _ rfl ho') e with ⟨_, r, f1, f2⟩ | ⟨f1, _⟩
    · rw [hid] at f1
      rcases g with g | ⟨r', g1, g2, g3⟩
      · rw [g] at f1; cases f1
      · cases g1.symm.trans f1
        rw [g2, g3, ← hty, ← henc] at f2
        obtain ⟨_, q1, i, more, q2, x, q3, q4, q5⟩ := C24_session_role env a _ _ _ _ _ _ ha hss f2
        have : (env0.slot + rd ix0 8 8) % 2 ^ 64 ≤ env0.slot + rd ix0 8 8 := Nat.mod_le _ _
        exact ⟨Nat.le_trans q1 this, i, more, x, q2, q3, q4, q5⟩
    · exact (hn f1).elim

/-- Partial (durations whose end is a slot number; otherwise `C121_refuted`): until then, unless the role is removed or the wallet closed, the key of the session is accepted for the
role in every transaction it signs. -/
theorem C121_works_partial (ho : Open m k w) (hk0 : swig0.key = k) (hs : StartsSession ix0 id) (e0 : process env0 cpi0 m (swig0 :: rest0) ix0 = .ok m1)
    (h : Steps (fun ix => ¬ StartsSession ix id ∧ ¬ Rekeys ix id) k m1 m2) (hd : env0.slot + rd ix0 8 8 < 2 ^ 64) :
    IsClosed m2 k ∨ ∃ w2, Open m2 k w2 ∧ (w2.role? id = none ∨ ∃ r, w2.role? id = some r ∧
      ∀ (env : Env) (metas : List Meta) (i : UInt8) (a : Meta) (data : Bytes), env.slot ≤ env0.slot + rd ix0 8 8 →
        metas[i.toNat]? = some a → a.key = sl ix0 16 48 → a.signer = true → Speaks env m2 metas w2 id [i] data r) := by
  subst hk0
  obtain ⟨w1, r1, a, max, ho1, hr1, ha, hty, henc, hss⟩ := session_started ho hs e0
  have hb : sessionBased r1.authType = true := by rw [← hty, Auth.sessionBased_iff, hss]; rfl
  rcases session_stays ho1 hr1 hb h with hc | ⟨w', ho', g⟩
  · exact .inl hc
  · refine .inr ⟨w', ho', ?_⟩
    rcases g with g | ⟨r', g1, g2, g3⟩
    · exact .inl g
    · refine .inr ⟨r', g1, fun env metas i x data hslot q1 q2 q3 => ⟨g1, ?_⟩⟩
      have := C24_session_accepts env a _ metas i ha hss (by dsimp only; rw [Nat.mod_eq_of_lt hd]; exact hslot) ⟨x, q1, q2, q3⟩
      unfold authRole
      rw [g2, g3, if_pos hb, ← hty, ← henc, this]
      exact ⟨_, rfl⟩

end

namespace Sample

/-- Role 2 is an Ed25519 role with sessions of up to `max` slots. -/
def sessWallet (max : Nat) (s : Key) (till : Nat) (claimer : Option Key) : Wallet := ⟨255, K 70, 3, 254, zeros 3, 0,
  [root, ⟨2, 2, (⟨.ed25519 (K 11), some ⟨s, max, till⟩⟩ : Auth).encode, [⟨1, natLE 8 500⟩, ⟨3, systemId⟩]⟩], claimer⟩

def sessMetas : List Meta := signSwig :: signAddr :: [⟨systemId, false, false⟩, ⟨K 12, false, true⟩, ⟨K 30, true, true⟩, ⟨K 40, false, true⟩]

/-- Role 2 pays 7 lamports; the session key is the account number 4. -/
def sessPay : Bytes := natLE 2 11 ++ natLE 2 (1 :: paySol 7).length ++ natLE 4 2 ++ (1 :: paySol 7) ++ [4]

/-- The hypotheses of C121_only_latest and C121_works_partial hold: role 2 starts a session of 60 slots for the key `K 30`, the owner sets a claimer, and at slot 150 the session key pays. -/
example : ∃ m1 m2 m3, Open (mem (sessWallet 60 (zeros 32) 0 none)) (K 1) (sessWallet 60 (zeros 32) 0 none) ∧ StartsSession (sessionIx 60) 2 ∧
    process signEnv demoCpi (mem (sessWallet 60 (zeros 32) 0 none)) (metas (K 11)) (sessionIx 60) = .ok m1 ∧
    Steps (fun ix => ¬ StartsSession ix 2 ∧ ¬ Rekeys ix 2) (K 1) m1 m2 ∧ actingRole sessPay = 2 ∧ rd sessPay 0 2 ≠ 5 ∧
    Fine { signEnv with slot := 150 } demoCpi m2 sessMetas sessPay ∧ process { signEnv with slot := 150 } demoCpi m2 sessMetas sessPay = .ok m3 ∧
    signEnv.slot + rd (sessionIx 60) 8 8 = 160 := by
  have k1 : (match process signEnv demoCpi (mem (sessWallet 60 (zeros 32) 0 none)) (metas (K 11)) (sessionIx 60) with
    | .ok m1 => decide ((m1 (K 1)).data = (sessWallet 60 (K 30) 160 none).encode ∧ (m1 (K 1)).owner = swigId) | _ => false) = true := by
    decide +kernel
  have k2 : ok (process { signEnv with slot := 150 } demoCpi (mem (sessWallet 60 (K 30) 160 (some (K 20)))) sessMetas sessPay) = true := by
    decide +kernel
  obtain ⟨m3, h3⟩ := exists_of_ok k2
  split at k1
  · rename_i m1 h1
    obtain ⟨g1, g2⟩ := of_decide_eq_true k1
    refine ⟨m1, mem (sessWallet 60 (K 30) 160 (some (K 20))), m3, ⟨rfl, by decide +kernel, rfl⟩, ⟨by decide, by decide⟩, h1, ?_, by decide, by decide, ?_, h3, by decide⟩
    · exact .trans (.outside g1.symm g2.symm) (step (w := sessWallet 60 (K 30) 160 none) (w1 := sessWallet 60 (K 30) 160 (some (K 20)))
        (swig := ⟨K 1, false, true⟩) (rest := [⟨K 10, true, true⟩, ⟨systemId, false, false⟩]) (ix := claimerIx) rfl rfl (by decide) (by decide +kernel)
        (by decide) ⟨by unfold StartsSession; decide, by unfold Rekeys; decide⟩ (by decide +kernel))
    · exact fine (env := { signEnv with slot := 150 }) (m := mem (sessWallet 60 (K 30) 160 (some (K 20)))) (swig := signSwig) (w := sessWallet 60 (K 30) 160 (some (K 20)))
        (fun _ => rfl) (by decide) ⟨rfl, by decide +kernel, rfl⟩ (mem_typed _) rfl (by decide) (by decide +kernel)
  · cases k1

end Sample

open Sample in
/-- C121 is false for very long sessions: where the maximum is not limited, a session of 2^64 - 1 slots is accepted, and has ended before it began, because the
addition to the current slot wraps around: the payment the session key could otherwise make is refused in the same slot. -/
theorem C121_refuted : ∃ (env : Env) (cpi : Cpi) (m m1 : Mem) (start metas : List Meta) (ix0 ix : Bytes) (w : Wallet) (k : Key) (a : Meta),
    Open m k w ∧ StartsSession ix0 2 ∧ rd ix0 8 8 = 2 ^ 64 - 1 ∧ process env cpi m start ix0 = .ok m1 ∧ actingRole ix = 2 ∧
    metas[4]? = some a ∧ a.key = sl ix0 16 48 ∧ a.signer = true ∧ ix.drop (credentialAt ix) = [4] ∧
    process env cpi m1 metas ix = .error E.au_permissionDeniedSessionExpired := by
  have k1 : (match process signEnv demoCpi (mem (sessWallet (2 ^ 64 - 1) (zeros 32) 0 none)) (metas (K 11)) (sessionIx (2 ^ 64 - 1)) with
    | .ok m1 => (match process signEnv demoCpi m1 sessMetas sessPay with | .error e => decide (e = E.au_permissionDeniedSessionExpired) | _ => false) | _ => false) = true := by
    decide +kernel
  split at k1
  · rename_i m1 h1
    refine ⟨signEnv, demoCpi, _, m1, _, sessMetas, _, sessPay, sessWallet (2 ^ 64 - 1) (zeros 32) 0 none, K 1, ⟨K 30, true, true⟩, ⟨rfl, by decide +kernel, rfl⟩, ⟨by decide, by decide⟩,
      by decide +kernel, h1, by decide, rfl, by decide +kernel, rfl, by decide, ?_⟩
    split at k1
    · rename_i e he
      rw [he, of_decide_eq_true k1]
    · cases k1
  · cases k1

end Verif
