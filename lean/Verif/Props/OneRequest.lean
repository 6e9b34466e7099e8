import Verif.Proofs.OneRequest
import Verif.Props.Lifetime
import Verif.Props.AcceptCred
import Verif.Props.Sub

/-!
# Property C119: a signature authorises one request of one role

Vocabulary: Spec/Authn.lean (`credentialAt`, `signedPart`: what a signature covers), Spec/OneRequest.lean.
-/

namespace Verif

namespace Sample

/-- Roles 1 and 2 are secp256k1 roles with the same key, each with its own limit of 500 lamports. -/
def sharedWallet : Wallet :=
  { wallet with
    roleCounter := 3
    roles := [root, ⟨3, 1, 2 :: zeros 32 ++ zeros 3 ++ natLE 4 0, [⟨1, natLE 8 500⟩, ⟨3, systemId⟩]⟩,
      ⟨3, 2, 2 :: zeros 32 ++ zeros 3 ++ natLE 4 0, [⟨1, natLE 8 500⟩, ⟨3, systemId⟩]⟩] }

/-- The payment of `replayIx`, with the role id `id`. -/
def sharedIx (id : Nat) : Bytes :=
  natLE 2 11 ++ natLE 2 (1 :: paySol 7).length ++ natLE 4 id ++ (1 :: paySol 7) ++ (natLE 8 90 ++ natLE 4 1 ++ (K 1 ++ K 2) ++ [27])

end Sample

open Sample in
/-- C119 is false of the code as it stands: one signature of a payment of 7 lamports is executed twice, because signing requests do not sign
the acting role and two roles of a wallet may have the same key: the second time only the role id in the request is changed, by anybody.
Recovery accepts a single message and signature, so the key has signed nothing else. -/
theorem C119_refuted : ∃ (env : Env) (cpi : Cpi) (m0 m1 m2 : Mem) (metas : List Meta) (ix ix' : Bytes) (w : Wallet) (k address : Key),
    Open m0 k w ∧ process env cpi m0 metas ix = .ok m1 ∧ process env cpi m1 metas ix' = .ok m2 ∧ actingRole ix = 1 ∧ actingRole ix' = 2 ∧
    ix.take 4 = ix'.take 4 ∧ ix.drop 8 = ix'.drop 8 ∧
    (∃ msg sig, ∀ h i s, env.recover h i s ≠ none → h = msg ∧ s = sig) ∧
    (m1 address).lamports + 7 = (m0 address).lamports ∧ (m2 address).lamports + 14 = (m0 address).lamports := by
  have key : (match process replayEnv demoCpi (mem sharedWallet) replayMetas (sharedIx 1) with
    | .ok m1 => (match process replayEnv demoCpi m1 replayMetas (sharedIx 2) with
      | .ok m2 => decide ((m1 (K 2)).lamports + 7 = 5000000000 ∧ (m2 (K 2)).lamports + 14 = 5000000000)
      | _ => false) | _ => false) = true := by
    decide +kernel
  split at key
  · rename_i m1 h1
    split at key
    · rename_i m2 h2
      obtain ⟨g1, g2⟩ := of_decide_eq_true key
      refine ⟨replayEnv, demoCpi, mem sharedWallet, m1, m2, replayMetas, _, _, sharedWallet, K 1, K 2,
        ⟨rfl, by decide +kernel, rfl⟩, h1, h2, by decide, by decide, by decide, by decide,
        ⟨k1Hash signEnv (1 :: paySol 7) replayMetas 90 1 [], K 1 ++ K 2, fun h i s hn => ?_⟩, g1, g2⟩
      by_cases hc : h = k1Hash signEnv (1 :: paySol 7) replayMetas 90 1 [] ∧ s = K 1 ++ K 2
      · exact hc
      · exact (hn (if_neg hc)).elim
    · cases key
  · cases key

section
variable {env env' : Env} {cpi cpi' : Cpi} {m1 m1' m2 m2' : Mem} {swig second : Meta} {rest : List Meta} {ix ix' : Bytes} {w w' : Wallet}

/-- The stored record of a secp256r1 role holds a key. -/
theorem auth_len {k : Key} (ho : Open m1 k w) {id : Nat} {r : Role} (hr : w.role? id = some r) (ht : r.authType = 5) : 33 ≤ r.auth.length := by
  obtain ⟨a, g1, g2, g3⟩ := Auth.decode r.authType r.auth (ho.wf.roles r (role?_mem hr).1).auth
  rw [ht] at g2
  rcases a with ⟨c, s⟩
  have h := g1.cred
  cases c <;> cases s <;> simp [Auth.ty] at g2
  obtain ⟨h, _, _⟩ := h
  rw [← g3]
  simp [Auth.encode, Cred.encode, h]

/-- Partial: two requests for a wallet, with the same accounts, whose signatures cover the same bytes either have the same number, the same
acting role and the same bytes up to the credential, or both sign inner instructions only (SignV2, SubAccountSignV1).  So what was signed for a
management request is never executed as a payment, nor the other way round.  Missing: SignV2 and SubAccountSignV1 do not sign the role
(`C119_refuted`). -/
theorem C119_request_partial (ho : (m1 swig.key).owner = swigId) (ho' : (m2 swig.key).owner = swigId)
    (hx : NoProgram cpi swig.key) (hx' : NoProgram cpi' swig.key)
    (e : process env cpi m1 (swig :: rest) ix = .ok m1') (e' : process env' cpi' m2 (swig :: rest) ix' = .ok m2')
    (hs : signedPart ix = signedPart ix') :
    (rd ix 0 2 = rd ix' 0 2 ∧ actingRole ix = actingRole ix' ∧ ix.take (credentialAt ix) = ix'.take (credentialAt ix')) ∨
    (SignsCalls ix ∧ SignsCalls ix') := by
  by_cases h : SignsCalls ix
  · by_cases h' : SignsCalls ix'
    · exact .inr ⟨h, h'⟩
    · exact (calls_first_account h (known_number ho' e') h' hx hs e).elim
  · by_cases h' : SignsCalls ix'
    · exact (calls_first_account h' (known_number ho e) h hx' hs.symm e').elim
    · refine .inl ?_
      unfold SignsCalls at h h'
      unfold signedPart at hs
      rw [if_neg (by omega), if_neg (by omega), if_neg (by omega), if_neg (by omega)] at hs
      obtain ⟨g1, g2, _⟩ := named_before hs
      exact ⟨g1, g2, hs⟩

/-- The credential of one accepted request, sent with the same accounts and the same signed bytes, is accepted for another secp256k1 role (or later
for the same role) only if that role has the same key and expects the same counter. -/
theorem C119_same_key (ho : Open m1 swig.key w) (ho' : Open m2 swig.key w') (hf : Fine env cpi m1 (swig :: rest) ix)
    (hf' : Fine env' cpi' m2 (swig :: rest) ix') (e : process env cpi m1 (swig :: rest) ix = .ok m1')
    (e' : process env' cpi' m2 (swig :: rest) ix' = .ok m2') {r r' : Role} (hr : w.role? (actingRole ix) = some r) (ht : r.authType = 3)
    (hr' : w'.role? (actingRole ix') = some r') (ht' : r'.authType = 3)
    (hrec : env'.recover = env.recover) (hkec : env'.keccak = env.keccak) (hsha : env'.sha256 = env.sha256)
    (hs : signedPart ix = signedPart ix') (hc : ix.drop (credentialAt ix) = ix'.drop (credentialAt ix')) :
    r.auth.take 33 = r'.auth.take 33 ∧ (rd r.auth 36 4 + 1) % 2 ^ 32 = (rd r'.auth 36 4 + 1) % 2 ^ 32 := by
  obtain ⟨slot, rs, v, pfx, key, c1, c2, _, _, c3, c4⟩ := C76_secp256k1 ho hf e hr ht
  obtain ⟨slot', rs', v', pfx', key', d1, d2, _, _, d3, d4⟩ := C76_secp256k1 ho' hf' e' hr' ht'
  rw [c1, d1] at hc
  simp only [List.append_assoc] at hc
  obtain ⟨e1, hc⟩ := List.append_inj hc (by simp)
  obtain ⟨e2, hc⟩ := List.append_inj hc (by simp)
  obtain ⟨e3, hc⟩ := List.append_inj hc (by omega)
  obtain ⟨e4, e5⟩ := List.append_inj hc (by simp)
  cases e4
  rw [hrec, hkec, hsha, ← hs, ← e1, ← e2, ← e3, ← e5] at d3
  cases c3.symm.trans d3
  exact ⟨c4.symm.trans d4, natLE_inj (Nat.mod_lt _ (by decide)) (Nat.mod_lt _ (by decide)) e2⟩

/-- A request acting as a secp256r1 role directly follows, in its transaction, an instruction with which the precompile checks a signature by the key of the role.
What is signed is made from the signed part of the request, all its accounts, a slot at most 60 slots old and the next counter. -/
theorem C76_secp256r1 (ho : Open m1 swig.key w) (hf : Fine env cpi m1 (swig :: rest) ix) (e : process env cpi m1 (swig :: rest) ix = .ok m1') {r : Role}
    (hr : w.role? (actingRole ix) = some r) (ht : r.authType = 5) {ixs : List TxIx} {cur : Nat} (hx : TxOk ixs cur)
    (hsys : (m1 instructionsSysvarId).data = sysvarEncode ixs cur) : ∃ slot more msg x i,
      ix.drop (credentialAt ix) = natLE 8 slot ++ natLE 4 ((rd r.auth 36 4 + 1) % 2 ^ 32) ++ more ∧ slot ≤ env.slot ∧ env.slot ≤ slot + 60 ∧
      r1Message env (env.keccak (signedPart ix ++ accountRecords (swig :: rest) ++ natLE 8 slot ++ natLE 4 ((rd r.auth 36 4 + 1) % 2 ^ 32)))
        (more.drop 5) = .ok msg ∧
      i + 1 = cur ∧ ixs[i]? = some x ∧ x.program = secp256r1Id ∧ PrecompileData x.data (r.auth.take 33) msg := by
  obtain ⟨r', a, h1, h2, h3, h4, h5⟩ := C76_authenticates ho hf e
  cases hr.symm.trans h1
  rw [ht] at h3
  have hc : ∃ pk pad n, a.cred = .secp256r1 pk pad n ∧ a.session = none := by
    rcases a with ⟨c, s⟩
    cases c <;> cases s <;> simp [Auth.ty] at h3 ⊢
  obtain ⟨pk, pad, n, hc, hs⟩ := hc
  rw [hs, ite_self, hsys] at h5
  obtain ⟨b, h5⟩ := h5
  obtain ⟨_, q1, q2, ⟨q3, q4⟩, _, _, msg, x, i, q5, q6⟩ := (C112_secp256r1 env a pk pad n _ ixs cur _ _ b h2 hc hx).mp h5
  obtain ⟨f1, f2, _⟩ := Cred.secp_fields h2.cred (pk := pk) (n := n) (by rw [hc]; rfl)
    (match a.session with | none => [] | some s => s.encode) 0
  change sl a.encode 0 33 = pk at f1
  change odometer a.encode = n at f2
  rw [h4] at f1 f2
  have f2 : rd r.auth 36 4 = n := f2
  generalize hcr : ix.drop (credentialAt ix) = cr at q1 q2 q3 q4 q5
  rw [q2] at q5
  refine ⟨rd cr 0 8, cr.drop 12, msg, x, i, ?_, q3, q4, ?_, ?_⟩
  · rw [f2, ← q2]
    have e1 : natLE 8 (rd cr 0 8) = sl cr 0 8 := natLE_rd (by omega)
    have e2 : natLE 4 (rd cr 8 4) = sl cr 8 12 := natLE_rd (by omega)
    rw [e1, e2]
    simp [sl, List.append_assoc]
    rw [← List.drop_drop (i := 4) (j := 8), List.take_append_drop, List.take_append_drop]
  · rw [f2, List.drop_drop]; exact q5
  · have : r.auth.take 33 = pk := by rw [← f1]; simp [sl]
    rw [this]; exact q6

/-- The same for secp256r1 roles: where the signature checked just before is the same, the credential of one accepted request is
accepted for another role, or for other bytes, only if that role has the same key and expects the same counter. -/
theorem C119_same_key_r1 (ho : Open m1 swig.key w) (ho' : Open m2 swig.key w') (hf : Fine env cpi m1 (swig :: rest) ix)
    (hf' : Fine env' cpi' m2 (swig :: rest) ix') (e : process env cpi m1 (swig :: rest) ix = .ok m1')
    (e' : process env' cpi' m2 (swig :: rest) ix' = .ok m2') {r r' : Role} (hr : w.role? (actingRole ix) = some r) (ht : r.authType = 5)
    (hr' : w'.role? (actingRole ix') = some r') (ht' : r'.authType = 5) {ixs ixs' : List TxIx} {i i' : Nat} (hx : TxOk ixs (i + 1)) (hx' : TxOk ixs' (i' + 1))
    (hsys : (m1 instructionsSysvarId).data = sysvarEncode ixs (i + 1)) (hsys' : (m2 instructionsSysvarId).data = sysvarEncode ixs' (i' + 1))
    (hsig : (ixs[i]?).map TxIx.data = (ixs'[i']?).map TxIx.data)
    (hc : ix.drop (credentialAt ix) = ix'.drop (credentialAt ix')) :
    r.auth.take 33 = r'.auth.take 33 ∧ (rd r.auth 36 4 + 1) % 2 ^ 32 = (rd r'.auth 36 4 + 1) % 2 ^ 32 := by
  obtain ⟨slot, more, msg, x, j, c1, _, _, _, c2, c3, _, y, pos, sig, tail, c4, _, _, c5⟩ := C76_secp256r1 ho hf e hr ht hx hsys
  obtain ⟨slot', more', msg', x', j', d1, _, _, _, d2, d3, _, y', pos', sig', tail', d4, _, _, d5⟩ := C76_secp256r1 ho' hf' e' hr' ht' hx' hsys'
  cases Nat.add_right_cancel c2
  cases Nat.add_right_cancel d2
  have l1 := (auth_len ho hr ht)
  have l2 := (auth_len ho' hr' ht')
  rw [c1, d1] at hc
  simp only [List.append_assoc] at hc
  obtain ⟨_, hc⟩ := List.append_inj hc (by simp)
  obtain ⟨e2, _⟩ := List.append_inj hc (by simp)
  refine ⟨?_, natLE_inj (Nat.mod_lt _ (by decide)) (Nat.mod_lt _ (by decide)) e2⟩
  rw [c3, d3] at hsig
  have hd : x.data = x'.data := Option.some.inj hsig
  rw [c5, d5] at hd
  simp only [List.append_assoc] at hd
  iterate 8 obtain ⟨_, hd⟩ := List.append_inj hd (by simp)
  exact (List.append_inj hd (by simp [l1, l2])).1

/-- Bytes signed for a payment from the wallet address (SignV2), whose first instruction uses the signature of that address, are not
executed for a V1 sub-account, nor the other way round, unless two different derivations give the same address. -/
theorem C119_sub_account (hpda : env'.pda = env.pda) (hn : rd ix 0 2 = 11) (hn' : rd ix' 0 2 = 9)
    (e : process env cpi m1 (swig :: second :: rest) ix = .ok m1') (e' : process env' cpi' m2 (swig :: second :: rest) ix' = .ok m2')
    (hs : signedPart ix = signedPart ix') {i : Inner} {more : List Inner}
    (hd : decodeIxs (swig :: second :: rest) second.key [] (signedPart ix) = .ok (i :: more))
    (hi : ∃ a ∈ i.accounts, a.signer = true ∧ a.key = second.key)
    (hsig : ∀ a ∈ swig :: second :: rest, a.key = second.key → a.signer = false) : AddressCollision env := by
  obtain ⟨s1, more1, ixs1, seeds1, h1, hd1, hw1, _, hrun1⟩ := signs_first (.inr hn) e
  obtain ⟨s2, more2, ixs2, seeds2, h2, hd2, _, hw2, hrun2⟩ := signs_first (.inl hn') e'
  cases h1
  cases h2
  rw [← hs] at hd2
  cases hd.symm.trans hd1
  cases hd.symm.trans hd2
  obtain ⟨x, hx, hxs, hxk⟩ := hi
  have none : ¬ ∃ o ∈ swig :: second :: rest, o.key = x.key ∧ o.signer = true := by
    rintro ⟨o, ho, h1, h2⟩
    rw [hsig o ho (h1.trans hxk)] at h2
    cases h2
  obtain ⟨_, _, hown1, x1⟩ := hrun1 i more rfl
  obtain ⟨_, k1, hk1, c1⟩ := execInner_calls hown1 x1
  obtain ⟨_, _, hown2, x2⟩ := hrun2 i more rfl
  obtain ⟨_, k2, hk2, c2⟩ := execInner_calls hown2 x2
  have g1 := (c1 x hx hxs).resolve_right none
  have g2 := (c2 x hx hxs).resolve_right none
  obtain ⟨b, rfl⟩ := hw1 hn
  obtain ⟨id, role, b', rfl⟩ := hw2 hn'
  refine ⟨_, subSeeds id role ++ [[b']], k1, ?_, hk1, ?_⟩
  · intro h
    have := congrArg List.length h
    simp [walletSeeds, subSeeds] at this
  · rw [← hpda, hk2, ← g1, ← g2]

end

namespace Sample

theorem demo_noProgram : NoProgram demoCpi (K 1) := by
  intro m c m' h e
  unfold demoCpi at e
  rw [h, if_neg (by decide), if_neg (by decide)] at e
  cases e

/-- The hypotheses of C119_request_partial and C119_same_key hold: the payment as role 1 and as role 2. -/
example : ∃ a b, Open (mem sharedWallet) (K 1) sharedWallet ∧ NoProgram demoCpi (K 1) ∧
    Fine anyEnv demoCpi (mem sharedWallet) replayMetas (sharedIx 1) ∧ Fine anyEnv demoCpi (mem sharedWallet) replayMetas (sharedIx 2) ∧
    process anyEnv demoCpi (mem sharedWallet) replayMetas (sharedIx 1) = .ok a ∧
    process anyEnv demoCpi (mem sharedWallet) replayMetas (sharedIx 2) = .ok b ∧
    (∃ r, sharedWallet.role? (actingRole (sharedIx 1)) = some r ∧ r.authType = 3) ∧
    (∃ r, sharedWallet.role? (actingRole (sharedIx 2)) = some r ∧ r.authType = 3) ∧
    signedPart (sharedIx 1) = signedPart (sharedIx 2) ∧
    (sharedIx 1).drop (credentialAt (sharedIx 1)) = (sharedIx 2).drop (credentialAt (sharedIx 2)) := by
  obtain ⟨a, ha⟩ := exists_of_ok (x := process anyEnv demoCpi (mem sharedWallet) replayMetas (sharedIx 1)) (by decide +kernel)
  obtain ⟨b, hb⟩ := exists_of_ok (x := process anyEnv demoCpi (mem sharedWallet) replayMetas (sharedIx 2)) (by decide +kernel)
  exact ⟨a, b, ⟨rfl, by decide +kernel, rfl⟩, demo_noProgram, anyFine (by decide +kernel), anyFine (by decide +kernel), ha, hb,
    ⟨_, rfl, rfl⟩, ⟨_, rfl, rfl⟩, by decide, by decide⟩

/-- Roles 1 and 2 are secp256r1 roles with the same key. -/
def sharedR1 : Wallet :=
  { sharedWallet with roles := sharedWallet.roles.map fun r => if r.authType = 3 then { r with authType := 5 } else r }

def r1Metas : List Meta := signSwig :: signAddr :: [⟨systemId, false, false⟩, ⟨K 11, true, true⟩, ⟨instructionsSysvarId, false, false⟩, ⟨K 40, false, true⟩]

/-- The payment with the role id `id`, for secp256r1. -/
def sharedR1Ix (id : Nat) : Bytes :=
  natLE 2 11 ++ natLE 2 (1 :: paySol 7).length ++ natLE 4 id ++ (1 :: paySol 7) ++ (natLE 8 90 ++ natLE 4 1 ++ [4] ++ zeros 4)

def sharedR1Msg : Bytes := (1 :: paySol 7) ++ accountRecords r1Metas ++ natLE 8 90 ++ natLE 4 1

/-- The precompile checks the signature in the instruction before. -/
def sharedR1Tx : List TxIx :=
  [⟨secp256r1Id, [], [1, 0] ++ natLE 2 49 ++ natLE 2 0xFFFF ++ natLE 2 16 ++ natLE 2 0xFFFF ++ natLE 2 113 ++ natLE 2 sharedR1Msg.length ++ natLE 2 0xFFFF ++
    (2 :: zeros 32) ++ zeros 64 ++ sharedR1Msg⟩, ⟨swigId, r1Metas, []⟩]

def sharedR1Mem : Mem := (mem sharedR1).setData instructionsSysvarId (sysvarEncode sharedR1Tx 1)

/-- The hypotheses of C76_secp256r1 and C119_same_key_r1 hold: the payment as role 1 and as role 2. -/
example : ∃ a b, Open sharedR1Mem (K 1) sharedR1 ∧ TxOk sharedR1Tx 1 ∧ (sharedR1Mem instructionsSysvarId).data = sysvarEncode sharedR1Tx 1 ∧
    Fine anyEnv demoCpi sharedR1Mem r1Metas (sharedR1Ix 1) ∧ Fine anyEnv demoCpi sharedR1Mem r1Metas (sharedR1Ix 2) ∧
    process anyEnv demoCpi sharedR1Mem r1Metas (sharedR1Ix 1) = .ok a ∧ process anyEnv demoCpi sharedR1Mem r1Metas (sharedR1Ix 2) = .ok b ∧
    (∃ r, sharedR1.role? (actingRole (sharedR1Ix 1)) = some r ∧ r.authType = 5) ∧
    (∃ r, sharedR1.role? (actingRole (sharedR1Ix 2)) = some r ∧ r.authType = 5) ∧
    (sharedR1Ix 1).drop (credentialAt (sharedR1Ix 1)) = (sharedR1Ix 2).drop (credentialAt (sharedR1Ix 2)) := by
  obtain ⟨a, ha⟩ := exists_of_ok (x := process anyEnv demoCpi sharedR1Mem r1Metas (sharedR1Ix 1)) (by decide +kernel)
  obtain ⟨b, hb⟩ := exists_of_ok (x := process anyEnv demoCpi sharedR1Mem r1Metas (sharedR1Ix 2)) (by decide +kernel)
  have ho : Open sharedR1Mem (K 1) sharedR1 := ⟨by decide +kernel, by decide +kernel, by decide +kernel⟩
  have hf : ∀ ix, Fine anyEnv demoCpi sharedR1Mem r1Metas ix := fun ix =>
    fine (env := anyEnv) (m := sharedR1Mem) (swig := signSwig) (fun _ => rfl) (by decide) ho (setData_typed (mem_typed _) _ _) rfl (by decide +kernel) (by decide)
  exact ⟨a, b, ho, ⟨by decide, by decide +kernel, by decide +kernel⟩, by decide +kernel, hf _, hf _, ha, hb,
    ⟨_, rfl, rfl⟩, ⟨_, rfl, rfl⟩, by decide⟩

/-- C119_request_partial is not only about signing: the owner adds the same role twice. -/
example : ∃ a b, process signEnv demoCpi (mem afterPay) (metas (K 10)) addIx = .ok a ∧ process signEnv demoCpi a (metas (K 10)) addIx = .ok b ∧
    ¬ SignsCalls addIx := by
  have key : (match process signEnv demoCpi (mem afterPay) (metas (K 10)) addIx with
    | .ok a => (match process signEnv demoCpi a (metas (K 10)) addIx with | .ok _ => true | _ => false) | _ => false) = true := by
    decide +kernel
  split at key
  · rename_i a h1
    split at key
    · rename_i b h2
      exact ⟨a, b, h1, h2, by unfold SignsCalls; decide⟩
    · cases key
  · cases key

/-- All derived addresses are `K 3`. -/
def clashEnv : Env := { signEnv with pda := fun _ => some (K 3) }

def clashMetas : List Meta := v1SignMetas ++ [⟨K 10, true, true⟩]

/-- The payload of `v1SignIx` as a SignV2 of the owner. -/
def clashIx : Bytes :=
  natLE 2 11 ++ natLE 2 19 ++ natLE 4 0 ++ ([1] ++ [2, 2, 1, 4] ++ natLE 2 12 ++ natLE 4 2 ++ natLE 8 5) ++ [5]

/-- The hypotheses of C119_sub_account hold where the address of the wallet and that of the sub-account are the same. -/
example : ∃ a b i, rd clashIx 0 2 = 11 ∧ rd v1SignIx 0 2 = 9 ∧ process clashEnv demoCpi (v1Mem 1) clashMetas clashIx = .ok a ∧
    process clashEnv demoCpi (v1Mem 1) clashMetas v1SignIx = .ok b ∧ signedPart clashIx = signedPart v1SignIx ∧
    decodeIxs clashMetas (K 3) [] (signedPart clashIx) = .ok [i] ∧ (∃ x ∈ i.accounts, x.signer = true ∧ x.key = K 3) ∧
    ∀ x ∈ clashMetas, x.key = K 3 → x.signer = false := by
  obtain ⟨a, ha⟩ := exists_of_ok (x := process clashEnv demoCpi (v1Mem 1) clashMetas clashIx) (by decide +kernel)
  obtain ⟨b, hb⟩ := exists_of_ok (x := process clashEnv demoCpi (v1Mem 1) clashMetas v1SignIx) (by decide +kernel)
  exact ⟨a, b, _, by decide, by decide, ha, hb, by decide, rfl, by decide, by decide⟩

end Sample

end Verif
