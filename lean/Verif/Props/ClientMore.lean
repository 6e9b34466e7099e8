import Verif.Props.Client
import Verif.Props.Close
import Verif.Props.Sub
import Verif.Proofs.ClientMore
import Verif.Proofs.LiveSign
import Verif.Proofs.Frame

/-!
# Property C77: closing and sub-accounts with the client library

The builders are those of Verif/Model/Client.lean, `Ready`, `ActsFor`, `Canonical` and `SubAt` are in Verif/Spec/Client.lean.
-/

namespace Verif
open Client

theorem closeSwig_formed {env : Env} {swig wallet dst : Key} {role : Nat} {c : Caller} {b : Built}
    (hb : closeSwig env swig wallet dst role c = some b) :
    Formed env (roleData 15 0 role) (roleData 15 0 role) c b ∧
      ∃ tl, b.accounts = w swig :: w wallet :: w dst :: ro systemId :: tl ∧ tl.length ≤ 1 := by
  cases c with
  | ed25519 k => cases hb; exact ⟨.ed25519 (m := ros k) rfl rfl rfl, _, rfl, by simp⟩
  | secp256k1 sign slot counter => cases hb; exact ⟨.secp256k1 (by simp [roleData]), _, rfl, by simp⟩
  | secp256r1 sign pk slot counter =>
    cases hb; exact ⟨.secp256r1 (m := ro instructionsSysvarId) (by simp [roleData]) rfl rfl, _, rfl, by simp⟩
  | exec p t => cases hb

theorem parseRoleIx_built {n u role : Nat} {payload : Bytes} {short : Err} (h : role < 2 ^ 32) :
    parseRoleIx (roleData n u role ++ payload) short = .ok ⟨role, roleData n u role, payload⟩ := by
  have hl : (roleData n u role).length = 8 := by simp [roleData]
  have r4 : rd (roleData n u role ++ payload) 4 4 = role := by
    have := rd_full 4 role (by simpa using h) (natLE 2 n ++ natLE 2 u) payload (i := 4) (by simp)
    simpa [List.append_assoc, roleData] using this
  unfold parseRoleIx
  rw [if_neg (by simp [hl]), r4, ← hl, List.take_left, List.drop_left]

theorem closeSwigV1_owner {env : Env} {m m' : Mem} {swig wallet dst sys : Meta} {rest : List Meta} {ix : Bytes} {w : Wallet}
    (hw : w.WF) (hd : (m swig.key).data = w.encode) (h : closeSwigV1 env m (swig :: wallet :: dst :: sys :: rest) ix = .ok m') :
    (m' swig.key).owner = swigId := by
  obtain ⟨a, r, m1, b, hp, ho, _, _, _, _, _, _, h1, h2⟩ := closeSwigV1_enc hw hd h
  have h : Has swig.key (fun _ => True) m1 := by
    have hown : Has swig.key (fun _ => True) (m.setData swig.key (w.used a.role).encode) := ⟨by simpa using ho, trivial⟩
    unfold drainWallet at h1
    split at h1
    · exact hown.signedTransfer h1
    · cases h1; exact hown
  rw [h2, Mem.setData_owner]
  unfold closeLamports
  simpa using h.1

/-- Closing a wallet that has nothing left but rent: the request succeeds, the configuration account keeps one byte saying that it is
closed and the rent of it, everything else goes to the destination. -/
theorem C77_close {env : Env} {cpi : Cpi} {m : Mem} {metas : List Meta} {swig wallet dst : Key} {w : Wallet} {role : Nat}
    {r : Role} {a : Auth} {c : Caller} {b : Built} {pre post : List TxIx} (hh : HashLength env)
    (hb : closeSwig env swig wallet dst role c = some b)
    (hr : Ready env m swig w role r a metas b pre post) (ho : ActsFor env a metas b pre c)
    (hperm : r.holds P.all ∨ r.holds P.manageAuthority ∨ r.holds P.closeSwigAuthority)
    (hcl : w.claimer = none ∨ w.claimer = some dst) (hcan : Canonical env (walletSeeds swig) w.walletBump wallet)
    (hwal : (m wallet).owner = systemId ∧ (m wallet).data = [])
    (hkeys : dst ≠ swig ∧ dst ≠ wallet ∧ wallet ≠ systemId ∧ dst ≠ systemId)
    (h1 : (m swig).lamports ≤ env.rent w.encode.length) (h2 : (m wallet).lamports ≤ env.rent 0)
    (hrent : 0 < env.rent 1 ∧ env.rent 1 ≤ (m swig).lamports)
    (hsum : (m swig).lamports + (m wallet).lamports + (m dst).lamports < 2 ^ 64) :
    ∃ m', process env cpi m metas b.data = .ok m' ∧ (m' swig).data = [255] ∧ (m' swig).lamports = env.rent 1 ∧
      (m' wallet).lamports = 0 ∧ (m' dst).lamports = (m dst).lamports + (m wallet).lamports + ((m swig).lamports - env.rent 1) ∧
      (m' swig).owner = swigId ∧ ∀ k, k ≠ swig → k ≠ wallet → k ≠ dst → m' k = m k := by
  obtain ⟨hf, tl, hacc, htl⟩ := closeSwig_formed hb
  obtain ⟨payload, hd, hact⟩ := authOf_ready hh hr hf ho
  have hprom := hr.sent.accounts
  rw [hacc] at hprom
  obtain ⟨s, rest, rfl, k1, _, _, hprom⟩ := hprom.cons
  obtain ⟨x, rest, rfl, k2, _, w2, hprom⟩ := hprom.cons
  obtain ⟨d, rest, rfl, k3, _, w3, hprom⟩ := hprom.cons
  obtain ⟨y, rest, rfl, k4, _, _, hprom⟩ := hprom.cons
  have k1 : s.key = swig := k1
  have k2 : x.key = wallet := k2
  have k3 : d.key = dst := k3
  have k4 : y.key = systemId := k4
  have hl := hprom.length
  have hparse := parseRoleIx_built (n := 15) (u := 0) (payload := payload) (short := E.invalidInstructionDataTooShort)
    (acting_lt hr.wf hr.role)
  have v2 := w2 rfl hkeys.2.2.1
  have v3 := w3 rfl hkeys.2.2.2
  rw [hd]
  have hst := hr.stored
  have how := hr.owned
  have hne : wallet ≠ swig := by
    rintro rfl
    rw [how] at hwal
    exact absurd hwal.1 (by decide)
  subst k1 k2 k3
  obtain ⟨cls, e⟩ := process_of (env := env) (cpi := cpi) (ix := roleData 15 0 role ++ payload) hr.wf hst how hr.plain
    (by simp; omega)
  obtain ⟨m', hm⟩ := closeSwigV1_of hr.wf hst how k4 hparse hact hperm hcl (findPda_canonical hcan) h1 h2 hne
    (fun _ => ⟨hcan.1, v2, v3, hwal.1, hwal.2⟩)
  refine ⟨m', ?_, ?_⟩
  · rw [e, dispatch, if_neg (by simp [roleData]), show rd (roleData 15 0 role ++ payload) 0 2 = 15 by
      simp only [roleData, List.append_assoc]; exact rd_here 2 15 _ (by decide)]
    exact hm
  · obtain ⟨_, _, g3, g4, g5, g6, _, g8⟩ := C44_close_conserves_partial hr.wf hst hm hkeys.1 hkeys.2.1 hrent hsum
    exact ⟨g5, g4, g3, g6, closeSwigV1_owner hr.wf hst hm, g8⟩

/-! ## V2 sub-accounts -/

theorem mayUse_scoped {r : Role} {ty id : Nat} (h : MayUse r ty id) : r.Scoped ty true id := by
  obtain ⟨x, h1, h2, h3⟩ := h
  exact ⟨x, h1, h2.imp (fun h => h) (fun h => ⟨rfl, h⟩), h3⟩

theorem isV2_of {w : Wallet} (h1 : w.walletBump ≠ 0) (h2 : w.pad = zeros 3) : isV2 w.header = true := by
  unfold isV2
  simp only [Wallet.header, h2]
  simpa using h1

theorem createSubV2_formed {env : Env} {swig payer state sub : Key} {role : Nat} {sb ab : UInt8} {c : Caller} {b : Built}
    (hb : Client.createSubV2 env swig payer state sub role sb ab c = some b) :
    Formed env (createSubV2Data role sb ab) (createSubV2Data role sb ab) c b ∧
      ∃ tl, b.accounts = w swig :: ws payer :: w state :: w sub :: ro systemId :: tl ∧ tl.length ≤ 1 := by
  cases c with
  | ed25519 k => cases hb; exact ⟨.ed25519 (m := ros k) rfl rfl rfl, _, rfl, by simp⟩
  | secp256k1 sign slot counter => cases hb; exact ⟨.secp256k1 (by simp), _, rfl, by simp⟩
  | secp256r1 sign pk slot counter =>
    cases hb; exact ⟨.secp256r1 (m := ro instructionsSysvarId) (by simp) rfl rfl, _, rfl, by simp⟩
  | exec p t => cases hb

theorem createSubV2_read {role : Nat} {sb ab : UInt8} {payload : Bytes} (h : role < 2 ^ 32) :
    rd (createSubV2Data role sb ab ++ payload) 4 4 = role ∧ (createSubV2Data role sb ab ++ payload).getD 8 0 = sb ∧
      (createSubV2Data role sb ab ++ payload).getD 9 0 = ab ∧ (createSubV2Data role sb ab ++ payload).take 16 = createSubV2Data role sb ab ∧
      (createSubV2Data role sb ab ++ payload).drop 16 = payload := by
  have hl : (createSubV2Data role sb ab).length = 16 := by simp [createSubV2Data]
  refine ⟨?_, rfl, rfl, ?_, ?_⟩
  · have := rd_full 4 role (by simpa using h) (natLE 2 18 ++ zeros 2) ([sb] ++ [ab] ++ zeros 6 ++ payload) (i := 4) (by simp)
    simpa [List.append_assoc, createSubV2Data] using this
  · rw [← hl, List.take_left]
  · rw [← hl, List.drop_left]

/-- Creating a V2 sub-account: its state account is written, enabled, with the next number, the number is used up, the creator holds the
grant for everything on it, no other role has changed. -/
theorem C77_create_sub {env : Env} {cpi : Cpi} {m : Mem} {metas : List Meta} {swig payer state sub : Key} {w : Wallet} {role : Nat}
    {r : Role} {a : Auth} {sb ab : UInt8} {c : Caller} {b : Built} {pre post : List TxIx} (hh : HashLength env)
    (hb : Client.createSubV2 env swig payer state sub role sb ab c = some b)
    (hr : Ready env m swig w role r a metas b pre post) (ho : ActsFor env a metas b pre c)
    (hv : w.walletBump ≠ 0 ∧ w.pad = zeros 3) (hperm : r.holds P.subAccountV2Create) (hnum : w.subCounter + 1 < 2 ^ 32)
    (hfresh : (m state).owner = systemId ∧ (m state).data = [] ∧ (m sub).owner = systemId)
    (hp1 : env.pda (subV2StateSeeds w.id (natLE 4 w.subCounter) ++ [[sb]]) = some state)
    (hp2 : env.pda (subV2Seeds w.id (natLE 4 w.subCounter) ++ [[ab]]) = some sub) (hsub : sub.length = 32)
    (hfr : ∀ x ∈ r.actions, x.Fresh) (h255 : r.actions.length < 255) (hsize : MayGrow w.encode.length 16)
    (hkeys : [payer, swig, state, sub, systemId].Nodup) (hpay : (m payer).owner = systemId ∧ (m payer).data = [])
    (hfunds : (env.rent 72 - (m state).lamports) + (env.rent 0 - (m sub).lamports) +
      (env.rent (w.encode.length + 16) - (m swig).lamports) ≤ (m payer).lamports) :
    ∃ m' acts, process env cpi m metas b.data = .ok m' ∧
      (m' swig).data = ({ w.used role with subCounter := w.subCounter + 1 }.setActions role acts).encode ∧
      (acts = r.actions ∨ acts = r.actions ++ [⟨P.subAccountV2All, natLE 4 w.subCounter ++ zeros 4⟩]) ∧
      MayUse { r with actions := acts } P.subAccountV2All w.subCounter ∧
      SubAt env m' w state sub w.subCounter true sb ab ∧
      ∀ k, k ≠ swig → k ≠ state → (m' k).data = (m k).data ∧ (m' k).owner = (m k).owner := by
  obtain ⟨hf, tl, hacc, htl⟩ := createSubV2_formed hb
  obtain ⟨payload, hd, hact⟩ := authOf_ready hh hr hf ho
  have hprom := hr.sent.accounts
  rw [hacc] at hprom
  obtain ⟨s, rest, rfl, k1, _, w1, hprom⟩ := hprom.cons
  obtain ⟨p, rest, rfl, k2, s2, w2, hprom⟩ := hprom.cons
  obtain ⟨x, rest, rfl, k3, _, w3, hprom⟩ := hprom.cons
  obtain ⟨y, rest, rfl, k4, _, w4, hprom⟩ := hprom.cons
  obtain ⟨z, rest, rfl, k5, _, _, hprom⟩ := hprom.cons
  have k1 : s.key = swig := k1
  have k2 : p.key = payer := k2
  have k3 : x.key = state := k3
  have k4 : y.key = sub := k4
  have k5 : z.key = systemId := k5
  have hl := hprom.length
  simp only [List.nodup_cons, List.mem_cons, List.not_mem_nil, or_false, not_or, not_false_eq_true, List.nodup_nil, and_true] at hkeys
  obtain ⟨⟨q1, q2, q3, q4⟩, ⟨q5, q6, q7⟩, ⟨q8, q9⟩, q10⟩ := hkeys
  have v1 := w1 rfl q7
  have v2 := w2 rfl q4
  have v3 := w3 rfl q9
  have v4 := w4 rfl q10
  have v5 := s2 rfl
  obtain ⟨i1, i2, i3, i4, i5⟩ := createSubV2_read (sb := sb) (ab := ab) (payload := payload) (acting_lt hr.wf hr.role)
  rw [hd]
  have hst := hr.stored
  have how := hr.owned
  subst k1 k2 k3 k4
  obtain ⟨cls, e⟩ := process_of (env := env) (cpi := cpi) (ix := createSubV2Data role sb ab ++ payload) hr.wf hst how hr.plain
    (by simp; omega)
  obtain ⟨m', hm⟩ := createSubV2_of (ix := createSubV2Data role sb ab ++ payload) hr.wf hst how (isV2_of hv.1 hv.2) k5
    (by simp [createSubV2Data]; omega) (by rw [i1, i4, i5]; exact hact) hperm hnum hfresh.1 hfresh.2.1 hfresh.2.2
    (by rw [i2]; exact hp1) (by rw [i3]; exact hp2) hfr h255 hsize
    ⟨⟨q1, q2, q3⟩, ⟨q8, Ne.symm q6⟩, v5, ⟨v2, v1, v3, v4⟩, hpay.1, hpay.2, hfunds⟩
  obtain ⟨r', g1, _, _, _, _, _, _, _, _, g10, _, g12, g13, g14, g15⟩ := createSubV2_enc hr.wf hst hm
  rw [i1] at g10
  rw [i1, i4, i5] at g1
  rw [i2, i3] at g13
  obtain rfl : r' = r := Option.some.inj (g1.1.symm.trans hr.role)
  refine ⟨m', r'.withAll w.subCounter, ?_, g10, ?_, ?_, ⟨g14, g13, hp1, hp2, hsub, by omega⟩, g15⟩
  · rw [e, dispatch, if_neg (by simp [createSubV2Data]), show rd (createSubV2Data role sb ab ++ payload) 0 2 = 18 by
      simp only [createSubV2Data, List.append_assoc]; exact rd_here 2 18 _ (by decide)]
    exact hm
  · unfold Role.withAll
    split
    · exact .inl rfl
    · exact .inr rfl
  · unfold Role.withAll
    split
    · rename_i hs
      obtain ⟨x, hx1, hx2, hx3⟩ := hs
      exact ⟨x, hx1, .inr (hx2.resolve_right (by simp)), hx3⟩
    · refine ⟨allGrant w.subCounter, by simp, .inr rfl, ?_⟩
      show leNat ((natLE 4 w.subCounter ++ zeros 4).take 4) = w.subCounter
      rw [List.take_left' (by simp)]
      exact leNat_natLE_of_lt (by omega)

theorem toggleSubV2_formed {env : Env} {swig payer state : Key} {role id : Nat} {en : Bool} {c : Caller} {b : Built}
    (hb : Client.toggleSubV2 env swig payer state role id en c = some b) :
    Formed env (toggleSubV2Data role id en) (toggleSubV2Data role id en) c b ∧
      ∃ tl, b.accounts = w swig :: ws payer :: w state :: tl ∧ tl.length ≤ 2 := by
  cases c with
  | ed25519 k => cases hb; exact ⟨.ed25519 (m := ros k) rfl rfl rfl, _, rfl, by simp⟩
  | secp256k1 sign slot counter => cases hb; exact ⟨.secp256k1 (by simp), _, rfl, by simp⟩
  | secp256r1 sign pk slot counter => cases hb; exact ⟨.secp256r1 (m := ro instructionsSysvarId) (by simp) rfl rfl, _, rfl, by simp⟩
  | exec p t => cases hb

theorem toggleSubV2_read {role id : Nat} {en : Bool} {payload : Bytes} (h : role < 2 ^ 32) (hid : id < 2 ^ 32) :
    rd (toggleSubV2Data role id en ++ payload) 4 4 = role ∧ rd (toggleSubV2Data role id en ++ payload) 8 4 = id ∧
      (toggleSubV2Data role id en ++ payload).getD 2 0 = (if en then 1 else 0) ∧
      (toggleSubV2Data role id en ++ payload).take 16 = toggleSubV2Data role id en ∧
      (toggleSubV2Data role id en ++ payload).drop 16 = payload := by
  have hl : (toggleSubV2Data role id en).length = 16 := by simp [toggleSubV2Data]
  refine ⟨?_, ?_, rfl, ?_, ?_⟩
  · have := rd_full 4 role (by simpa using h) (natLE 2 19 ++ [if en then 1 else 0] ++ zeros 1) (natLE 4 id ++ zeros 4 ++ payload)
      (i := 4) (by simp)
    simpa [List.append_assoc, toggleSubV2Data] using this
  · have := rd_full 4 id (by simpa using hid) (natLE 2 19 ++ [if en then 1 else 0] ++ zeros 1 ++ natLE 4 role) (zeros 4 ++ payload)
      (i := 8) (by simp)
    simpa [List.append_assoc, toggleSubV2Data] using this
  · rw [← hl, List.take_left]
  · rw [← hl, List.drop_left]

/-- Disabling or enabling a V2 sub-account: its state account then says so and is otherwise unchanged. -/
theorem C77_toggle_sub {env : Env} {cpi : Cpi} {m : Mem} {metas : List Meta} {swig payer state sub : Key} {w : Wallet} {role id : Nat}
    {r : Role} {a : Auth} {sb ab : UInt8} {was en : Bool} {c : Caller} {b : Built} {pre post : List TxIx} (hh : HashLength env)
    (hb : Client.toggleSubV2 env swig payer state role id en c = some b)
    (hr : Ready env m swig w role r a metas b pre post) (ho : ActsFor env a metas b pre c)
    (hv : w.walletBump ≠ 0 ∧ w.pad = zeros 3) (hsub : SubAt env m w state sub id was sb ab)
    (hperm : MayUse r P.subAccountV2Toggle id) :
    ∃ m', process env cpi m metas b.data = .ok m' ∧ (m' swig).data = (w.used role).encode ∧ SubAt env m' w state sub id en sb ab ∧
      (∀ k, (m' k).lamports = (m k).lamports ∧ (m' k).owner = (m k).owner) ∧
      ∀ k, k ≠ swig → k ≠ state → m' k = m k := by
  obtain ⟨hf, tl, hacc, htl⟩ := toggleSubV2_formed hb
  obtain ⟨payload, hd, hact⟩ := authOf_ready hh hr hf ho
  have hprom := hr.sent.accounts
  rw [hacc] at hprom
  obtain ⟨s, rest, rfl, k1, _, _, hprom⟩ := hprom.cons
  obtain ⟨p, rest, rfl, k2, _, _, hprom⟩ := hprom.cons
  obtain ⟨x, rest, rfl, k3, _, _, hprom⟩ := hprom.cons
  have k1 : s.key = swig := k1
  have k3 : x.key = state := k3
  have hl := hprom.length
  obtain ⟨i1, i2, i3, i4, i5⟩ := toggleSubV2_read (en := en) (payload := payload) (acting_lt hr.wf hr.role) hsub.idLt
  rw [hd]
  have hst := hr.stored
  have how := hr.owned
  subst k1 k3
  have hne := hsub.ne hst
  obtain ⟨f0, f1, f2, f3, f4, f5, f6⟩ := hsub.fields hr.wf
  obtain ⟨cls, e⟩ := process_of (env := env) (cpi := cpi) (ix := toggleSubV2Data role id en ++ payload) hr.wf hst how hr.plain
    (by simp; omega)
  obtain ⟨m', hm⟩ := toggleSubV2_of (ix := toggleSubV2Data role id en ++ payload) hr.wf hst how (isV2_of hv.1 hv.2)
    (by simp [toggleSubV2Data]; omega) (by rw [i3]; cases en <;> decide) (by rw [i1, i4, i5]; exact hact)
    (by rw [i2]; exact mayUse_scoped hperm) hne hsub.owner (hsub.len hr.wf) f0 (by rw [f3]; cases was <;> decide)
    (by rw [f4, i2]) f5 (by rw [i2, f1]; exact hsub.statePda)
  obtain ⟨_, _, _, _, _, _, _, _, _, _, _, _, g⟩ := toggleSubV2_enc hr.wf hst hm
  rw [i1, i3] at g
  refine ⟨m', ?_, ?_, ⟨?_, ?_, hsub.statePda, hsub.subPda, hsub.subLen, hsub.idLt⟩, ?_, ?_⟩
  · rw [e, dispatch, if_neg (by simp [toggleSubV2Data]), show rd (toggleSubV2Data role id en ++ payload) 0 2 = 19 by
      simp only [toggleSubV2Data, List.append_assoc]; exact rd_here 2 19 _ (by decide)]
    exact hm
  · rw [g, Mem.setData_other _ _ hne.symm]; simp
  · rw [g]; simpa using hsub.owner
  · rw [g, Mem.setData_data, hsub.data]
    cases was <;> cases en <;> rfl
  · intro k; rw [g]; simp
  · intro k h1 h2
    rw [g, Mem.setData_other _ _ h2, Mem.setData_other _ _ h1]

theorem withdrawSubV2_formed {env : Env} {swig payer state sub wallet : Key} {ts : Option Tokens} {role id n : Nat} {c : Caller} {b : Built}
    (hb : Client.withdrawSubV2 env swig payer state sub wallet ts role id n c = some b) :
    Formed env (withdrawSubV2Data role id n) (withdrawSubV2Data role id n) c b ∧
      ∃ x, b.accounts = w swig :: ws payer :: ro state :: w sub :: w wallet :: x :: ro systemId :: (ts.map Tokens.metas).getD [] := by
  cases c with
  | ed25519 k => cases hb; exact ⟨.ed25519 (m := ros k) rfl rfl rfl, _, rfl⟩
  | secp256k1 sign slot counter => cases hb; exact ⟨.secp256k1 (by cases ts <;> simp [Tokens.metas]), _, rfl⟩
  | secp256r1 sign pk slot counter =>
    cases hb; exact ⟨.secp256r1 (m := ro instructionsSysvarId) (by cases ts <;> simp [Tokens.metas]) rfl rfl, _, rfl⟩
  | exec p t => cases hb

theorem withdrawSubV2_read {role id n : Nat} {payload : Bytes} (h : role < 2 ^ 32) (hid : id < 2 ^ 32) (hn : n < 2 ^ 64) :
    rd (withdrawSubV2Data role id n ++ payload) 4 4 = role ∧ rd (withdrawSubV2Data role id n ++ payload) 8 4 = id ∧
      rd (withdrawSubV2Data role id n ++ payload) 16 8 = n ∧
      (withdrawSubV2Data role id n ++ payload).take 24 = withdrawSubV2Data role id n ∧
      (withdrawSubV2Data role id n ++ payload).drop 24 = payload := by
  have hl : (withdrawSubV2Data role id n).length = 24 := by simp [withdrawSubV2Data]
  refine ⟨?_, ?_, ?_, ?_, ?_⟩
  · have := rd_full 4 role (by simpa using h) (natLE 2 21 ++ zeros 2) (natLE 4 id ++ zeros 4 ++ natLE 8 n ++ payload)
      (i := 4) (by simp)
    simpa [List.append_assoc, withdrawSubV2Data] using this
  · have := rd_full 4 id (by simpa using hid) (natLE 2 21 ++ zeros 2 ++ natLE 4 role) (zeros 4 ++ natLE 8 n ++ payload)
      (i := 8) (by simp)
    simpa [List.append_assoc, withdrawSubV2Data] using this
  · have := rd_full 8 n (by simpa using hn) (natLE 2 21 ++ zeros 2 ++ natLE 4 role ++ natLE 4 id ++ zeros 4) payload
      (i := 16) (by simp)
    simpa [List.append_assoc, withdrawSubV2Data] using this
  · rw [← hl, List.take_left]
  · rw [← hl, List.drop_left]

/-- Withdrawing SOL from an enabled V2 sub-account: the amount moves to the wallet address. -/
theorem C77_withdraw_sol {env : Env} {cpi : Cpi} {m : Mem} {metas : List Meta} {swig payer state sub wallet : Key} {w : Wallet}
    {role id n : Nat} {r : Role} {a : Auth} {sb ab : UInt8} {c : Caller} {b : Built} {pre post : List TxIx} (hh : HashLength env)
    (hb : Client.withdrawSubV2 env swig payer state sub wallet none role id n c = some b)
    (hr : Ready env m swig w role r a metas b pre post) (ho : ActsFor env a metas b pre c)
    (hv : w.walletBump ≠ 0 ∧ w.pad = zeros 3) (hsub : SubAt env m w state sub id true sb ab)
    (hperm : MayUse r P.subAccountV2Withdraw id) (hwal : env.pda (walletSeeds swig ++ [[w.walletBump]]) = some wallet)
    (hown : (m sub).owner = systemId ∧ (m sub).data = [] ∧ (m wallet).owner = systemId)
    (hkeys : sub ≠ wallet ∧ sub ≠ systemId ∧ wallet ≠ systemId) (hn : n ≤ (m sub).lamports) (hn64 : n < 2 ^ 64) :
    ∃ m', process env cpi m metas b.data = .ok m' ∧ (m' swig).data = (w.used role).encode ∧
      (m' sub).lamports = (m sub).lamports - n ∧ (m' wallet).lamports = (m wallet).lamports + n ∧
      (∀ k, k ≠ sub → k ≠ wallet → (m' k).lamports = (m k).lamports) ∧
      ∀ k, (m' k).owner = (m k).owner ∧ (k ≠ swig → (m' k).data = (m k).data) := by
  obtain ⟨hf, q, hacc⟩ := withdrawSubV2_formed hb
  obtain ⟨payload, hd, hact⟩ := authOf_ready hh hr hf ho
  have hprom := hr.sent.accounts
  rw [hacc] at hprom
  obtain ⟨s, rest, rfl, k1, _, _, hprom⟩ := hprom.cons
  obtain ⟨p, rest, rfl, k2, _, _, hprom⟩ := hprom.cons
  obtain ⟨x, rest, rfl, k3, _, _, hprom⟩ := hprom.cons
  obtain ⟨y, rest, rfl, k4, _, w4, hprom⟩ := hprom.cons
  obtain ⟨z, rest, rfl, k5, _, w5, hprom⟩ := hprom.cons
  obtain ⟨x6, rest, rfl, _, _, _, hprom⟩ := hprom.cons
  obtain ⟨x7, rest, rfl, _, _, _, hprom⟩ := hprom.cons
  have := hprom.nil
  subst this
  have k1 : s.key = swig := k1
  have k3 : x.key = state := k3
  have k4 : y.key = sub := k4
  have k5 : z.key = wallet := k5
  have v4 := w4 rfl hkeys.2.1
  have v5 := w5 rfl hkeys.2.2
  obtain ⟨i1, i2, i3, i4, i5⟩ := withdrawSubV2_read (payload := payload) (acting_lt hr.wf hr.role) hsub.idLt hn64
  rw [hd]
  have hst := hr.stored
  have how := hr.owned
  subst k1 k3 k4 k5
  have hne := hsub.ne hst
  have hne2 : y.key ≠ s.key := by
    intro h
    have := hown.1
    rw [h, how] at this
    exact absurd this (by decide)
  obtain ⟨f0, f1, f2, f3, f4, f5, f6⟩ := hsub.fields hr.wf
  obtain ⟨cls, e⟩ := process_of (env := env) (cpi := cpi) (ix := withdrawSubV2Data role id n ++ payload) hr.wf hst how hr.plain
    (by simp)
  have hmove : ∃ m', withdrawV2 env cpi (m.setData s.key (w.used role).encode) [s, p, x, y, z, x6, x7] y z n
      (subV2Seeds w.id (natLE 4 id) ++ [[(m x.key).data.getD 2 0]]) = .ok m' := by
    unfold withdrawV2
    rw [if_neg (by simp), if_pos (by simp)]
    unfold withdrawSol
    rw [if_neg (by rw [Mem.setData_lamports]; omega)]
    exact signedTransfer_of (by rw [f2]; exact hsub.subPda) v4 v5 (by simpa using hown.1)
      (by rw [Mem.setData_other _ _ hne2]; exact hown.2.1) (by rw [Mem.setData_lamports]; omega)
  obtain ⟨m', hm⟩ := withdrawSubV2_of (cpi := cpi) (ix := withdrawSubV2Data role id n ++ payload) hr.wf hst how (isV2_of hv.1 hv.2)
    (by simp [withdrawSubV2Data]; omega) (by rw [i1, i4, i5]; exact hact) (by rw [i2]; exact mayUse_scoped hperm) hne hsub.owner
    hown.1 hown.2.2 (by rw [i2]; exact hsub.ok hr.wf) hwal (by rw [i1, i2, i3]; exact hmove)
  obtain ⟨_, _, _, g4, g5, g6, g7⟩ := C49_sol hr.wf hst hm
  rw [i1] at g7
  rw [i3] at g4
  refine ⟨m', ?_, g7, (g4 hkeys.1).1, (g4 hkeys.1).2, g5, g6⟩
  rw [e, dispatch, if_neg (by simp [withdrawSubV2Data]), show rd (withdrawSubV2Data role id n ++ payload) 0 2 = 21 by
    simp only [withdrawSubV2Data, List.append_assoc]; exact rd_here 2 21 _ (by decide)]
  exact hm

/-- Withdrawing tokens from an enabled V2 sub-account: the request leads to exactly one call, a transfer by the token program from the
given account of the sub-account to the given account of the wallet, and its result is the result. -/
theorem C77_withdraw_tokens {env : Env} {cpi : Cpi} {m : Mem} {metas : List Meta} {swig payer state sub wallet : Key} {w : Wallet}
    {ts : Tokens} {role id n : Nat} {r : Role} {a : Auth} {sb ab : UInt8} {c : Caller} {b : Built} {pre post : List TxIx}
    (hh : HashLength env)
    (hb : Client.withdrawSubV2 env swig payer state sub wallet (some ts) role id n c = some b)
    (hr : Ready env m swig w role r a metas b pre post) (ho : ActsFor env a metas b pre c)
    (hv : w.walletBump ≠ 0 ∧ w.pad = zeros 3) (hsub : SubAt env m w state sub id true sb ab)
    (hperm : MayUse r P.subAccountV2Withdraw id) (hwal : env.pda (walletSeeds swig ++ [[w.walletBump]]) = some wallet)
    (hown : (m sub).owner = systemId ∧ (m wallet).owner = systemId)
    (hprog : ts.program = tokenId ∨ ts.program = token2022Id)
    (htok : (m ts.sub).owner = ts.program ∧ (m ts.wallet).owner = ts.program)
    (hlen : 165 ≤ (m ts.sub).data.length ∧ 165 ≤ (m ts.wallet).data.length)
    (hinit : (m ts.sub).data.getD 108 0 = 1 ∧ (m ts.wallet).data.getD 108 0 = 1)
    (hmint : sl (m ts.sub).data 0 32 = sl (m ts.wallet).data 0 32)
    (howner : sl (m ts.sub).data 32 64 = sub ∧ sl (m ts.wallet).data 32 64 = wallet)
    (hkeys : ts.sub ≠ systemId ∧ ts.wallet ≠ systemId) (hn64 : n < 2 ^ 64) :
    process env cpi m metas b.data = cpi (m.setData swig (w.used role).encode)
      ⟨ts.program, [⟨ts.sub, false, true⟩, ⟨ts.wallet, false, true⟩, ⟨sub, true, false⟩], 3 :: natLE 8 n⟩ := by
  obtain ⟨hf, q, hacc⟩ := withdrawSubV2_formed hb
  obtain ⟨payload, hd, hact⟩ := authOf_ready hh hr hf ho
  have hprom := hr.sent.accounts
  rw [hacc] at hprom
  obtain ⟨s, rest, rfl, k1, _, _, hprom⟩ := hprom.cons
  obtain ⟨p, rest, rfl, k2, _, _, hprom⟩ := hprom.cons
  obtain ⟨x, rest, rfl, k3, _, _, hprom⟩ := hprom.cons
  obtain ⟨y, rest, rfl, k4, _, _, hprom⟩ := hprom.cons
  obtain ⟨z, rest, rfl, k5, _, _, hprom⟩ := hprom.cons
  obtain ⟨x6, rest, rfl, _, _, _, hprom⟩ := hprom.cons
  obtain ⟨x7, rest, rfl, _, _, _, hprom⟩ := hprom.cons
  obtain ⟨t1, rest, rfl, k8, _, w8, hprom⟩ := hprom.cons
  obtain ⟨t2, rest, rfl, k9, _, w9, hprom⟩ := hprom.cons
  obtain ⟨t3, rest, rfl, k10, _, _, hprom⟩ := hprom.cons
  have := hprom.nil
  subst this
  have k1 : s.key = swig := k1
  have k3 : x.key = state := k3
  have k4 : y.key = sub := k4
  have k5 : z.key = wallet := k5
  have k8 : t1.key = ts.sub := k8
  have k9 : t2.key = ts.wallet := k9
  have k10 : t3.key = ts.program := k10
  have v8 := w8 rfl hkeys.1
  have v9 := w9 rfl hkeys.2
  obtain ⟨i1, i2, i3, i4, i5⟩ := withdrawSubV2_read (payload := payload) (acting_lt hr.wf hr.role) hsub.idLt hn64
  rw [hd]
  have hst := hr.stored
  have how := hr.owned
  subst k1 k3 k4 k5
  have hne := hsub.ne hst
  obtain ⟨f0, f1, f2, f3, f4, f5, f6⟩ := hsub.fields hr.wf
  have hprog' : ts.program ≠ swigId := by rcases hprog with h | h <;> rw [h] <;> decide
  have o1 : ts.sub ≠ s.key := by intro h; rw [h, how] at htok; exact hprog' htok.1.symm
  have o2 : ts.wallet ≠ s.key := by intro h; rw [h, how] at htok; exact hprog' htok.2.symm
  obtain ⟨cls, e⟩ := process_of (env := env) (cpi := cpi) (ix := withdrawSubV2Data role id n ++ payload) hr.wf hst how hr.plain
    (by simp)
  rw [e, dispatch, if_neg (by simp [withdrawSubV2Data]), show rd (withdrawSubV2Data role id n ++ payload) 0 2 = 21 by
    simp only [withdrawSubV2Data, List.append_assoc]; exact rd_here 2 21 _ (by decide)]
  have hmove : withdrawV2 env cpi (m.setData s.key (w.used role).encode) [s, p, x, y, z, x6, x7, t1, t2, t3] y z n
      (subV2Seeds w.id (natLE 4 id) ++ [[(m x.key).data.getD 2 0]]) = cpi (m.setData s.key (w.used role).encode)
      ⟨ts.program, [⟨ts.sub, false, true⟩, ⟨ts.wallet, false, true⟩, ⟨y.key, true, false⟩], 3 :: natLE 8 n⟩ := by
    unfold withdrawV2
    rw [if_pos (by simp), show getOr [s, p, x, y, z, x6, x7, t1, t2, t3] 7 .panic = .ok t1 from rfl, ok_bind,
      show getOr [s, p, x, y, z, x6, x7, t1, t2, t3] 8 .panic = .ok t2 from rfl, ok_bind,
      show getOr [s, p, x, y, z, x6, x7, t1, t2, t3] 9 .panic = .ok t3 from rfl, ok_bind]
    have hck : checkWithdrawTokens (m.setData s.key (w.used role).encode) y.key z.key t1.key t2.key t3.key = .ok () := by
      unfold checkWithdrawTokens
      simp only [Mem.setData_owner]
      rw [k8, k9, k10, Mem.setData_other _ _ o1, Mem.setData_other _ _ o2, htok.1, htok.2, require_of hprog, ok_bind,
        require_of rfl, ok_bind, require_of rfl, ok_bind, require_of hlen, ok_bind, require_of hinit, ok_bind, require_of hmint, ok_bind,
        require_of howner.1.symm, ok_bind, require_of howner.2.symm]
    rw [hck, ok_bind]
    unfold tokenTransfer invokeSigned
    rw [f2, hsub.subPda]
    dsimp only
    rw [if_pos, k8, k9, k10]
    intro q hq
    simp only [List.mem_cons, List.not_mem_nil, or_false] at hq
    rcases hq with rfl | rfl | rfl
    · exact ⟨(fun h => Bool.noConfusion h), (fun _ => ⟨t1, by simp, rfl, v8⟩)⟩
    · exact ⟨(fun h => Bool.noConfusion h), (fun _ => ⟨t2, by simp, rfl, v9⟩)⟩
    · exact ⟨(fun _ => .inl rfl), (fun h => Bool.noConfusion h)⟩
  obtain ⟨v, e1⟩ := actScoped_of (env := env) (swig := s.key) hr.wf hst (show 23 ≤ P.subAccountV2Withdraw ∧ P.subAccountV2Withdraw ≤ 26 by decide) hsub.idLt
    (isV2_of hv.1 hv.2) hact (mayUse_scoped hperm)
  have e2 := validateState_of (env := env) (m := m.setData s.key (w.used role).encode) (state := x.key) (asset := y.key)
    (swigKey := w.id) (id := id) (by simpa using hsub.owner) (by rw [Mem.setData_other _ _ hne]; exact hsub.ok hr.wf)
  rw [Mem.setData_other _ _ hne] at e2
  show withdrawSubV2 env cpi m [s, p, x, y, z, x6, x7, t1, t2, t3] (withdrawSubV2Data role id n ++ payload) = _
  simp only [withdrawSubV2]
  rw [i1, i2, i3, i4, i5, require_of how, ok_bind, require_of hown.1, ok_bind, require_of hown.2, ok_bind,
    require_of (by simp [withdrawSubV2Data]; omega), ok_bind, e1, ok_bind]
  dsimp only
  rw [show (w.used role).parts.header.walletBump = w.walletBump from rfl, checkSelfPda_of hwal, ok_bind, Wallet.parts_bytes,
    show (w.used role).parts.header.id = w.id from rfl, e2, ok_bind]
  exact hmove

theorem compact_key {own : List Key} {base : List Meta} {inner : List FullIx} {n : Nat} {x : Meta} (hx : base[n]? = some x)
    (hl : (compactInstructions own base inner).1.length ≤ 64) :
    All2 (StandsFor (compactInstructions own base inner).1) inner (compactInstructions own base inner).2 ∧
      base <+: (compactInstructions own base inner).1 ∧ (compactInstructions own base inner).1[n]? = some x := by
  generalize he : compactInstructions own base inner = p at hl
  obtain ⟨outer, cs⟩ := p
  obtain ⟨h1, h2⟩ := C34_compaction he (by simp only at hl; omega)
  refine ⟨h1, h2, ?_⟩
  obtain ⟨t, rfl⟩ := h2
  rw [List.getElem?_append_left (List.getElem?_eq_some_iff.mp hx).1, hx]

theorem subSignV2_formed {env : Env} {swig state sub : Key} {role id : Nat} {inner : List FullIx} {c : Caller} {b : Built}
    (hb : Client.subSignV2 env swig state sub role id inner c = some b) (hl : b.accounts.length ≤ 64) :
    ∃ cs tl, Formed env (subSignV2Data role id (compactBytes cs)) (subSignV2Data role id (compactBytes cs)) c b ∧
      b.accounts = w swig :: ro state :: w sub :: ro systemId :: tl ∧ All2 (StandsFor b.accounts) inner cs := by
  cases c with
  | ed25519 k =>
    cases hb
    obtain ⟨h1, h2, h3⟩ := compact_key (base := [w swig, ro state, w sub, ro systemId, ros k]) (n := 4) (x := ros k) rfl hl
    obtain ⟨t, ht⟩ := h2
    exact ⟨_, ros k :: t, .ed25519 (m := ros k) h3 rfl rfl, ht.symm, h1⟩
  | secp256k1 sign slot counter =>
    cases hb
    obtain ⟨h1, h2, _⟩ := compact_key (base := [w swig, ro state, w sub, ro systemId]) (n := 0) (x := w swig) rfl hl
    obtain ⟨t, ht⟩ := h2
    exact ⟨_, t, .secp256k1 hl, ht.symm, h1⟩
  | secp256r1 sign pk slot counter =>
    cases hb
    obtain ⟨h1, h2, h3⟩ := compact_key (base := [w swig, ro state, w sub, ro systemId, ro instructionsSysvarId]) (n := 4)
      (x := ro instructionsSysvarId) rfl hl
    obtain ⟨t, ht⟩ := h2
    exact ⟨_, _ :: t, .secp256r1 (m := ro instructionsSysvarId) hl h3 rfl, ht.symm, h1⟩
  | exec p t => cases hb

/-- Executing instructions for an enabled V2 sub-account: the program reaches the execution of exactly the given instructions, in order, with
the signature of the sub-account, and if they succeed and leave the sub-account its rent, the request succeeds with their result. -/
theorem C77_sign_sub {env : Env} {cpi : Cpi} {m : Mem} {metas : List Meta} {swig state sub : Key} {w : Wallet} {role id : Nat}
    {inner : List FullIx} {r : Role} {a : Auth} {sb ab : UInt8} {c : Caller} {b : Built} {pre post : List TxIx} (hh : HashLength env)
    (hb : Client.subSignV2 env swig state sub role id inner c = some b)
    (hr : Ready env m swig w role r a metas b pre post) (ho : ActsFor env a metas b pre c)
    (hv : w.walletBump ≠ 0 ∧ w.pad = zeros 3) (hsub : SubAt env m w state sub id true sb ab)
    (hperm : MayUse r P.subAccountV2Sign id) (hown : (m sub).owner = systemId) (htop : env.stackHeight = 1)
    (hsmall : b.accounts.length ≤ 64 ∧ b.data.length < 2 ^ 16) (hn : inner.length ≤ 255)
    (hf : ∀ ix ∈ inner, ix.accounts.length ≤ 254 ∧ ix.data.length < 2 ^ 16) :
    ∃ ixs, All2 (fun (ix : FullIx) (i : Inner) => i.program = ix.program ∧ i.accounts.map (·.key) = ix.accounts.map (·.key) ∧
        i.data = ix.data) inner ixs ∧
      ∀ m', execAll env cpi metas sub (subV2Seeds w.id (natLE 4 id) ++ [[ab]]) (m.setData swig (w.used role).encode) ixs = .ok m' →
        env.rent (m' sub).data.length ≤ (m' sub).lamports → process env cpi m metas b.data = .ok m' := by
  obtain ⟨cs, tl, hfm, hacc, hsf⟩ := subSignV2_formed hb hsmall.1
  obtain ⟨payload, hd, hact⟩ := authOf_ready hh hr hfm ho
  have hkeys := hr.sent.accounts.keys
  have hprom := hr.sent.accounts
  have hl0 := hprom.length
  obtain ⟨ixs, hdec, hsame⟩ := decodeIxs_stands (metas := metas) (hsf.imp fun _ _ h => h.promoted hkeys) hn hf sub []
  refine ⟨ixs, hsame, ?_⟩
  intro m' hex hrent
  rw [hacc] at hprom
  obtain ⟨s, rest, rfl, k1, _, _, hprom⟩ := hprom.cons
  obtain ⟨x, rest, rfl, k2, _, _, hprom⟩ := hprom.cons
  obtain ⟨y, rest, rfl, k3, _, _, hprom⟩ := hprom.cons
  obtain ⟨z, rest, rfl, k4, _, _, hprom⟩ := hprom.cons
  have k1 : s.key = swig := k1
  have k2 : x.key = state := k2
  have k3 : y.key = sub := k3
  have hst := hr.stored
  have how := hr.owned
  subst k1 k2 k3
  have hbl : (compactBytes cs).length < 2 ^ 16 := by
    have := hsmall.2
    rw [hd] at this
    simp [subSignV2Data] at this
    omega
  have hparse := parseSubSignV2_built (payload := payload) (acting_lt hr.wf hr.role) hsub.idLt hbl
  rw [hd]
  obtain ⟨f0, f1, f2, f3, f4, f5, f6⟩ := hsub.fields hr.wf
  obtain ⟨cls, e⟩ := process_of (env := env) (cpi := cpi) (ix := subSignV2Data role id (compactBytes cs) ++ payload) hr.wf hst how
    hr.plain (by rw [hl0]; omega)
  have hm := subSignV2_of (cpi := cpi) hr.wf hst how (isV2_of hv.1 hv.2) hparse hown htop hsub.idLt hact (mayUse_scoped hperm)
    (hsub.ne hst) hsub.owner (hsub.ok hr.wf) hdec (by rw [f2]; exact hex) hrent
  rw [e, dispatch, if_neg (by simp [subSignV2Data]), show rd (subSignV2Data role id (compactBytes cs) ++ payload) 0 2 = 20 by
    simp only [subSignV2Data, List.append_assoc]; exact rd_here 2 20 _ (by decide)]
  exact hm

theorem markSigners_at {signers : List Key} {l : List Meta} {n : Nat} {x : Meta} (h : l[n]? = some x) :
    ∃ y, (markSigners signers l)[n]? = some y ∧ y.key = x.key ∧ (x.signer = true → y.signer = true) := by
  unfold markSigners
  rw [List.getElem?_map, h]
  refine ⟨_, rfl, ?_, ?_⟩ <;> dsimp only <;> split <;> simp_all

theorem markSigners_keys (signers : List Key) (l : List Meta) : (markSigners signers l).map (·.key) = l.map (·.key) := by
  unfold markSigners
  rw [List.map_map]
  apply List.map_congr_left
  intro a _
  dsimp only [Function.comp]
  split <;> rfl

theorem StandsFor.more {outer more : List Meta} {ix : FullIx} {c : CompactIx} (h : StandsFor outer ix c) : StandsFor (outer ++ more) ix c := by
  have e : ∀ {n : Nat} {k : Key}, (outer[n]?).map (·.key) = some k → ((outer ++ more)[n]?).map (·.key) = some k := by
    intro n k hn
    cases hx : outer[n]? with
    | none => rw [hx] at hn; cases hn
    | some o => rw [List.getElem?_append_left (List.getElem?_eq_some_iff.mp hx).1, hx, ← hn, hx]
  exact ⟨e h.program, h.accounts.imp fun _ _ hx => e hx, h.data⟩

theorem signV2_formed {env : Env} {swig wallet payer : Key} {role : Nat} {inner : FullIx} {signers : List Key} {c : Caller}
    (hl : (Client.signV2 env swig wallet payer role inner signers c).accounts.length ≤ 64) :
    ∃ cs x tl, Formed env (signData role (compactBytes cs)) (compactBytes cs) c (Client.signV2 env swig wallet payer role inner signers c) ∧
      (Client.signV2 env swig wallet payer role inner signers c).accounts.map (·.key) = swig :: wallet :: x :: tl ∧
      All2 (StandsFor (Client.signV2 env swig wallet payer role inner signers c).accounts) [inner] cs := by
  have keysOf : ∀ {base t outer : List Meta}, base ++ t = outer → outer.map (·.key) = base.map (·.key) ++ t.map (·.key) := by
    rintro base t outer rfl
    simp
  have last : ∀ l : List Meta, l.length < 256 → (l ++ [ro instructionsSysvarId])[(UInt8.ofNat l.length).toNat]? = some (ro instructionsSysvarId) := by
    intro l h
    rw [UInt8.toNat_ofNat_of_lt' h]
    simp
  cases c with
  | ed25519 k =>
    obtain ⟨h1, ⟨t, ht⟩, h3⟩ := compact_key (own := [swig]) (base := [w swig, w wallet, ros k]) (inner := [inner]) (n := 2) (x := ros k)
      rfl (by simpa [Client.signV2, byEd, markSigners] using hl)
    obtain ⟨y, e1, e2, e3⟩ := markSigners_at (signers := signers) h3
    refine ⟨_, k, t.map (·.key), .ed25519 (m := y) e1 e2 (e3 rfl), ?_, h1.imp fun _ _ h => h.promoted (markSigners_keys _ _)⟩
    exact (markSigners_keys signers _).trans (keysOf ht)
  | secp256k1 sign slot counter =>
    obtain ⟨h1, ⟨t, ht⟩, h3⟩ := compact_key (own := [swig]) (base := [w swig, w wallet, ro systemId]) (inner := [inner]) (n := 2)
      (x := ro systemId) rfl (by simpa [Client.signV2, byK1, markSigners] using hl)
    refine ⟨_, systemId, t.map (·.key), .secp256k1 hl, ?_, h1.imp fun _ _ h => h.promoted (markSigners_keys _ _)⟩
    exact (markSigners_keys signers _).trans (keysOf ht)
  | secp256r1 sign pk slot counter =>
    obtain ⟨h1, ⟨t, ht⟩, h3⟩ := compact_key (own := [swig]) (base := [w swig, w wallet, ro systemId, ro instructionsSysvarId])
      (inner := [inner]) (n := 3) (x := ro instructionsSysvarId) rfl (by simpa [Client.signV2, byR1, markSigners] using hl)
    obtain ⟨y, e1, e2, e3⟩ := markSigners_at (signers := signers) h3
    refine ⟨_, systemId, instructionsSysvarId :: t.map (·.key), .secp256r1 (m := y) hl e1 e2, ?_, h1.imp fun _ _ h => h.promoted (markSigners_keys _ _)⟩
    exact (markSigners_keys signers _).trans (keysOf ht)
  | exec p target =>
    have hl' : (compactInstructions [swig] [w swig, w wallet, ws payer] [inner]).1.length + 1 ≤ 64 := by
      simpa [Client.signV2, byExec] using hl
    obtain ⟨h1, ⟨t, ht⟩, h3⟩ := compact_key (own := [swig]) (base := [w swig, w wallet, ws payer]) (inner := [inner]) (n := 2)
      (x := ws payer) rfl (by omega)
    refine ⟨_, payer, t.map (·.key) ++ [instructionsSysvarId], .exec (m := ro instructionsSysvarId) ?_ rfl, ?_, h1.imp fun _ _ h => h.more⟩
    · exact last (compactInstructions [swig] [w swig, w wallet, ws payer] [inner]).1 (by omega)
    · exact (List.map_append ..).trans (congrArg (· ++ [instructionsSysvarId]) (keysOf ht))

/-- Executing an instruction with the signature of the wallet, by a role with All or AllButManageAuthority: the request leads to
exactly the given instruction — its program, its accounts, its data — and its result is the result. -/
theorem C77_sign {env : Env} {cpi : Cpi} {m : Mem} {metas : List Meta} {swig wallet payer : Key} {w : Wallet} {role : Nat}
    {inner : FullIx} {signers : List Key} {r : Role} {a : Auth} {c : Caller} {pre post : List TxIx} (hh : HashLength env)
    (hr : Ready env m swig w role r a metas (Client.signV2 env swig wallet payer role inner signers c) pre post)
    (ho : ActsFor env a metas (Client.signV2 env swig wallet payer role inner signers c) pre c)
    (hfree : ¬ Restricted r) (hwal : (m wallet).owner = systemId) (htop : env.stackHeight = 1)
    (hsmall : (Client.signV2 env swig wallet payer role inner signers c).accounts.length ≤ 64 ∧
      (Client.signV2 env swig wallet payer role inner signers c).data.length < 2 ^ 16)
    (hf : inner.accounts.length ≤ 254 ∧ inner.data.length < 2 ^ 16) :
    ∃ i : Inner, i.program = inner.program ∧ i.accounts.map (·.key) = inner.accounts.map (·.key) ∧ i.data = inner.data ∧
      process env cpi m metas (Client.signV2 env swig wallet payer role inner signers c).data =
        execAll env cpi metas wallet (walletSeeds swig ++ [[w.walletBump]]) (m.setData swig (w.used role).encode) [i] := by
  obtain ⟨cs, x, tl, hfm, hacc, hsf⟩ := signV2_formed hsmall.1
  generalize Client.signV2 env swig wallet payer role inner signers c = b at *
  obtain ⟨payload, hd, hau⟩ := acts_accepts hh hr.cred.1 hfm ho hr.sent
  rw [hr.cred.2.1, hr.cred.2.2] at hau
  have hkeys := hr.sent.accounts.keys
  have hl0 := hr.sent.accounts.length
  obtain ⟨ixs, hdec, hsame⟩ := decodeIxs_stands (metas := metas) (hsf.imp fun _ _ h => h.promoted hkeys) (by simp)
    (by simpa using hf) wallet []
  obtain ⟨i, rfl, hi⟩ : ∃ i, ixs = [i] ∧ i.program = inner.program ∧ i.accounts.map (·.key) = inner.accounts.map (·.key) ∧
      i.data = inner.data := by
    cases hsame with
    | cons h1 h2 => cases h2; exact ⟨_, rfl, h1⟩
  refine ⟨i, hi.1, hi.2.1, hi.2.2, ?_⟩
  have hk : metas.map (·.key) = swig :: wallet :: x :: tl := hkeys.trans hacc
  match metas, hk with
  | s :: y :: z :: rest, hk =>
    simp only [List.map_cons, List.cons.injEq] at hk
    obtain ⟨k1, k2, k3, k4⟩ := hk
    have hst := hr.stored
    have how := hr.owned
    subst k1 k2
    have hbl : (compactBytes cs).length < 2 ^ 16 := by
      have := hsmall.2
      rw [hd] at this
      simp [signData] at this
      omega
    have hparse := parseSign_built (payload := payload) (acting_lt hr.wf hr.role) hbl
    rw [hd]
    obtain ⟨t, _, e⟩ := process_two (env := env) (cpi := cpi) (ix := signData role (compactBytes cs) ++ payload) hr.wf hst how hwal
      hr.plain (by rw [hl0]; omega)
    rw [e, dispatch, if_neg (by simp [signData]), show rd (signData role (compactBytes cs) ++ payload) 0 2 = 11 by
      simp only [signData, List.append_assoc]; exact rd_here 2 11 _ (by decide)]
    obtain ⟨before, after, hp, e2⟩ := signV2_reach (cpi := cpi) (tl := t) (n := (m s.key).lamports) hr.wf hst htop hparse
      ⟨hr.role, hau⟩ hdec
    refine e2.trans (signWith_free hp (Mem.setData_data ..) ?_)
    exact hfree

/-! ## Concrete requests -/

section
open Sample SampleClient

/-- A ledger with the instructions `b` in the sysvar. -/
def onLedger (base : Mem) (b : Built) : Mem := fun k =>
  if k = instructionsSysvarId then ⟨K 99, 1, sysvarEncode (b.before ++ [b.seen b.accounts]) b.before.length⟩ else base k

theorem onLedger_other {base : Mem} {b : Built} {k : Key} (h : k ≠ instructionsSysvarId) : onLedger base b k = base k := if_neg h

theorem ready_on {base : Mem} {swig : Key} {w : Wallet} {acting : Nat} {r : Role} {a : Auth} {b : Built} (hw : w.WF)
    (hd : (base swig).data = w.encode) (ho : (base swig).owner = swigId) (hne : swig ≠ instructionsSysvarId)
    (hsmall : w.encode.length ≤ 10485760) (hrole : w.role? acting = some r) (hc : a.WF ∧ a.ty = r.authType ∧ a.encode = r.auth)
    (hk : ∀ x ∈ b.accounts, x.key.length = 32 ∧ (base x.key).owner ≠ stakeId)
    (hb : ∀ x ∈ b.before, x.program.length = 32 ∧ ∀ y ∈ x.accounts, y.key.length = 32)
    (hs : (sysvarEncode (b.before ++ [b.seen b.accounts]) b.before.length).length < 2 ^ 16)
    (hscope : ∀ r ∈ w.roles, ∀ x ∈ r.actions, x.ty ≠ P.programScope) :
    Ready env1 (onLedger base b) swig w acting r a b.accounts b [] [] where
  stored := by rw [onLedger_other hne, hd]
  owned := by rw [onLedger_other hne, ho]
  wf := hw
  small := hsmall
  role := hrole
  cred := hc
  sent := by
    refine ⟨promoted_self _, ?_, ?_⟩
    · unfold onLedger
      rw [if_pos rfl]
      simp
    · refine ⟨by simp, by simpa using hs, ?_⟩
      intro i hi
      simp only [List.nil_append, List.mem_append, List.mem_cons, List.not_mem_nil, or_false] at hi
      rcases hi with hi | rfl
      · exact hb i hi
      · exact ⟨show swigId.length = 32 by decide +kernel, fun x hx => (hk x hx).1⟩
  plain := by
    intro x hx
    constructor
    · unfold onLedger
      split
      · show K 99 ≠ stakeId
        decide +kernel
      · exact (hk x hx).2
    · exact fun r hr y hy h => absurd h (hscope r hr y hy)

/-- The owner, Ed25519 key `K 10`, with permission All, and a secp256k1 role that may use the sub-account 0 and create others. -/
def subRole : Role := ⟨3, 1, auth2.encode, [⟨P.subAccountV2Create, []⟩, ⟨P.subAccountV2All, natLE 4 0 ++ zeros 4⟩]⟩

def walletS : Wallet := ⟨255, K 70, 2, 255, zeros 3, 1, [role0, subRole], none⟩

theorem walletS_wf : walletS.WF where
  idLen := by decide
  padLen := by decide
  counter := by decide
  subCounter := by decide
  count := by decide
  roles := by
    intro r hr
    simp only [walletS, List.mem_cons, List.not_mem_nil, or_false] at hr
    rcases hr with rfl | rfl
    all_goals exact ⟨by decide, by decide, by decide, by decide, by decide⟩
  idsNodup := by decide
  idsLt := by decide
  claimer := by simp [walletS]
  size := by decide

/-- The sub-account 0 with its state at `K 4`, its assets at `K 5` and two token accounts, of the sub-account and of the wallet. -/
def memS (enabled : Bool) : Mem := fun k =>
  if k = K 4 then ⟨swigId, 2000000, [2, 255, 254, if enabled then 1 else 0] ++ natLE 4 0 ++ K 70 ++ K 5⟩
  else if k = K 5 then ⟨systemId, 3000000, []⟩
  else if k = K 31 then ⟨tokenId, 2039280, K 50 ++ K 5 ++ natLE 8 9 ++ zeros 36 ++ [1] ++ zeros 56⟩
  else if k = K 32 then ⟨tokenId, 2039280, K 50 ++ K 2 ++ natLE 8 0 ++ zeros 36 ++ [1] ++ zeros 56⟩
  else mem walletS k

theorem acts_k1 {b : Built} : ActsFor env1 auth2 b.accounts b [] callerK1 :=
  Or.inl ⟨rfl, _, _, _, rfl, by decide +kernel, by decide +kernel, by decide +kernel, by decide +kernel, signs1, rfl⟩

theorem acts_ed {b : Built} : ActsFor env1 auth0 b.accounts b [] callerEd := Or.inl ⟨rfl, rfl⟩

theorem cred_k1 : auth2.WF ∧ auth2.ty = subRole.authType ∧ auth2.encode = subRole.auth :=
  ⟨⟨⟨by decide +kernel, by decide +kernel, by decide +kernel⟩, fun _ h => by cases h⟩, by decide +kernel, by decide +kernel⟩

theorem cred_ed : auth0.WF ∧ auth0.ty = role0.authType ∧ auth0.encode = role0.auth :=
  ⟨⟨show (K 10).length = 32 by decide, fun _ h => by cases h⟩, by decide +kernel, by decide +kernel⟩

theorem subAtS {b : Built} {enabled : Bool} : SubAt env1 (onLedger (memS enabled) b) walletS (K 4) (K 5) 0 enabled 255 254 where
  owner := by rw [onLedger_other (by decide +kernel)]; rfl
  data := by rw [onLedger_other (by decide +kernel)]; rfl
  statePda := by decide +kernel
  subPda := by decide +kernel
  subLen := rfl
  idLt := by decide

theorem readyS {enabled : Bool} {b : Built}
    (hk : ∀ x ∈ b.accounts, x.key.length = 32 ∧ (memS enabled x.key).owner ≠ stakeId) (hb : b.before = [])
    (hs : (sysvarEncode [b.seen b.accounts] 0).length < 2 ^ 16) :
    Ready env1 (onLedger (memS enabled) b) (K 1) walletS 1 subRole auth2 b.accounts b [] [] :=
  ready_on walletS_wf rfl rfl (by decide +kernel) (by decide +kernel) (by decide +kernel) cred_k1 hk (by rw [hb]; simp)
    (by rw [hb]; exact hs) (by decide +kernel)

/-- The owner closes the wallet to `K 20`. -/
example (cpi : Cpi) : ∃ b, closeSwig env1 (K 1) (K 2) (K 20) 0 callerEd = some b ∧
    ∃ m', process env1 cpi (onLedger (closable walletS) b) b.accounts b.data = .ok m' ∧ (m' (K 1)).data = [255] ∧
      (m' (K 2)).lamports = 0 := by
  refine ⟨_, rfl, ?_⟩
  obtain ⟨m', h1, h2, _, h4, _⟩ := C77_close (cpi := cpi) (m := onLedger (closable walletS) _) (swig := K 1) (wallet := K 2) (dst := K 20)
    (c := callerEd) (w := walletS) hash1 rfl
    (ready_on walletS_wf rfl rfl (by decide +kernel) (by decide +kernel) (show walletS.role? 0 = some role0 by decide +kernel) cred_ed
      (by decide +kernel) (by simp [byEd]) (by decide +kernel) (by decide +kernel)) acts_ed (Or.inl (by decide +kernel)) (Or.inl rfl)
    ⟨by decide +kernel, by decide, fun b hb => absurd (UInt8.lt_iff_toNat_lt.mp hb) (by have := b.toNat_lt; show ¬ 255 < b.toNat; omega)⟩ (by decide +kernel) (by decide +kernel)
    (by decide +kernel) (by decide +kernel) (by decide +kernel) (by decide +kernel)
  exact ⟨m', h1, h2, h4⟩

/-- The holder of role 1 disables the sub-account 0 and enables it again. -/
example (cpi : Cpi) (was en : Bool) : ∃ b, Client.toggleSubV2 env1 (K 1) (K 10) (K 4) 1 0 en callerK1 = some b ∧
    ∃ m', process env1 cpi (onLedger (memS was) b) b.accounts b.data = .ok m' ∧ SubAt env1 m' walletS (K 4) (K 5) 0 en 255 254 := by
  refine ⟨_, rfl, ?_⟩
  obtain ⟨m', h1, _, h3, _⟩ := C77_toggle_sub (cpi := cpi) (m := onLedger (memS was) _) (swig := K 1) (payer := K 10) (state := K 4)
    (sub := K 5) (c := callerK1) (w := walletS) (en := en) (was := was) hash1 rfl
    (readyS (by cases was <;> cases en <;> decide +kernel) rfl (by cases en <;> decide +kernel)) acts_k1 (by decide) subAtS
    ⟨⟨P.subAccountV2All, natLE 4 0 ++ zeros 4⟩, by decide +kernel, by decide, by decide⟩
  exact ⟨m', h1, h3⟩

/-- They withdraw 1000 lamports ... -/
example (cpi : Cpi) : ∃ b, Client.withdrawSubV2 env1 (K 1) (K 10) (K 4) (K 5) (K 2) none 1 0 1000 callerK1 = some b ∧
    ∃ m', process env1 cpi (onLedger (memS true) b) b.accounts b.data = .ok m' ∧ (m' (K 5)).lamports = 2999000 ∧
      (m' (K 2)).lamports = 5000001000 := by
  refine ⟨_, rfl, ?_⟩
  obtain ⟨m', h1, _, h3, h4, _⟩ := C77_withdraw_sol (cpi := cpi) (m := onLedger (memS true) _) (swig := K 1) (payer := K 10)
    (state := K 4) (sub := K 5) (wallet := K 2) (c := callerK1) (w := walletS) (n := 1000) hash1 rfl
    (readyS (by decide +kernel) rfl (by decide +kernel)) acts_k1 (by decide) subAtS
    ⟨⟨P.subAccountV2All, natLE 4 0 ++ zeros 4⟩, by decide +kernel, by decide, by decide⟩ (by decide +kernel) (by decide +kernel)
    (by decide +kernel) (by decide +kernel) (by decide)
  exact ⟨m', h1, h3, h4⟩

/-- ... or five tokens. -/
example (cpi : Cpi) : ∃ b, Client.withdrawSubV2 env1 (K 1) (K 10) (K 4) (K 5) (K 2) (some ⟨K 31, K 32, tokenId⟩) 1 0 5 callerK1 = some b ∧
    process env1 cpi (onLedger (memS true) b) b.accounts b.data =
      cpi ((onLedger (memS true) b).setData (K 1) (walletS.used 1).encode)
        ⟨tokenId, [⟨K 31, false, true⟩, ⟨K 32, false, true⟩, ⟨K 5, true, false⟩], 3 :: natLE 8 5⟩ := by
  refine ⟨_, rfl, ?_⟩
  exact C77_withdraw_tokens (cpi := cpi) (m := onLedger (memS true) _) (swig := K 1) (payer := K 10)
    (state := K 4) (sub := K 5) (wallet := K 2) (ts := ⟨K 31, K 32, tokenId⟩) (c := callerK1) (w := walletS) (n := 5) hash1 rfl
    (readyS (by decide +kernel) rfl (by decide +kernel)) acts_k1 (by decide) subAtS
    ⟨⟨P.subAccountV2All, natLE 4 0 ++ zeros 4⟩, by decide +kernel, by decide, by decide⟩ (by decide +kernel) (by decide +kernel)
    (by decide +kernel) (by decide +kernel) (by decide +kernel) (by decide +kernel) (by decide +kernel) (by decide +kernel)
    (by decide +kernel) (by decide)

/-- They create the next sub-account (here on a ledger where its addresses are still free). -/
example (cpi : Cpi) : ∃ b, Client.createSubV2 env1 (K 1) (K 10) (K 4) (K 5) 1 255 254 callerK1 = some b ∧
    ∃ m', process env1 cpi (onLedger (mem walletS) b) b.accounts b.data = .ok m' ∧
      SubAt env1 m' walletS (K 4) (K 5) 1 true 255 254 := by
  refine ⟨_, rfl, ?_⟩
  obtain ⟨m', acts, h1, _, _, _, h5, _⟩ := C77_create_sub (cpi := cpi) (m := onLedger (mem walletS) _) (swig := K 1) (payer := K 10)
    (state := K 4) (sub := K 5) (c := callerK1) (w := walletS) (sb := 255) (ab := 254) hash1 rfl
    (ready_on walletS_wf rfl rfl (by decide +kernel) (by decide +kernel) (show walletS.role? 1 = some subRole by decide +kernel) cred_k1
      (by decide +kernel) (by simp [byK1]) (by decide +kernel) (by decide +kernel)) acts_k1 (by decide) (by decide +kernel) (by decide +kernel)
    (by decide +kernel) (by decide +kernel) (by decide +kernel) (by decide) (by decide +kernel) (by decide +kernel) (by decide +kernel)
    (by decide +kernel) (by decide +kernel) (by decide +kernel)
  exact ⟨m', h1, h5⟩

/-- An instruction of program `K 60`. -/
def inner1 : FullIx := ⟨K 60, [⟨K 5, true, true⟩, ⟨K 11, false, true⟩], [1, 2, 3]⟩

/-- They let the sub-account sign two instructions. -/
example (cpi : Cpi) : ∃ b, Client.subSignV2 env1 (K 1) (K 4) (K 5) 1 0 [inner1, inner1] callerK1 = some b ∧
    ∃ ixs, All2 (fun (ix : FullIx) (i : Inner) => i.program = ix.program ∧ i.accounts.map (·.key) = ix.accounts.map (·.key) ∧
        i.data = ix.data) [inner1, inner1] ixs ∧
      ∀ m', execAll env1 cpi b.accounts (K 5) (subV2Seeds (K 70) (natLE 4 0) ++ [[254]])
          ((onLedger (memS true) b).setData (K 1) (walletS.used 1).encode) ixs = .ok m' →
        env1.rent (m' (K 5)).data.length ≤ (m' (K 5)).lamports → process env1 cpi (onLedger (memS true) b) b.accounts b.data = .ok m' := by
  refine ⟨_, rfl, ?_⟩
  exact C77_sign_sub (cpi := cpi) (m := onLedger (memS true) _) (swig := K 1)
    (state := K 4) (sub := K 5) (c := callerK1) (w := walletS) (inner := [inner1, inner1]) hash1 rfl
    (readyS (by decide +kernel) rfl (by decide +kernel)) acts_k1 (by decide) subAtS
    ⟨⟨P.subAccountV2All, natLE 4 0 ++ zeros 4⟩, by decide +kernel, by decide, by decide⟩ (by decide +kernel) rfl
    (by decide +kernel) (by decide) (by decide +kernel)

/-- The owner lets the wallet sign an instruction. -/
example (cpi : Cpi) : ∃ i : Inner, i.program = K 60 ∧ i.data = [1, 2, 3] ∧
    process env1 cpi (onLedger (mem walletS) (Client.signV2 env1 (K 1) (K 2) (K 10) 0 inner1 [] callerEd))
        (Client.signV2 env1 (K 1) (K 2) (K 10) 0 inner1 [] callerEd).accounts
        (Client.signV2 env1 (K 1) (K 2) (K 10) 0 inner1 [] callerEd).data =
      execAll env1 cpi (Client.signV2 env1 (K 1) (K 2) (K 10) 0 inner1 [] callerEd).accounts (K 2) (walletSeeds (K 1) ++ [[255]])
        ((onLedger (mem walletS) (Client.signV2 env1 (K 1) (K 2) (K 10) 0 inner1 [] callerEd)).setData (K 1) (walletS.used 0).encode) [i] := by
  obtain ⟨i, h1, _, h3, h4⟩ := C77_sign (cpi := cpi)
    (m := onLedger (mem walletS) (Client.signV2 env1 (K 1) (K 2) (K 10) 0 inner1 [] callerEd)) (w := walletS) hash1
    (ready_on walletS_wf rfl rfl (by decide +kernel) (by decide +kernel) (show walletS.role? 0 = some role0 by decide +kernel) cred_ed
      (by decide +kernel) (by simp [Client.signV2, callerEd, byEd]) (by decide +kernel) (by decide +kernel)) acts_ed (by decide +kernel)
    (by decide +kernel) rfl (by decide +kernel) (by decide +kernel)
  exact ⟨i, h1, h3, h4⟩

end

end Verif
