import Verif.Props.Twin

/-!
# Property C105: nobody can prevent the creation of a wallet or of a sub-account
-/

namespace Verif
open Client

/-- The request asks for the creation of a wallet: number 0, and the numbers that stand for no request, which the program takes for a creation. -/
def Creates (ix : Bytes) : Prop := rd ix 0 2 = 0 ∨ rd ix 0 2 = 8 ∨ 21 < rd ix 0 2

/-- Wallets: one lamport sent to the address of a configuration account in advance, and no request creates the wallet, whoever sends it and
with whatever permissions and credentials. -/
theorem C105_refuted {env : Env} {cpi : Cpi} {m : Mem} {swig : Meta} {rest : List Meta} {ix : Bytes} (hix : Creates ix)
    (hl : 0 < (m swig.key).lamports) : ∃ e, process env cpi m (swig :: rest) ix = .error e := by
  cases h : process env cpi m (swig :: rest) ix with
  | error e => exact ⟨e, rfl⟩
  | ok m' =>
    exfalso
    unfold process at h
    obtain ⟨_, _, h⟩ := bind_ok_iff.mp h
    obtain ⟨cls, _, h⟩ := bind_ok_iff.mp h
    unfold dispatch at h
    split at h
    · cases h
    unfold Creates at hix
    split at h <;> try omega
    unfold createV1 at h
    revert h
    split
    · rename_i he
      cases he
      intro h
      obtain ⟨⟨c, al⟩, _, h⟩ := bind_ok_iff.mp h
      obtain ⟨m1, hcre, h⟩ := bind_ok_iff.mp h
      unfold sysCreate at hcre
      split at hcre
      · cases hcre
      · rw [if_pos (.inl hl)] at hcre
        cases hcre
    · intro h; cases h

/-- The permissions of the root of the blocking wallet: everything, and the creation of V2 sub-accounts. -/
def blockActs : List Action := [.all, .subAccountV2Create]

theorem blockActs_acts : blockActs.map Action.toAct = [⟨P.all, []⟩, ⟨P.subAccountV2Create, []⟩] := rfl

theorem blockActs_fresh : ∀ x ∈ blockActs.map Action.toAct, x.Fresh := by
  rw [blockActs_acts]; decide

/-- V2 sub-accounts: whoever can pay the rent can take the first sub-account of every wallet that has none.  They create a wallet with the same id
at another bump (see C102) and create its first sub-account, which has the same addresses.  They sign alone (with `thief` and an account `purse` that pays),
and the wallet of the victim does not appear in the requests.  As long as the record exists no request that names it creates a sub-account, for whatever wallet
(the owner has to know that other bumps give other addresses: the builders and the code that finds sub-accounts use the first bump only). -/
theorem C105_refuted_sub {env : Env} {cpi : Cpi} {m : Mem} {victim : Key} {w : Wallet} {state sub : Key} {sb ab : UInt8}
    {thief purse swig wallet : Key} {bump walletBump : UInt8} (hv : Open m victim w) (hnone : w.subCounter = 0)
    (hp1 : env.pda [ascii "sub-account-v2-state", w.id, natLE 4 w.subCounter, [sb]] = some state)
    (hp2 : env.pda [ascii "sub-account-v2", w.id, natLE 4 w.subCounter, [ab]] = some sub)
    (hfree : (m state).owner = systemId ∧ (m state).data = [] ∧ (m sub).owner = systemId)
    (ht : TwinAt env m w.id thief swig wallet bump walletBump 112) (hb : walletBump ≠ 0)
    (hd : swig ≠ victim ∧ [thief, purse, swig, wallet, state, sub, systemId].Nodup)
    (hp : (m purse).owner = systemId ∧ (m purse).data = [] ∧ env.rent 72 + env.rent 0 + env.rent 128 ≤ (m purse).lamports) :
    ∃ m1 m2 b, process env cpi m (twin w.id thief swig wallet bump walletBump blockActs).accounts
        (twin w.id thief swig wallet bump walletBump blockActs).data = .ok m1 ∧
      Client.createSubV2 env swig purse state sub 0 sb ab (.ed25519 thief) = some b ∧
      (∀ a ∈ b.accounts, a.signer = true → a.key = thief ∨ a.key = purse) ∧ (∀ a ∈ b.accounts, a.key ≠ victim) ∧
      process env cpi m1 b.accounts b.data = .ok m2 ∧ Open m2 victim w ∧
      ∀ m3 : Mem, (m3 state).owner = (m2 state).owner → ∀ env' cpi' s p x rest ix, rd ix 0 2 = 18 → x.key = state →
        ∃ e, process env' cpi' m3 (s :: p :: x :: rest) ix = .error e := by
  have hlen : (writeActions blockActs).length = 16 := by
    rw [writeActions_enc _ (by decide), blockActs_acts]; decide
  obtain ⟨m1, c1, _, c2, c3, c4⟩ := twin_created (env := env) (cpi := cpi) (m := m) (swig := swig) (wallet := wallet) (thief := thief)
    (bump := bump) (walletBump := walletBump) (acts := blockActs) hv.wf.idLen (by rw [hlen]; exact ht) (by decide)
    (fun x hx => blockActs_fresh _ (List.mem_map_of_mem hx)) (by decide) (by decide) (by decide) (by rw [hlen]; decide)
  obtain ⟨hd0, hd⟩ := hd
  simp only [List.nodup_cons, List.mem_cons, List.not_mem_nil, or_false, not_or, not_false_eq_true, List.nodup_nil, and_true] at hd
  obtain ⟨⟨d1, d2, d3, d4, d5, d6⟩, ⟨d7, d8, d9, d10, d11⟩, ⟨d12, d13, d14, d15⟩, ⟨d16, d17, d18⟩, ⟨d19, d20⟩, d21⟩ := hd
  have hst : m1 state = m state := c4 state (Ne.symm d13) (Ne.symm d4) (Ne.symm d16)
  have hsu : m1 sub = m sub := c4 sub (Ne.symm d14) (Ne.symm d5) (Ne.symm d17)
  have hpu : m1 purse = m purse := c4 purse d7 (Ne.symm d1) d8
  have hvne : ∀ k : Key, (m k).owner ≠ swigId → k ≠ victim := by
    rintro k h rfl
    exact h hv.owner
  have hown : ∀ k, k ≠ swig → (m1 k).owner = (m k).owner := fun k hk => (c3 k hk).2
  have hel : (twinWallet w.id thief bump walletBump blockActs).encode.length = 112 := by
    rw [Wallet.encode_length c2.wf]
    simp [twinWallet, Wallet.addRole, Wallet.blank, blockActs_acts, rolesSize, Role.size, actsSize, Act.size, ht.key, encTail]
  obtain ⟨i1, i2, i3, i4, i5⟩ := createSubV2_read (role := 0) (sb := sb) (ab := ab) (payload := [5]) (by decide)
  have hact : ActsAs env m1 [Client.w swig, ws purse, Client.w state, Client.w sub, ro systemId, ros thief]
      (twinWallet w.id thief bump walletBump blockActs) 0 [5] (createSubV2Data 0 sb ab) ⟨1, 0, thief, blockActs.map Action.toAct⟩ :=
    twin_acts (a := ros thief) rfl rfl rfl ht.key
  obtain ⟨cls, e⟩ := process_of (env := env) (cpi := cpi) (m := m1) (f := Client.w swig) (rest := [ws purse, Client.w state, Client.w sub, ro systemId, ros thief])
    (ix := createSubV2Data 0 sb ab ++ [5]) c2.wf c2.data c2.owner
    (by
      intro a ha
      refine ⟨?_, ?_⟩
      · simp only [List.mem_cons, List.not_mem_nil, or_false] at ha
        rcases ha with rfl | rfl | rfl | rfl | rfl | rfl <;> simp only [Client.w, ws, ro, ros]
        · rw [c2.owner]; decide
        · rw [hpu, hp.1]; decide
        · rw [hst, hfree.1]; decide
        · rw [hsu, hfree.2.2]; decide
        · rw [hown _ (Ne.symm d15)]; exact ht.system.2
        · rw [hown _ d2, ht.payer.1]; decide
      · intro r hr x hx he
        simp only [twinWallet, Wallet.addRole, Wallet.blank, List.nil_append, List.mem_singleton] at hr
        subst hr
        rw [blockActs_acts] at hx
        simp only [List.mem_cons, List.not_mem_nil, or_false] at hx
        rcases hx with rfl | rfl <;> (dsimp only at he; exact absurd he (by decide))) (by simp)
  have hctr : (twinWallet w.id thief bump walletBump blockActs).subCounter = w.subCounter := by rw [hnone]; rfl
  obtain ⟨m2, hm⟩ := createSubV2_of (env := env) (m := m1) (swig := Client.w swig) (payer := ws purse) (state := Client.w state) (sub := Client.w sub)
    (sys := ro systemId) (rest := [ros thief]) (ix := createSubV2Data 0 sb ab ++ [5]) c2.wf c2.data c2.owner (isV2_of hb rfl) rfl
    (by simp [createSubV2Data]) (by rw [i1, i4, i5]; exact hact) ⟨⟨P.subAccountV2Create, []⟩, by simp [blockActs_acts], rfl⟩
    (by rw [hctr, hnone]; decide) (by rw [show (Client.w state).key = state from rfl, hst]; exact hfree.1)
    (by rw [show (Client.w state).key = state from rfl, hst]; exact hfree.2.1) (by rw [show (Client.w sub).key = sub from rfl, hsu]; exact hfree.2.2)
    (by rw [i2, hctr]; exact hp1) (by rw [i3, hctr]; exact hp2) blockActs_fresh (show (blockActs.map Action.toAct).length < 255 by decide) (by rw [hel]; decide)
    ⟨⟨d7, d9, d10⟩, ⟨d19, Ne.symm d14⟩, rfl, ⟨rfl, rfl, rfl, rfl⟩, by rw [show (ws purse).key = purse from rfl, hpu]; exact hp.1,
      by rw [show (ws purse).key = purse from rfl, hpu]; exact hp.2.1, by
        rw [show (ws purse).key = purse from rfl, hpu, hel]
        have := hp.2.2
        rw [show 112 + 16 = 128 from rfl]
        omega⟩
  obtain ⟨r', _, _, _, _, _, _, _, _, _, _, _, _, _, g14, g15⟩ := createSubV2_enc c2.wf c2.data hm
  refine ⟨m1, m2, _, c1, rfl, ?_, ?_, ?_, ?_, ?_⟩
  · intro a ha hs
    simp only [byEd, List.mem_cons, List.not_mem_nil, or_false] at ha
    rcases ha with rfl | rfl | rfl | rfl | rfl | rfl <;> first | exact .inl rfl | exact .inr rfl | cases hs
  · intro a ha
    simp only [byEd, List.mem_cons, List.not_mem_nil, or_false] at ha
    rcases ha with rfl | rfl | rfl | rfl | rfl | rfl <;> simp only [Client.w, ws, ro, ros]
    · exact hd0
    · exact hvne _ (by rw [hp.1]; decide)
    · exact hvne _ (by rw [hfree.1]; decide)
    · exact hvne _ (by rw [hfree.2.2]; decide)
    · exact hvne _ ht.system.1
    · exact hvne _ (by rw [ht.payer.1]; decide)
  · show process env cpi m1 [Client.w swig, ws purse, Client.w state, Client.w sub, ro systemId, ros thief] (createSubV2Data 0 sb ab ++ [5]) = .ok m2
    rw [e, dispatch, if_neg (by simp [createSubV2Data]), show rd (createSubV2Data 0 sb ab ++ [5]) 0 2 = 18 by
      simp only [createSubV2Data, List.append_assoc]; exact rd_here 2 18 _ (by decide)]
    exact hm
  · have h1 : victim ≠ swig := Ne.symm hd0
    have h2 : victim ≠ state := fun h => hvne state (by rw [hfree.1]; decide) h.symm
    obtain ⟨q1, q2⟩ := g15 victim h1 h2
    obtain ⟨q3, q4⟩ := c3 victim h1
    exact ⟨(q2.trans q4).trans hv.owner, hv.wf, (q1.trans q3).trans hv.data⟩
  · intro m3 h3 env' cpi' s p x rest ix hix hx
    rw [show (m2 state).owner = swigId from g14] at h3
    cases h : process env' cpi' m3 (s :: p :: x :: rest) ix with
    | error e => exact ⟨e, rfl⟩
    | ok m' =>
      exfalso
      unfold process at h
      obtain ⟨_, _, h⟩ := bind_ok_iff.mp h
      obtain ⟨cls, _, h⟩ := bind_ok_iff.mp h
      unfold dispatch at h
      split at h
      · cases h
      rw [hix] at h
      replace h : Verif.createSubV2 env' m3 (s :: p :: x :: rest) ix = .ok m' := h
      unfold Verif.createSubV2 at h
      revert h
      split
      · rename_i he
        cases he
        intro h
        obtain ⟨_, _, h⟩ := bind_ok_iff.mp h
        obtain ⟨_, hq, h⟩ := bind_ok_iff.mp h
        have := require_ok_iff.mp hq
        rw [hx, h3] at this
        exact absurd this (by decide)
      · intro h; cases h

/-- In `m'` every account is as in `m`, but may hold more lamports: what anybody can do to the accounts of others. -/
def Richer (m m' : Mem) : Prop := ∀ k, (m' k).owner = (m k).owner ∧ (m' k).data = (m k).data ∧ (m k).lamports ≤ (m' k).lamports

/-- Wallets: lamports sent to any other address than that of the configuration account, the wallet address included, prevent nothing. -/
theorem C105_create_partial {env : Env} {cpi : Cpi} {m m' : Mem} {swig payer wallet id : Key} {bump walletBump : UInt8} {ty : Nat}
    {auth : Auth} {cred : Bytes} {acts : List Action} (hid : id.length = 32)
    (hplain : ∀ k ∈ [swig, payer, wallet, systemId], (m k).owner ≠ swigId ∧ (m k).owner ≠ stakeId)
    (hfresh : m swig = ⟨systemId, 0, []⟩) (hw : (m wallet).owner = systemId ∧ (m wallet).data = [])
    (hsp : env.pda (swigSeeds id ++ [[bump]]) = some swig) (hwp : env.pda (walletSeeds swig ++ [[walletBump]]) = some wallet)
    (hcred : initialAuth ty cred = some auth) (hin : ∀ x ∈ acts, x.InRange) (hfr : ∀ x ∈ acts, x.toAct.Fresh)
    (hman : Action.all ∈ acts ∨ Action.manageAuthority ∈ acts) (h255 : acts.length ≤ 255) (hdup : NoV2Dup (acts.map Action.toAct))
    (hsize : 64 + auth.encode.length + (writeActions acts).length ≤ 10240) (hdist : [payer, swig, wallet, systemId].Nodup)
    (hp : (m payer).owner = systemId ∧ (m payer).data = [])
    (hfunds : env.rent (64 + auth.encode.length + (writeActions acts).length) + env.rent 0 ≤ (m payer).lamports)
    (hgift : Richer m m') (hno : (m' swig).lamports = 0) :
    ∃ m2, process env cpi m' (create swig payer wallet bump walletBump ty cred acts id).accounts
        (create swig payer wallet bump walletBump ty cred acts id).data = .ok m2 ∧
      (m2 swig).data = ((Wallet.blank id bump walletBump).addRole ty auth.encode (acts.map Action.toAct)).encode ∧ (m2 swig).owner = swigId := by
  simp only [List.nodup_cons, List.mem_cons, List.not_mem_nil, or_false, not_or, not_false_eq_true, List.nodup_nil, and_true] at hdist
  obtain ⟨⟨d1, d2, d3⟩, ⟨d4, d5⟩, d6⟩ := hdist
  obtain ⟨m2, h1, h2, h3, _⟩ := C70_create (env := env) (cpi := cpi) (m := m') (swig := swig) (payer := payer) (wallet := wallet) (id := id)
    (bump := bump) (walletBump := walletBump) (ty := ty) (cred := cred) (acts := acts) (auth := auth) hid (promoted_self _)
    (by
      intro k hk
      rw [(hgift k.key).1]
      simp only [create, List.mem_cons, List.not_mem_nil, or_false] at hk
      rcases hk with rfl | rfl | rfl | rfl <;> exact hplain _ (by simp [Client.w, ws]))
    (by
      obtain ⟨e1, e2, _⟩ := hgift swig
      rw [hfresh] at e1 e2
      revert e1 e2 hno
      rcases m' swig with ⟨o, l, d⟩
      rintro rfl rfl rfl
      rfl)
    (by rw [(hgift wallet).1, (hgift wallet).2.1]; exact hw) hsp hwp hcred hin hfr hman h255 hdup hsize ⟨d1, d2, d4⟩ ⟨d3, d5, d6⟩
    (by rw [(hgift payer).1, (hgift payer).2.1]; exact hp) (Nat.le_trans hfunds (hgift payer).2.2)
  exact ⟨m2, h1, h2, h3⟩

/-- V2 sub-accounts: lamports sent to the addresses of the sub-account in advance prevent nothing. -/
theorem C105_sub_partial {env : Env} {cpi : Cpi} {m m' : Mem} {metas : List Meta} {swig payer state sub : Key} {w : Wallet} {role : Nat}
    {r : Role} {a : Auth} {sb ab : UInt8} {c : Caller} {b : Built} {pre post : List TxIx} (hh : HashLength env)
    (hb : Client.createSubV2 env swig payer state sub role sb ab c = some b)
    (hr : Ready env m swig w role r a metas b pre post) (ho : ActsFor env a metas b pre c)
    (hv : w.walletBump ≠ 0 ∧ w.pad = zeros 3) (hperm : r.holds P.subAccountV2Create) (hnum : w.subCounter + 1 < 2 ^ 32)
    (hfresh : (m state).owner = systemId ∧ (m state).data = [] ∧ (m sub).owner = systemId)
    (hp1 : env.pda (subV2StateSeeds w.id (natLE 4 w.subCounter) ++ [[sb]]) = some state)
    (hp2 : env.pda (subV2Seeds w.id (natLE 4 w.subCounter) ++ [[ab]]) = some sub) (hsub : sub.length = 32)
    (hfr : ∀ x ∈ r.actions, x.Fresh) (h255 : r.actions.length < 255) (hsize : MayGrow w.encode.length 16)
    (hkeys : [payer, swig, state, sub, systemId].Nodup) (hpay : (m payer).owner = systemId ∧ (m payer).data = [])
    (hfunds : (env.rent 72 - (m state).lamports) + (env.rent 0 - (m sub).lamports) +
      (env.rent (w.encode.length + 16) - (m swig).lamports) ≤ (m payer).lamports) (hgift : Richer m m') :
    ∃ m2, process env cpi m' metas b.data = .ok m2 ∧ SubAt env m2 w state sub w.subCounter true sb ab := by
  have hr' : Ready env m' swig w role r a metas b pre post :=
    ⟨(hgift _).2.1.trans hr.stored, (hgift _).1.trans hr.owned, hr.wf, hr.small, hr.role, hr.cred,
      ⟨hr.sent.accounts, (hgift _).2.1.trans hr.sent.shown, hr.sent.fits⟩,
      fun x hx => by rw [(hgift x.key).1]; exact hr.plain x hx⟩
  obtain ⟨m2, acts, h1, _, _, _, h2, _⟩ := C77_create_sub (cpi := cpi) hh hb hr' ho hv hperm hnum
    (by rw [(hgift state).1, (hgift state).2.1, (hgift sub).1]; exact hfresh) hp1 hp2 hsub hfr h255 hsize hkeys
    (by rw [(hgift payer).1, (hgift payer).2.1]; exact hpay) (by
      have g1 := (hgift state).2.2
      have g2 := (hgift sub).2.2
      have g3 := (hgift swig).2.2
      have g4 := (hgift payer).2.2
      omega)
  exact ⟨m2, h1, h2⟩

section
open Sample SampleClient SampleTwo

/-- One lamport at `K 1`: the creation of the example of C70 fails. -/
example (cpi : Cpi) : ∃ e, process env1 cpi (mem0.setLamports (K 1) 1) (create (K 1) (K 10) (K 2) 255 254 1 (K 10) [.all] (K 70)).accounts
    (create (K 1) (K 10) (K 2) 255 254 1 (K 10) [.all] (K 70)).data = .error e :=
  C105_refuted (.inl (by decide +kernel)) (by decide +kernel)

/-- Lamports at the wallet address `K 2` change nothing. -/
example (cpi : Cpi) : ∃ m2, process env1 cpi (mem0.setLamports (K 2) 5000000) (create (K 1) (K 10) (K 2) 255 254 1 (K 10) [.all] (K 70)).accounts
      (create (K 1) (K 10) (K 2) 255 254 1 (K 10) [.all] (K 70)).data = .ok m2 ∧ (m2 (K 1)).owner = swigId := by
  obtain ⟨m2, h1, _, h2⟩ := C105_create_partial (env := env1) (cpi := cpi) (m := mem0) (m' := mem0.setLamports (K 2) 5000000) (swig := K 1)
    (payer := K 10) (wallet := K 2) (id := K 70) (bump := 255) (walletBump := 254) (ty := 1) (cred := K 10) (acts := [.all])
    (auth := ⟨.ed25519 (K 10), none⟩) (by decide)
    (by decide +kernel) (by decide +kernel) (by decide +kernel) (by decide +kernel) (by decide +kernel)
    (by decide +kernel) (by decide +kernel) (by decide +kernel) (by decide +kernel) (by decide +kernel) (by decide +kernel)
    (by decide +kernel) (by decide +kernel) (by decide +kernel) (by decide +kernel) (by
      intro k
      by_cases h : k = K 2
      · subst h; decide +kernel
      · simp [Mem.setLamports, Mem.set, h]) (by decide +kernel)
  exact ⟨m2, h1, h2⟩

/-- A wallet without sub-accounts, a stranger `K 12` and their purse `K 13`. -/
def freeMem : Mem := ((mem wallet).set (K 12) ⟨systemId, 9000000, []⟩).set (K 13) ⟨systemId, 9000000, []⟩

/-- The stranger takes the first sub-account. -/
example (cpi : Cpi) : ∃ m1 m2 b, process env2 cpi freeMem (twin (K 70) (K 12) (K 101) (K 102) 250 254 blockActs).accounts
      (twin (K 70) (K 12) (K 101) (K 102) 250 254 blockActs).data = .ok m1 ∧
    Client.createSubV2 env2 (K 101) (K 13) (K 4) (K 5) 0 255 255 (.ed25519 (K 12)) = some b ∧
    process env2 cpi m1 b.accounts b.data = .ok m2 ∧ Open m2 (K 1) wallet := by
  obtain ⟨m1, m2, b, h1, h2, _, _, h3, h4, _⟩ := C105_refuted_sub (env := env2) (cpi := cpi) (m := freeMem) (victim := K 1) (w := wallet)
    (state := K 4) (sub := K 5) (sb := 255) (ab := 255) (thief := K 12) (purse := K 13) (swig := K 101) (wallet := K 102) (bump := 250)
    (walletBump := 254) ⟨by decide +kernel, by decide +kernel, by decide +kernel⟩ (by decide +kernel) (by decide +kernel) (by decide +kernel)
    (by decide +kernel) ⟨by decide +kernel, by decide +kernel, by decide +kernel, by decide +kernel, by decide +kernel, by decide +kernel,
      by decide +kernel, by decide +kernel, by decide +kernel⟩ (by decide) (by decide +kernel) (by decide +kernel)
  exact ⟨m1, m2, b, h1, h2, h3, h4⟩

/-- Lamports at all addresses, and the creation of a sub-account still succeeds. -/
example (cpi : Cpi) : ∃ b, Client.createSubV2 env1 (K 1) (K 10) (K 4) (K 5) 1 255 254 callerK1 = some b ∧
    ∃ m', process env1 cpi (fun k => ⟨(onLedger (mem walletS) b k).owner, (onLedger (mem walletS) b k).lamports + 5, (onLedger (mem walletS) b k).data⟩)
        b.accounts b.data = .ok m' ∧ SubAt env1 m' walletS (K 4) (K 5) 1 true 255 254 := by
  refine ⟨_, rfl, ?_⟩
  exact C105_sub_partial (cpi := cpi) (m := onLedger (mem walletS) _) (swig := K 1) (payer := K 10)
    (state := K 4) (sub := K 5) (c := callerK1) (w := walletS) (sb := 255) (ab := 254) hash1 rfl
    (ready_on walletS_wf rfl rfl (by decide +kernel) (by decide +kernel) (show walletS.role? 1 = some subRole by decide +kernel) cred_k1
      (by decide +kernel) (by simp [byK1]) (by decide +kernel) (by decide +kernel)) acts_k1 (by decide) (by decide +kernel) (by decide +kernel)
    (by decide +kernel) (by decide +kernel) (by decide +kernel) (by decide) (by decide +kernel) (by decide +kernel) (by decide +kernel)
    (by decide +kernel) (by decide +kernel) (by decide +kernel) (fun k => ⟨rfl, rfl, Nat.le_add_right _ _⟩)

end
end Verif
