import Verif.Proofs.ClientBuild
import Verif.Proofs.ClientMore
import Verif.Spec.SampleClient

/-!
# Properties C69 - C71: requests built with the client library

The builders are those of Verif/Model/Client.lean.  What it means that a caller owns a credential and that instructions are sent
is in Verif/Spec/Client.lean.
-/

namespace Verif
open Client

/-! ## C69: actions mean to the program what they mean to the client -/

/-- A list of actions is serialised into exactly the bytes the program itself stores for these permissions, in order; every record is well
formed, and the parser of submitted actions reads exactly these permissions. -/
theorem C69_written_as_stored (acts : List Action) (h : ∀ a ∈ acts, a.InRange) :
    writeActions acts = encActs 0 (acts.map Action.toAct) ∧ Submits (writeActions acts) (acts.map Action.toAct) ∧
      ∀ a ∈ acts, a.toAct.WF :=
  ⟨writeActions_enc acts h, writeActions_submits acts h, fun a ha => Action.wf (h a ha)⟩

/-- Different lists of actions are serialised differently. -/
theorem C69_injective (as bs : List Action) (ha : ∀ a ∈ as, a.InRange) (hb : ∀ b ∈ bs, b.InRange)
    (h : writeActions as = writeActions bs) : as = bs := by
  have h1 := writeActions_submits as ha
  rw [h] at h1
  have h2 := h1.inj (writeActions_submits bs hb)
  clear h h1
  induction as generalizing bs with
  | nil => cases bs with
    | nil => rfl
    | cons b bs => cases h2
  | cons a as ih => cases bs with
    | nil => cases h2
    | cons b bs =>
      simp only [List.map_cons, List.cons.injEq] at h2
      rw [toAct_inj (ha a (by simp)) (hb b (by simp)) h2.1,
        ih bs (fun x hx => ha x (List.mem_cons_of_mem _ hx)) (fun x hx => hb x (List.mem_cons_of_mem _ hx)) h2.2]

/-- The program compares a repeatable permission by what the client named: program, mint, destination, target account, sub-account, role or
sub-account id. -/
theorem C69_key (a : Action) (h : a.InRange) (hr : repeatable a.header.1 = true) : keyOf a.header.1 a.bytes = a.key := by
  cases a with
  | tokenLimit m x => exact List.take_left' h.1
  | tokenDestinationLimit m d x =>
    exact List.take_left' (by have := h.1; have := h.2.1; simp; omega)
  | tokenRecurringLimit m w l c r =>
    simp only [Action.bytes, List.append_assoc]
    exact List.take_left' h.1
  | tokenRecurringDestinationLimit m d x w r c =>
    simp only [Action.bytes, List.append_assoc]
    rw [← List.append_assoc]
    exact List.take_left' (by have := h.1; have := h.2.1; simp; omega)
  | solDestinationLimit d x => exact List.take_left' h.1
  | solRecurringDestinationLimit d x w r c =>
    simp only [Action.bytes, List.append_assoc]
    exact List.take_left' h.1
  | program p => exact List.take_of_length_le (Nat.le_of_eq h)
  | programScope c l w r p t st nt s e =>
    obtain ⟨_, _, _, _, h5, h6, _⟩ := h
    simp only [Action.header, Action.bytes, Action.key]
    have := sl_mid (natLE 16 c ++ natLE 16 l ++ natLE 8 w ++ natLE 8 r ++ p) t (natLE 8 st ++ natLE 8 nt ++ natLE 8 s ++ natLE 8 e)
      (i := 80) (j := 112) (by simp [h5]) (by simp [h5, h6])
    simpa [List.append_assoc, keyOf, sl] using this
  | replaceAuthority r pad => exact List.take_left' (by simp)
  | subAccount x bump en pad r s =>
    simp only [Action.bytes, List.append_assoc]
    exact List.take_left' h.1
  | subAccountV2All i pad => exact List.take_left' (by simp)
  | subAccountV2Sign i pad => exact List.take_left' (by simp)
  | subAccountV2Withdraw i pad => exact List.take_left' (by simp)
  | subAccountV2Toggle i pad => exact List.take_left' (by simp)
  | _ => exact absurd hr (by simp only [Action.header]; decide)

/-- Charging a limit of the client charges what the client meant: the program accepts an amount exactly when the limit allows it and stores
exactly the limit that is left. -/
theorem C69_limits (a : Action) (h : a.InRange) (n slot : Nat) (d : Bytes) :
    chargeFn a.header.1 n slot a.bytes = .ok d ↔ ∃ a', a.spend n slot = some a' ∧ d = a'.bytes :=
  charge_spend h d

section
open Sample
/-- A list with a recurring token limit, a scope and a V2 grant is in range; what is left of the limit after spending. -/
example : ∀ a ∈ [Action.tokenRecurringLimit (K 3) 10 50 50 0, .programScope 0 5 9 0 (K 4) (K 5) 2 0 0 8, .subAccountV2Sign 7 (zeros 4)],
    a.InRange := by decide
example : (Action.tokenRecurringLimit (K 3) 10 50 20 95).spend 30 106 = some (.tokenRecurringLimit (K 3) 10 50 20 100) := by decide
example : (Action.tokenRecurringLimit (K 3) 10 50 20 95).spend 30 105 = none := by decide
example : repeatable (Action.programScope 0 5 9 0 (K 4) (K 5) 2 0 0 8).header.1 = true := by decide
end

/-! ## C70: an honest request succeeds and does what it says -/

theorem authOf_ready {env : Env} {m : Mem} {swig : Key} {w : Wallet} {acting : Nat} {r : Role} {a : Auth} {metas : List Meta} {b : Built}
    {pre post : List TxIx} {c : Caller} {data : Bytes} (hh : HashLength env) (hr : Ready env m swig w acting r a metas b pre post)
    (hf : Formed env data data c b) (ho : ActsFor env a metas b pre c) :
    ∃ payload, b.data = data ++ payload ∧ ActsAs env m metas w acting payload data r := by
  obtain ⟨payload, h1, h2⟩ := acts_accepts hh hr.cred.1 hf ho hr.sent
  rw [hr.cred.2.1, hr.cred.2.2] at h2
  exact ⟨payload, h1, hr.role, h2⟩

theorem acting_lt {w : Wallet} {id : Nat} {r : Role} (hw : w.WF) (h : w.role? id = some r) : id < 2 ^ 32 := by
  obtain ⟨h1, h2⟩ := role?_mem h
  have := hw.idsLt r h1
  have := hw.counter
  omega

theorem initialAuth_small {ty : Nat} {c : Bytes} {a : Auth} (h : initialAuth ty c = some a) : ty < 2 ^ 16 ∧ c.length < 2 ^ 16 := by
  unfold initialAuth at h
  repeat' split at h
  all_goals try cases h
  all_goals omega

/-- Creating a wallet at a fresh address: the request succeeds and the new wallet has the given id and the root role with the given
credential and permissions, among them All or ManageAuthority. -/
theorem C70_create {env : Env} {cpi : Cpi} {m : Mem} {metas : List Meta} {swig payer wallet id : Key} {bump walletBump : UInt8} {ty : Nat}
    {auth : Auth} {cred : Bytes} {acts : List Action} (hid : id.length = 32)
    (hs : Promoted (create swig payer wallet bump walletBump ty cred acts id).accounts metas)
    (hplain : ∀ k ∈ metas, (m k.key).owner ≠ swigId ∧ (m k.key).owner ≠ stakeId)
    (hfresh : m swig = ⟨systemId, 0, []⟩) (hw : (m wallet).owner = systemId ∧ (m wallet).data = [])
    (hsp : env.pda (swigSeeds id ++ [[bump]]) = some swig) (hwp : env.pda (walletSeeds swig ++ [[walletBump]]) = some wallet)
    (hcred : initialAuth ty cred = some auth) (hin : ∀ x ∈ acts, x.InRange) (hfr : ∀ x ∈ acts, x.toAct.Fresh)
    (hman : Action.all ∈ acts ∨ Action.manageAuthority ∈ acts) (h255 : acts.length ≤ 255) (hdup : NoV2Dup (acts.map Action.toAct))
    (hsize : 64 + auth.encode.length + (writeActions acts).length ≤ 10240)
    (hdist : payer ≠ swig ∧ payer ≠ wallet ∧ swig ≠ wallet) (hnsys : payer ≠ systemId ∧ swig ≠ systemId ∧ wallet ≠ systemId)
    (hp : (m payer).owner = systemId ∧ (m payer).data = [])
    (hfunds : env.rent (64 + auth.encode.length + (writeActions acts).length) + env.rent 0 ≤ (m payer).lamports) :
    ∃ m', process env cpi m metas (create swig payer wallet bump walletBump ty cred acts id).data = .ok m' ∧
      (m' swig).data = ((Wallet.blank id bump walletBump).addRole ty auth.encode (acts.map Action.toAct)).encode ∧
      (m' swig).owner = swigId ∧ ∀ k, k ≠ swig → (m' k).data = (m k).data ∧ (m' k).owner = (m k).owner := by
  obtain ⟨t1, t2⟩ := initialAuth_small hcred
  have hparse := parseCreate_built (swig := swig) (payer := payer) (wallet := wallet) (bump := bump) (walletBump := walletBump)
    (acts := acts) hid t1 t2
  obtain ⟨s, as, rfl, k1, _, w1, hs⟩ := hs.cons
  obtain ⟨p, as, rfl, k2, sg, w2, hs⟩ := hs.cons
  obtain ⟨x, as, rfl, k3, _, w3, hs⟩ := hs.cons
  obtain ⟨y, as, rfl, k4, _, _, hs⟩ := hs.cons
  have := hs.nil
  subst this
  have k1 : s.key = swig := k1
  have k2 : p.key = payer := k2
  have k3 : x.key = wallet := k3
  obtain ⟨cls, e⟩ := process_bare (env := env) (cpi := cpi) (ix := (create swig payer wallet bump walletBump ty cred acts id).data) hplain
    (by simp)
  have hlen : 1 ≤ acts.length := by
    rcases hman with h | h <;> exact List.length_pos_of_mem h
  obtain ⟨m', hm⟩ := createV1_of (env := env) (m := m) (swig := s) (payer := p) (wallet := x) (sys := y) (rest := [])
    (as := acts.map Action.toAct) hid hparse (by rw [k1, hfresh]) (by rw [k1, hfresh]) (by rw [k1, hfresh]) (by rw [k3]; exact hw.1)
    (by rw [k3]; exact hw.2) (by rw [k1]; exact hsp) (by rw [k1, k3]; exact hwp) hcred (writeActions_enc acts hin)
    (writeActions_submits acts hin)
    (by rcases hman with h | h
        · exact ⟨_, List.mem_map_of_mem h, Or.inl rfl⟩
        · exact ⟨_, List.mem_map_of_mem h, Or.inr rfl⟩)
    (by simpa using hfr) (by simpa using hlen) (by simpa using h255) hdup hsize (by rw [k1, k2, k3]; exact hdist) (sg rfl)
    (w2 rfl hnsys.1) (w1 rfl hnsys.2.1) (w3 rfl hnsys.2.2) (by rw [k2]; exact hp.1) (by rw [k2]; exact hp.2) (by rw [k2]; exact hfunds)
  refine ⟨m', ?_, ?_⟩
  · rw [e, dispatch, if_neg (by simp [create]), show rd (create swig payer wallet bump walletBump ty cred acts id).data 0 2 = 0 by
      simp only [create, List.append_assoc]; exact rd_here 2 0 _ (by decide)]
    exact hm
  · obtain ⟨c, al, a, as', g1, g2, g3, _, _, _, _, g8, _, g10, _, g12⟩ := createV1_enc hm
    have g1 := (createChecks_ok g1).2.2.1
    rw [hparse] at g1
    cases g1
    rw [hcred] at g2
    cases g2
    have := g3.inj (writeActions_submits acts hin)
    subst this
    rw [k1] at g8 g10 g12
    exact ⟨g8, g10, g12⟩

/-- Adding a role.  The wallet then has the new role with the new credential and exactly the given permissions, the acting credential is
used up once, nothing else has changed. -/
theorem C70_add {env : Env} {cpi : Cpi} {m : Mem} {metas : List Meta} {swig payer : Key} {w : Wallet} {acting ty : Nat} {r : Role}
    {a auth : Auth} {cred : Bytes} {acts : List Action} {c : Caller} {pre post : List TxIx} (hh : HashLength env)
    (hr : Ready env m swig w acting r a metas (addAuthority env swig payer acting ty cred acts c) pre post)
    (ho : ActsFor env a metas (addAuthority env swig payer acting ty cred acts c) pre c)
    (hperm : r.holds P.all ∨ r.holds P.manageAuthority) (hcred : initialAuth ty cred = some auth)
    (hin : ∀ x ∈ acts, x.InRange) (hfr : ∀ x ∈ acts, x.toAct.Fresh) (h1 : 1 ≤ acts.length) (h255 : acts.length ≤ 255)
    (hdup : NoV2Dup (acts.map Action.toAct)) (hlen : (writeActions acts).length < 2 ^ 16) (hcount : w.roles.length + 1 < 2 ^ 16)
    (hctr : w.roleCounter + 1 < 2 ^ 32)
    (hsize : MayGrow w.encode.length (16 + auth.encode.length + (writeActions acts).length))
    (hpay : Pays env m payer swig (w.encode.length + (16 + auth.encode.length + (writeActions acts).length))) :
    ∃ m', process env cpi m metas (addAuthority env swig payer acting ty cred acts c).data = .ok m' ∧
      (m' swig).data = ((w.used acting).addRole ty auth.encode (acts.map Action.toAct)).encode ∧ OnlyData m m' swig ∧
      ((w.used acting).addRole ty auth.encode (acts.map Action.toAct)).WF := by
  obtain ⟨payload, hd, hact⟩ := authOf_ready hh hr (manageBy_formed env swig payer _ c) ho
  obtain ⟨s, p, y, rest, rfl, hrest, hs, hp, hy, hsw, hpw, hps⟩ := manageBy_accounts hr.sent.accounts
  obtain ⟨t1, t2⟩ := initialAuth_small hcred
  have hparse := parseAdd_built (payload := payload) (acting_lt hr.wf hr.role) t1 t2 hlen (acts := acts)
  rw [show (addAuthority env swig payer acting ty cred acts c).data = _ from hd]
  have hst := hr.stored
  have how := hr.owned
  rw [← hs] at hst how
  obtain ⟨cls, e⟩ := process_of (env := env) (cpi := cpi) (ix := Client.addData acting ty cred acts ++ payload) hr.wf hst how hr.plain
    (by simp; omega)
  obtain ⟨m', hm⟩ := addAuthorityV1_of (as := acts.map Action.toAct) hr.wf hst how hy hcount hctr hparse hact hperm hcred
    (writeActions_submits acts hin) (by simpa using hfr) (by simpa using h1) (by simpa using h255) hdup hsize
    (canPay_of hpay hs hp hsw hpw hps).topped
  refine ⟨m', ?_, ?_⟩
  · rw [e, dispatch, if_neg (by simp [Client.addData]), show rd (Client.addData acting ty cred acts ++ payload) 0 2 = 1 by
      simp only [Client.addData, List.append_assoc]; exact rd_here 2 1 _ (by decide)]
    exact hm
  · obtain ⟨x, r', cred', as', g1, g2, g3, g4, g5, g6, g7, g8, g9, g10, g11, g12⟩ :=
      addAuthorityV1_enc hr.wf hst hcount hctr hm
    rw [hparse] at g1
    cases g1
    rw [hcred] at g4
    cases g4
    have := g5.inj (writeActions_submits acts hin)
    subst this
    rw [hs] at g10 g12
    exact ⟨g10, g12, g11⟩

/-- Removing a role: the role is gone, nothing else has changed except that the acting credential is used up once. -/
theorem C70_remove {env : Env} {cpi : Cpi} {m : Mem} {metas : List Meta} {swig payer : Key} {w : Wallet} {acting target : Nat}
    {r t : Role} {a : Auth} {c : Caller} {pre post : List TxIx} (hh : HashLength env)
    (hr : Ready env m swig w acting r a metas (removeAuthority env swig payer acting target c) pre post)
    (ho : ActsFor env a metas (removeAuthority env swig payer acting target c) pre c)
    (hperm : (r.holds P.all ∨ r.holds P.manageAuthority) ∨ acting = target) (ht : w.role? target = some t) (h0 : target ≠ 0) :
    ∃ m', process env cpi m metas (removeAuthority env swig payer acting target c).data = .ok m' ∧
      (m' swig).data = ((w.used acting).removeRole target).encode ∧ OnlyData m m' swig := by
  obtain ⟨n, hb⟩ : ∃ n, removeAuthority env swig payer acting target c = manageBy env swig payer (removeData n acting target) c := by
    cases c <;> exact ⟨_, rfl⟩
  rw [hb] at hr ho ⊢
  obtain ⟨payload, hd, hact⟩ := authOf_ready hh hr (manageBy_formed env swig payer _ c) ho
  obtain ⟨s, p, y, rest, rfl, hrest, hs, hp, hy, hsw, hpw, hps⟩ := manageBy_accounts hr.sent.accounts
  have hparse := parseRemove_built (n := n) (payload := payload) (acting_lt hr.wf hr.role) (acting_lt hr.wf ht)
  rw [hd]
  have hst := hr.stored
  have how := hr.owned
  rw [← hs] at hst how
  obtain ⟨cls, e⟩ := process_of (env := env) (cpi := cpi) (ix := removeData n acting target ++ payload) hr.wf hst how hr.plain
    (by simp; omega)
  obtain ⟨m', hm⟩ := removeAuthorityV1_of hr.wf hst how hy hr.small hparse h0 hact hperm ht
  refine ⟨m', ?_, ?_⟩
  · rw [e, dispatch, if_neg (by simp [removeData]), show rd (removeData n acting target ++ payload) 0 2 = 2 by
      simp only [removeData, List.append_assoc]; exact rd_here 2 2 _ (by decide)]
    exact hm
  · obtain ⟨x, r', t', g1, g2, g3, g4, g5, g6, g7, g8, g9⟩ := removeAuthorityV1_enc hr.wf hst hm
    rw [hparse] at g1
    cases g1
    rw [hs] at g6 g8
    exact ⟨g6, g8⟩

/-- What the permissions of a role are after a change. -/
def Client.Change.result (old : List Act) : Change → List Act
  | .replaceAll acts => acts.map Action.toAct
  | .addActions acts => old ++ acts.map Action.toAct
  | .removeByType types => old.filter fun a => UInt8.ofNat a.ty ∉ types
  | .removeByIndex indices => dropPositions old indices

/-- The actions named by a change. -/
def Client.Change.acts : Change → List Action
  | .replaceAll acts => acts
  | .addActions acts => acts
  | _ => []

/-- The indices named by a change. -/
def Client.Change.indices : Change → List Nat
  | .removeByIndex is => is
  | _ => []

theorem op_result {ch : Change} {old : List Act} (hin : ∀ x ∈ ch.acts, x.InRange) : ch.op.Result old (ch.result old) := by
  cases ch with
  | replaceAll acts => exact writeActions_submits acts hin
  | addActions acts => exact ⟨_, writeActions_submits acts hin, rfl⟩
  | removeByType ts => rfl
  | removeByIndex is => rfl

theorem op_result_unique {ch : Change} {old new : List Act} (hin : ∀ x ∈ ch.acts, x.InRange) (h : ch.op.Result old new) :
    new = ch.result old := by
  cases ch with
  | replaceAll acts => exact Submits.inj h (writeActions_submits acts hin)
  | addActions acts =>
    obtain ⟨extra, h1, rfl⟩ := h
    rw [Submits.inj h1 (writeActions_submits acts hin)]
    rfl
  | removeByType ts => exact h
  | removeByIndex is => exact h

/-- Changing the permissions of a role.  When they grow, the payer covers the rent. -/
theorem C70_update {env : Env} {cpi : Cpi} {m : Mem} {metas : List Meta} {swig payer : Key} {w : Wallet} {acting target : Nat}
    {r t : Role} {a : Auth} {ch : Change} {c : Caller} {pre post : List TxIx} (hh : HashLength env)
    (hr : Ready env m swig w acting r a metas (updateAuthority env swig payer acting target ch c) pre post)
    (ho : ActsFor env a metas (updateAuthority env swig payer acting target ch c) pre c)
    (hperm : r.holds P.all ∨ r.holds P.manageAuthority) (ht : w.role? target = some t)
    (hin : ∀ x ∈ ch.acts, x.InRange) (hix : ∀ i ∈ ch.indices, i < 2 ^ 16) (hlen : ch.bytes.length < 2 ^ 16)
    (hfr : ∀ x ∈ ch.result t.actions, x.Fresh) (h1 : 1 ≤ (ch.result t.actions).length) (h255 : (ch.result t.actions).length ≤ 255)
    (hdup : NoV2Dup (ch.result t.actions))
    (hgrow : ch.op.growth (actsSize t.actions) > 0 → MayGrow w.encode.length (ch.op.growth (actsSize t.actions)) ∧
      Pays env m payer swig (w.encode.length + ch.op.growth (actsSize t.actions))) :
    ∃ m', process env cpi m metas (updateAuthority env swig payer acting target ch c).data = .ok m' ∧
      (m' swig).data = ((w.used acting).setActions target (ch.result t.actions)).encode ∧ OnlyData m m' swig ∧
      ((w.used acting).setActions target (ch.result t.actions)).WF := by
  obtain ⟨payload, hd, hact⟩ := authOf_ready hh hr (manageBy_formed env swig payer _ c) ho
  obtain ⟨s, p, y, rest, rfl, hrest, hs, hp, hy, hsw, hpw, hps⟩ := manageBy_accounts hr.sent.accounts
  have hparse := parseUpdate_built (payload := payload) (acting_lt hr.wf hr.role) (acting_lt hr.wf ht) hlen
    (fun is h => by subst h; exact hix)
  rw [show (updateAuthority env swig payer acting target ch c).data = _ from hd]
  have hst := hr.stored
  have how := hr.owned
  rw [← hs] at hst how
  obtain ⟨cls, e⟩ := process_of (env := env) (cpi := cpi) (ix := Client.updateData acting target ch ++ payload) hr.wf hst how hr.plain
    (by simp; omega)
  obtain ⟨m', hm⟩ := updateAuthorityV1_of hr.wf hst how hy hr.small hparse hact hperm ht (op_result hin) hfr h1 h255 hdup
    (fun hg => ⟨(hgrow hg).1, (canPay_of (hgrow hg).2 hs hp hsw hpw hps).topped⟩)
  refine ⟨m', ?_, ?_⟩
  · rw [e, dispatch, if_neg (by simp [Client.updateData]), show rd (Client.updateData acting target ch ++ payload) 0 2 = 3 by
      simp only [Client.updateData, List.append_assoc]; exact rd_here 2 3 _ (by decide)]
    exact hm
  · obtain ⟨x, r', t', as', g1, g2, g3, g4, g5, _, _, _, _, g6, g7, g8⟩ := updateAuthorityV1_enc hr.wf hst hm
    rw [hparse] at g1
    cases g1
    rw [ht] at g4
    cases g4
    rw [op_result_unique hin g5] at g6 g7
    rw [hs] at g6 g8
    exact ⟨g6, g8, g7⟩

/-- Registering the rent claimer (there is no builder for program-exec callers). -/
theorem C70_claimer {env : Env} {cpi : Cpi} {m : Mem} {metas : List Meta} {swig payer wallet claimer : Key} {w : Wallet} {role : Nat}
    {r : Role} {a : Auth} {c : Caller} {b : Built} {pre post : List TxIx} (hh : HashLength env)
    (hb : setRentClaimer env swig payer role claimer c = some b)
    (hr : Ready env m swig w role r a metas b pre post) (ho : ActsFor env a metas b pre c)
    (hperm : r.holds P.all ∨ r.holds P.closeSwigAuthority) (hnone : w.claimer = none)
    (hk : claimer.length = 32) (c1 : claimer ≠ zeros 32) (c2 : claimer ≠ swig)
    (hwal : env.pda (walletSeeds swig ++ [[w.walletBump]]) = some wallet) (c3 : claimer ≠ wallet)
    (hsize : MayGrow w.encode.length 40) (hpay : Pays env m payer swig (w.encode.length + 40)) :
    ∃ m', process env cpi m metas b.data = .ok m' ∧
      (m' swig).data = ((w.used role).setClaimer claimer).encode ∧ OnlyData m m' swig := by
  have hb' : b = manageBy env swig payer (claimerData role claimer) c := by
    cases c <;> simp [setRentClaimer] at hb <;> exact hb.symm
  subst hb'
  obtain ⟨payload, hd, hact⟩ := authOf_ready hh hr (manageBy_formed env swig payer _ c) ho
  obtain ⟨s, p, y, rest, rfl, hrest, hs, hp, hy, hsw, hpw, hps⟩ := manageBy_accounts hr.sent.accounts
  have hparse := parseClaimer_built (payload := payload) (acting_lt hr.wf hr.role) hk
  rw [hd]
  have hst := hr.stored
  have how := hr.owned
  rw [← hs] at hst how c2 hwal
  obtain ⟨cls, e⟩ := process_of (env := env) (cpi := cpi) (ix := claimerData role claimer ++ payload) hr.wf hst how hr.plain
    (by simp; omega)
  obtain ⟨m', hm⟩ := setRentClaimerV1_of hr.wf hst how hy hsize hparse c1 c2 hwal c3 hact hperm hnone
    (canPay_of hpay hs hp hsw hpw hps).topped
  refine ⟨m', ?_, ?_⟩
  · rw [e, dispatch, if_neg (by simp [claimerData]), show rd (claimerData role claimer ++ payload) 0 2 = 17 by
      simp only [claimerData, List.append_assoc]; exact rd_here 2 17 _ (by decide)]
    exact hm
  · obtain ⟨x, r', wal, g1, _, _, _, _, _, _, _, g6, _, g8⟩ := setRentClaimerV1_enc hr.wf hst hm
    rw [hparse] at g1
    cases g1
    rw [hs] at g6 g8
    exact ⟨g6, g8⟩

theorem session_formed (env : Env) (swig payer : Key) (role duration : Nat) (key : Key) (c : Caller) :
    Formed env (sessionData role duration key) (sessionData role duration key) c (createSession env swig payer role duration key c) := by
  cases c with
  | ed25519 k => exact .ed25519 (m := ros k) rfl rfl rfl
  | secp256k1 sign slot counter => exact manageBy_formed env swig payer _ (.secp256k1 sign slot counter)
  | secp256r1 sign pk slot counter => exact manageBy_formed env swig payer _ (.secp256r1 sign pk slot counter)
  | exec p t => exact manageBy_formed env swig payer _ (.exec p t)

theorem session_accounts {env : Env} {swig payer : Key} {role duration : Nat} {key : Key} {c : Caller} {seen : List Meta}
    (h : Promoted (createSession env swig payer role duration key c).accounts seen) :
    ∃ s p y rest, seen = s :: p :: y :: rest ∧ rest.length ≤ 1 ∧ s.key = swig := by
  have hl := h.length
  have h' : ∃ x tl, (createSession env swig payer role duration key c).accounts = w swig :: ws payer :: x :: tl ∧ tl.length ≤ 1 := by
    cases c <;> exact ⟨_, _, rfl, by simp⟩
  obtain ⟨x, tl, e, ht⟩ := h'
  rw [e] at h
  obtain ⟨s, as, rfl, h1, _, h2, h⟩ := h.cons
  obtain ⟨p, as, rfl, h3, h4, h5, h⟩ := h.cons
  obtain ⟨y, as, rfl, h6, _, _, h⟩ := h.cons
  exact ⟨s, p, y, as, rfl, by rw [h.length]; exact ht, h1⟩

/-- Opening a session, with the main credential: the session key may then act until `duration` slots from now. -/
theorem C70_session {env : Env} {cpi : Cpi} {m : Mem} {metas : List Meta} {swig payer key : Key} {w : Wallet} {role duration : Nat}
    {r : Role} {a : Auth} {s : Session} {c : Caller} {pre post : List TxIx} (hh : HashLength env)
    (hr : Ready env m swig w role r a metas (createSession env swig payer role duration key c) pre post)
    (ho : Owns env a metas (createSession env swig payer role duration key c) pre c)
    (hss : a.session = some s) (hk : key.length = 32) (hdur : duration ≤ s.max) :
    ∃ m', process env cpi m metas (createSession env swig payer role duration key c).data = .ok m' ∧
      (m' swig).data = (w.setAuth role (⟨a.cred.used, some ⟨key, s.max, (env.slot + duration) % 2 ^ 64⟩⟩ : Auth).encode).encode ∧
      m' = m.setData swig (m' swig).data := by
  obtain ⟨payload, hd, u, hau⟩ := owns_accepts hh hr.cred.1 (session_formed env swig payer role duration key c) ho hr.sent
  rw [hr.cred.2.1, hr.cred.2.2] at hau
  obtain ⟨sw, p, y, rest, rfl, hrest, hs⟩ := session_accounts hr.sent.accounts
  have hmax : s.max < 2 ^ 64 := (hr.cred.1.2 s hss).max
  have hparse := parseSession_built (payload := payload) (acting_lt hr.wf hr.role) (by omega) hk (duration := duration)
  rw [hd]
  have hst := hr.stored
  have how := hr.owned
  rw [← hs] at hst how
  obtain ⟨cls, e⟩ := process_of (env := env) (cpi := cpi) (ix := sessionData role duration key ++ payload) hr.wf hst how hr.plain
    (by simp; omega)
  obtain ⟨m', hm⟩ := createSessionV1_of hr.wf hst how hparse hr.role hr.cred.1 hr.cred.2.1 hr.cred.2.2 hss hau hdur
  refine ⟨m', ?_, ?_⟩
  · rw [e, dispatch, if_neg (by simp [sessionData]), show rd (sessionData role duration key ++ payload) 0 2 = 5 by
      simp only [sessionData, List.append_assoc]; exact rd_here 2 5 _ (by decide)]
    exact hm
  · obtain ⟨x, r', auth, s', g1, g2, g3, g4, g5, g6, _, _, g7, _, g8⟩ := createSessionV1_enc hr.wf hst hm
    rw [hparse] at g1
    cases g1
    rw [hr.role] at g2
    cases g2
    have : auth = a := Auth.encode_inj g3 hr.cred.1 (by rw [g4, hr.cred.2.1]) (by rw [g5, hr.cred.2.2])
    subst this
    rw [hss] at g6
    cases g6
    rw [hs] at g7 g8
    exact ⟨g7, g8⟩

theorem replace_formed {env : Env} {swig wallet : Key} {acting target : Nat} {new data : Bytes} {c : Caller} {b : Built}
    (hd : replaceData acting target new = some data) (hb : replaceAuthority env swig wallet acting target new c = some b) :
    Formed env data data c b ∧ ∃ tl, b.accounts = w swig :: tl ∧ tl.length ≤ 2 := by
  unfold replaceAuthority at hb
  rw [hd, Option.bind_some] at hb
  cases c with
  | ed25519 k => cases hb; exact ⟨.ed25519 (m := ros k) rfl rfl rfl, _, rfl, by simp⟩
  | secp256k1 sign slot counter => cases hb; exact ⟨.secp256k1 (by simp), _, rfl, by simp⟩
  | secp256r1 sign pk slot counter =>
    cases hb; exact ⟨.secp256r1 (m := ro instructionsSysvarId) (by simp) rfl rfl, _, rfl, by simp⟩
  | exec p t =>
    cases t with
    | none => cases hb; exact ⟨.exec (m := ro instructionsSysvarId) rfl rfl, _, rfl, by simp⟩
    | some i => cases hb

/-- What the library computes for the proof of a replacement is what the program compares with. -/
theorem proofData_some {env : Env} {swig wallet : Key} {acting target : Nat} {auth : Auth} {new key d : Bytes} (hw : auth.WF)
    (hnk : auth.cred.newKey new = some key) (h : proofData env swig wallet acting target auth.ty auth.cred.key new = some d) :
    d = ascii "rplauth1" ++ env.sha256 (proofPreimage swig wallet acting target auth.ty auth.cred.key key) := by
  have hc := hw.cred
  have hk : proofKey auth.ty auth.cred.key = some auth.cred.key ∧ proofKey auth.ty new = some key := by
    obtain ⟨c, s⟩ := auth
    cases c with
    | exec => cases hnk
    | ed25519 pk => cases s <;> simp_all [Auth.ty, proofKey, Cred.key, Cred.newKey, Cred.WF, T.ed25519, T.ed25519Session] <;>
      (obtain ⟨h1, rfl⟩ := hnk; exact h1)
    | secp256k1 pk pad n =>
      cases s <;> simp_all [Auth.ty, proofKey, Cred.key, Cred.newKey, Cred.WF, T.ed25519, T.ed25519Session, T.secp256k1, T.secp256k1Session]
    | secp256r1 pk pad n =>
      cases s <;> simp_all [Auth.ty, proofKey, Cred.key, Cred.newKey, Cred.WF, T.ed25519, T.ed25519Session, T.secp256k1, T.secp256k1Session,
        T.secp256r1, T.secp256r1Session] <;> (obtain ⟨h1, rfl⟩ := hnk; exact h1)
  unfold proofData at h
  rw [hk.1, Option.bind_some, hk.2, Option.bind_some] at h
  rw [← Option.some.inj h]
  rfl

/-- The proof of the preceding instruction is loaded. -/
theorem loadProof_of {env : Env} {m : Mem} {s wl x : Meta} {p : TxIx} {m0 m1 : Meta} {ms : List Meta} {pre rest : List TxIx} {metas : List Meta}
    {bump : UInt8} {hash : Bytes}
    (hcan : Canonical env (walletSeeds s.key) bump wl.key) (hi : metas[2]? = some x) (hx : x.key = instructionsSysvarId)
    (hsys : (m instructionsSysvarId).data = sysvarEncode (pre ++ p :: rest) (pre.length + 1)) (htx : TxOk (pre ++ p :: rest) (pre.length + 1))
    (hacc : p.accounts = m0 :: m1 :: ms) (k0 : m0.key = s.key) (k1 : m1.key = wl.key)
    (hdata : p.data = ascii "rplauth1" ++ hash) (hh : hash.length = 32) : loadProof env m s wl metas [2] = .ok (wl.key, hash) := by
  obtain ⟨A, B, he, ho, _⟩ := sysIxOff_enc htx
  have hok := htx.ix
  obtain ⟨_, g2, g3⟩ := ix_fields hok A B
  have g4 := ix_count hok A B
  have w0 := ix_meta hok A B (j := 0) (m := m0) (by rw [hacc]; rfl)
  have w1 := ix_meta hok A B (j := 1) (m := m1) (by rw [hacc]; rfl)
  have q0 : getOr metas (List.getD [(2 : UInt8)] 0 0).toNat E.au_invalidAuthorityPayload = .ok x := by
    show getOr metas 2 _ = _
    simp [getOr, hi]
  have hl8 : (ascii "rplauth1").length = 8 := by decide
  unfold loadProof
  rw [findPda_canonical hcan, ok_bind]
  simp only
  rw [require_of trivial, ok_bind, require_of (by decide), ok_bind, q0, ok_bind, require_of hx, ok_bind, hsys, sysCurrent_enc htx, ok_bind,
    if_neg (by decide), Nat.add_sub_cancel, require_of (by omega), ok_bind, ho, ok_bind, he, g2, ok_bind]
  simp only
  rw [g3, ok_bind, require_of (by
      rw [hdata]
      refine ⟨by simp [hh, hl8], ?_⟩
      rw [sl_left _ _ _ _ (by omega)]
      rfl), ok_bind, g4, ok_bind, require_of (by rw [hacc]; simp), ok_bind, w0, ok_bind, w1, ok_bind, require_of k0, ok_bind, require_of k1, ok_bind]
  rw [hdata]
  have := sl_mid (ascii "rplauth1") hash [] (i := 8) (j := 40) hl8 (by rw [hl8, hh])
  rw [List.append_nil] at this
  rw [this]

/-- Replacing the key of a role.  If the acting role has a program-exec credential without sessions, the preceding instruction must also
prove the replacement (C41): its data are those the library computes for it. -/
theorem C70_replace {env : Env} {cpi : Cpi} {m : Mem} {metas : List Meta} {swig wallet : Key} {w : Wallet} {acting target : Nat}
    {new key : Bytes} {r t : Role} {a auth : Auth} {c : Caller} {b : Built} {pre post : List TxIx} (hh : HashLength env)
    (hb : replaceAuthority env swig wallet acting target new c = some b)
    (hr : Ready env m swig w acting r a metas b pre post) (ho : ActsFor env a metas b pre c)
    (hperm : r.holds P.all ∨ r.holds P.manageAuthority ∨ r.holdsFor P.replaceAuthority (natLE 4 target))
    (hx : r.authType = T.programExec → (∃ p bump, c = .exec p none ∧ Canonical env (walletSeeds swig) bump wallet ∧
      proofData env swig wallet acting target t.authType auth.cred.key new = some p.data) ∧ ∀ b, (env.sha256 b).length = 32)
    (ht : w.role? target = some t) (hauth : auth.WF ∧ auth.ty = t.authType ∧ auth.encode = t.auth)
    (hnk : auth.cred.newKey new = some key) (hne : auth.cred.key ≠ key) :
    ∃ m', process env cpi m metas b.data = .ok m' ∧
      (m' swig).data = ((w.used acting).setAuth target (auth.withKey key).encode).encode ∧ m' = m.setData swig (m' swig).data := by
  obtain ⟨data, hdata⟩ : ∃ data, replaceData acting target new = some data := by
    cases h : replaceData acting target new with
    | none => simp [replaceAuthority, h] at hb
    | some d => exact ⟨d, rfl⟩
  obtain ⟨hf, tl, hacc, htl⟩ := replace_formed hdata hb
  obtain ⟨payload, hd, hact⟩ := authOf_ready hh hr hf ho
  have hprom := hr.sent.accounts
  rw [hacc] at hprom
  obtain ⟨s, rest, rfl, hs, _, _, hprom⟩ := hprom.cons
  have hs : s.key = swig := hs
  have hl := hprom.length
  have hparse := parseReplace_built (payload := payload) (acting_lt hr.wf hr.role) (acting_lt hr.wf ht) hdata
  rw [hd]
  have hst := hr.stored
  have how := hr.owned
  rw [← hs] at hst how
  obtain ⟨cls, e⟩ := process_of (env := env) (cpi := cpi) (ix := data ++ payload) hr.wf hst how hr.plain (by simp; omega)
  obtain ⟨m', hm⟩ : ∃ m', replaceAuthorityV1 env m (s :: rest) (data ++ payload) = .ok m' := by
    by_cases hty : r.authType = T.programExec
    · obtain ⟨⟨p, bump, rfl, hcan, hpd⟩, hsha⟩ := hx hty
      have hbe : b = byExec p [Client.w swig, ro wallet, ro instructionsSysvarId] data 2 none := by
        simp only [replaceAuthority, hdata, Option.bind_some] at hb
        exact (Option.some.inj hb).symm
      subst hbe
      have hpay : payload = [2] := (List.append_cancel_left (show data ++ [2] = data ++ payload from hd)).symm
      subst hpay
      rw [← hauth.2.1] at hpd
      have hpd' := proofData_some hauth.1 hnk hpd
      obtain ⟨sn, ho⟩ | ⟨_, _, _, ho⟩ := ho
      rotate_left
      · cases ho
      obtain ⟨program, plen, pad, buf, _, hprov, _⟩ := ho
      obtain ⟨m0, m1, ms, a0, a1, as, q1, q2, q3, q4⟩ := hprov.accounts
      cases q2
      have hp3 := hr.sent.accounts
      obtain ⟨wl, hwl, hwk, _⟩ := hp3.at (i := 1) (a := ro wallet) rfl
      obtain ⟨x, hxx, hxk, _⟩ := hp3.at (i := 2) (a := ro instructionsSysvarId) rfl
      have hshown := hr.sent.shown
      have hfits := hr.sent.fits
      simp only [byExec, List.length_singleton, List.append_assoc, List.singleton_append] at hshown hfits
      refine replaceAuthorityV1_with (proof := some (wl.key, env.sha256 (proofPreimage swig wallet acting target auth.ty auth.cred.key key)))
        hr.wf hst how hparse hact hperm ?_ ?_ ht hauth.1 hauth.2.1 hauth.2.2 hnk hne
      · unfold requiredProof
        rw [if_pos hty]
        have hg : getOr (s :: rest) 1 E.au_invalidAuthorityPayload = .ok wl := by simp only [getOr, hwl]
        have hwk : wl.key = wallet := hwk
        rw [hg, ok_bind, loadProof_of (by rw [hs, hwk]; exact hcan) hxx hxk hshown hfits q1 (by rw [hs]; exact q3) (by rw [hwk]; exact q4) hpd' (hsha _)]
        rfl
      · rintro wk h e
        cases e
        rw [hs, show wl.key = wallet from hwk, hauth.2.1]
    · exact replaceAuthorityV1_of hr.wf hst how hparse hact hperm hty ht hauth.1 hauth.2.1 hauth.2.2 hnk hne
  have hw2 : ∃ tail, data = natLE 2 16 ++ tail := by
    unfold replaceData at hdata
    split at hdata
    · cases hdata
      exact ⟨_, by simp only [List.append_assoc]; rfl⟩
    · cases hdata
  obtain ⟨tail, htail⟩ := hw2
  refine ⟨m', ?_, ?_⟩
  · rw [e, dispatch, if_neg (by simp [htail]), show rd (data ++ payload) 0 2 = 16 by
      rw [htail]; simp only [List.append_assoc]; exact rd_here 2 16 _ (by decide)]
    exact hm
  · obtain ⟨x, r', t', auth', key', g1, g2, g3, g4, g5, g6, g7, g8, g9, _, g10, _, g11⟩ := replaceAuthorityV1_enc hr.wf hst hm
    rw [hparse] at g1
    cases g1
    rw [ht] at g4
    cases g4
    have : auth' = auth := Auth.encode_inj g5 hauth.1 (by rw [g6, hauth.2.1]) (by rw [g7, hauth.2.2])
    subst this
    rw [hnk] at g8
    cases g8
    rw [hs] at g10 g11
    exact ⟨g10, g11⟩

/-! Concrete cases: the hypotheses of the theorems above are met by requests of all kinds of callers. -/
section
open Sample SampleClient

theorem wallet1_wf : wallet1.WF where
  idLen := by decide
  padLen := by decide
  counter := by decide
  subCounter := by decide
  count := by decide
  roles := by
    intro r hr
    simp only [wallet1, roles, List.mem_cons, List.not_mem_nil, or_false] at hr
    rcases hr with rfl | rfl | rfl | rfl | rfl
    all_goals exact ⟨by decide, by decide, by decide, by decide, by decide⟩
  idsNodup := by decide
  idsLt := by decide
  claimer := by simp [wallet1]
  size := by decide

theorem promoted_self (l : List Meta) : Promoted l l :=
  ⟨rfl, fun _ a h hs => ⟨a, h, hs⟩, fun _ a h hs _ => ⟨a, h, hs⟩⟩

/-- A request for the sample wallet is ready. -/
theorem ready_sample {acting : Nat} {r : Role} {a : Auth} {b : Built} (hrole : wallet1.role? acting = some r)
    (hc : a.WF ∧ a.ty = r.authType ∧ a.encode = r.auth)
    (hk : ∀ x ∈ b.accounts, x.key ∈ [K 1, K 2, K 10, K 11, K 12, systemId, instructionsSysvarId])
    (hb : ∀ x ∈ b.before, x.program.length = 32 ∧ ∀ y ∈ x.accounts, y.key.length = 32)
    (hs : (sysvarEncode (b.before ++ [b.seen b.accounts]) b.before.length).length < 2 ^ 16) :
    Ready env1 (memOf b) (K 1) wallet1 acting r a b.accounts b [] [] where
  stored := by unfold memOf; rw [if_neg (by decide +kernel)]; rfl
  owned := by unfold memOf; rw [if_neg (by decide +kernel)]; rfl
  wf := wallet1_wf
  small := by decide +kernel
  role := hrole
  cred := hc
  sent := by
    refine ⟨promoted_self _, ?_, ?_⟩
    · unfold memOf
      rw [if_pos rfl]
      simp
    · refine ⟨by simp, by simpa using hs, ?_⟩
      intro i hi
      simp only [List.nil_append, List.mem_append, List.mem_cons, List.not_mem_nil, or_false] at hi
      rcases hi with hi | rfl
      · exact hb i hi
      · refine ⟨show swigId.length = 32 by decide +kernel, fun x hx => ?_⟩
        have := hk x hx
        have hall : ∀ k ∈ [K 1, K 2, K 10, K 11, K 12, systemId, instructionsSysvarId], k.length = 32 := by decide +kernel
        exact hall _ this
  plain := by
    intro x hx
    constructor
    · have hall : ∀ k ∈ [K 1, K 2, K 10, K 11, K 12, systemId, instructionsSysvarId],
          (if k = instructionsSysvarId then K 99 else (mem wallet1 k).owner) ≠ stakeId := by decide +kernel
      have := hall _ (hk x hx)
      unfold memOf
      split <;> simp_all
    · have hall : ∀ r ∈ wallet1.roles, ∀ x ∈ r.actions, x.ty ≠ P.programScope := by decide +kernel
      exact fun r hr y hy h => absurd h (hall r hr y hy)

/-- The hash of the sample environment has 32 bytes. -/
theorem hash1 : HashLength env1 := fun _ => rfl

theorem signs1 : SignsK1 env1 sign1 pk1 := fun _ =>
  ⟨zeros 32, zeros 32, 27, zeros 64, rfl, rfl, rfl, by decide +kernel, by decide +kernel, rfl, by decide +kernel⟩

theorem sample_acts {acting : Nat} {r : Role} {a : Auth} {c : Caller} {data : Bytes} (h : sampleCase acting = some (r, a, c)) :
    wallet1.role? acting = some r ∧ (a.WF ∧ a.ty = r.authType ∧ a.encode = r.auth) ∧
      ActsFor env1 a (manageBy env1 (K 1) (K 10) data c).accounts (manageBy env1 (K 1) (K 10) data c) [] c := by
  unfold sampleCase at h
  split at h
  · cases h
    exact ⟨by decide +kernel, ⟨⟨show (K 10).length = 32 by decide, fun _ h => by cases h⟩, by decide +kernel, by decide +kernel⟩, Or.inl ⟨rfl, rfl⟩⟩
  · cases h
    refine ⟨by decide +kernel, ⟨⟨show (K 11).length = 32 by decide, ?_⟩, by decide +kernel, by decide +kernel⟩, Or.inr ⟨_, rfl, by decide +kernel, rfl⟩⟩
    intro s hs
    cases hs
    exact ⟨by decide +kernel, by decide +kernel, by decide +kernel⟩
  · cases h
    refine ⟨by decide +kernel, ⟨⟨⟨by decide +kernel, by decide +kernel, by decide +kernel⟩, fun _ h => by cases h⟩, by decide +kernel, by decide +kernel⟩,
      Or.inl ⟨rfl, _, _, _, rfl, by decide +kernel, by decide +kernel, by decide +kernel, by decide +kernel, signs1, rfl⟩⟩
  · cases h
    refine ⟨by decide +kernel, ⟨⟨⟨by decide +kernel, by decide +kernel, by decide +kernel⟩, fun _ h => by cases h⟩, by decide +kernel, by decide +kernel⟩,
      Or.inl ⟨rfl, _, _, rfl, by decide +kernel, by decide +kernel, by decide +kernel, by decide +kernel, fun _ => rfl, rfl⟩⟩
  · cases h
    refine ⟨by decide +kernel, ⟨⟨⟨by decide +kernel, by decide +kernel, by decide +kernel⟩, fun _ h => by cases h⟩, by decide +kernel, by decide +kernel⟩,
      Or.inl ⟨rfl, _, _, _, _, rfl, ⟨rfl, by decide +kernel, by decide +kernel, by decide +kernel, by decide +kernel,
        _, _, _, _, _, _, rfl, rfl, rfl, rfl⟩, by simp⟩⟩
  · cases h

theorem sample_ready {acting : Nat} {r : Role} {a : Auth} {c : Caller} {data : Bytes} (h : sampleCase acting = some (r, a, c))
    (hl : (sysvarEncode ((manageBy env1 (K 1) (K 10) data c).before ++
      [(manageBy env1 (K 1) (K 10) data c).seen (manageBy env1 (K 1) (K 10) data c).accounts])
      (manageBy env1 (K 1) (K 10) data c).before.length).length < 2 ^ 16) :
    Ready env1 (memOf (manageBy env1 (K 1) (K 10) data c)) (K 1) wallet1 acting r a (manageBy env1 (K 1) (K 10) data c).accounts
      (manageBy env1 (K 1) (K 10) data c) [] [] := by
  obtain ⟨h1, h2, _⟩ := sample_acts (data := data) h
  have hc : c = callerEd ∨ c = callerSession ∨ c = callerK1 ∨ c = callerR1 ∨ c = callerExec := by
    unfold sampleCase at h
    split at h <;> cases h <;> simp
  refine ready_sample h1 h2 ?_ ?_ hl
  · rcases hc with rfl | rfl | rfl | rfl | rfl <;>
      simp [manageBy, callerEd, callerSession, callerK1, callerR1, callerExec, byEd, byK1, byR1, byExec, managing, Client.w, ws, ro, ros]
  · rcases hc with rfl | rfl | rfl | rfl | rfl
    · intro x hx; cases hx
    · intro x hx; cases hx
    · intro x hx; cases hx
    · intro x hx
      simp only [manageBy, callerR1, byR1, List.mem_cons, List.not_mem_nil, or_false] at hx
      subst hx
      exact ⟨show secp256r1Id.length = 32 by decide +kernel, fun y hy => by cases hy⟩
    · intro x hx
      simp only [manageBy, callerExec, byExec, List.mem_cons, List.not_mem_nil, or_false] at hx
      subst hx
      decide +kernel

theorem sample_pays {b : Built} {n : Nat} (h : n ≤ 1000000) : Pays env1 (memOf b) (K 10) (K 1) n := by
  have e1 : memOf b (K 10) = mem wallet1 (K 10) := by unfold memOf; rw [if_neg (by decide +kernel)]
  have e2 : memOf b (K 1) = mem wallet1 (K 1) := by unfold memOf; rw [if_neg (by decide +kernel)]
  refine ⟨by decide, by decide +kernel, by rw [e1]; rfl, by rw [e1]; rfl, ?_⟩
  rw [e1, e2]
  show (n + 128) * 6960 ≤ 2000000000 + 7000000000
  omega

theorem sample_cases {acting : Nat} {r : Role} {a : Auth} {c : Caller} (h : sampleCase acting = some (r, a, c)) :
    acting = 0 ∧ r = role0 ∧ a = auth0 ∧ c = callerEd ∨ acting = 1 ∧ r = role1 ∧ a = auth1 ∧ c = callerSession ∨
      acting = 2 ∧ r = role2 ∧ a = auth2 ∧ c = callerK1 ∨ acting = 3 ∧ r = role3 ∧ a = auth3 ∧ c = callerR1 ∨
      acting = 4 ∧ r = role4 ∧ a = auth4 ∧ c = callerExec := by
  unfold sampleCase at h
  split at h <;> cases h <;> simp

def acts1 : List Action := [.solLimit 9, .program (K 60)]

/-- A wallet is created. -/
example (cpi : Cpi) : ∃ m', process env1 cpi mem0 (create (K 1) (K 10) (K 2) 255 254 1 (K 10) [.all] (K 70)).accounts
      (create (K 1) (K 10) (K 2) 255 254 1 (K 10) [.all] (K 70)).data = .ok m' ∧
    (m' (K 1)).data = ((Wallet.blank (K 70) 255 254).addRole 1 (K 10) [⟨P.all, []⟩]).encode := by
  obtain ⟨m', h1, h2, _⟩ := C70_create (env := env1) (cpi := cpi) (m := mem0) (swig := K 1) (payer := K 10) (wallet := K 2) (id := K 70)
    (bump := 255) (walletBump := 254) (ty := 1) (cred := K 10) (acts := [.all]) (auth := ⟨.ed25519 (K 10), none⟩) (by decide)
    (promoted_self _) (by decide +kernel) (by decide +kernel) (by decide +kernel) (by decide +kernel) (by decide +kernel)
    (by decide +kernel) (by decide +kernel) (by decide +kernel) (by decide +kernel) (by decide +kernel) (by decide +kernel)
    (by decide +kernel) (by decide +kernel) (by decide +kernel) (by decide +kernel) (by decide +kernel)
  exact ⟨m', h1, h2⟩

/-- Every sample caller can add a role. -/
example (cpi : Cpi) (acting : Nat) (r : Role) (a : Auth) (c : Caller) (h : sampleCase acting = some (r, a, c)) :
    ∃ m', process env1 cpi (memOf (addAuthority env1 (K 1) (K 10) acting 1 (K 13) acts1 c))
        (addAuthority env1 (K 1) (K 10) acting 1 (K 13) acts1 c).accounts
        (addAuthority env1 (K 1) (K 10) acting 1 (K 13) acts1 c).data = .ok m' ∧
      (m' (K 1)).data = ((wallet1.used acting).addRole 1 (K 13) [⟨P.solLimit, natLE 8 9⟩, ⟨P.program, K 60⟩]).encode := by
  have hl := sample_cases h
  have hready := sample_ready (data := Client.addData acting 1 (K 13) acts1) h
    (by rcases hl with ⟨rfl, _, _, rfl⟩ | ⟨rfl, _, _, rfl⟩ | ⟨rfl, _, _, rfl⟩ | ⟨rfl, _, _, rfl⟩ | ⟨rfl, _, _, rfl⟩ <;> decide +kernel)
  obtain ⟨m', h1, h2, _⟩ := C70_add (cpi := cpi) hash1 hready (sample_acts h).2.2
    (by rcases hl with ⟨_, rfl, _⟩ | ⟨_, rfl, _⟩ | ⟨_, rfl, _⟩ | ⟨_, rfl, _⟩ | ⟨_, rfl, _⟩ <;> decide +kernel)
    (auth := ⟨.ed25519 (K 13), none⟩) (by decide +kernel) (by decide +kernel) (by decide +kernel) (by decide +kernel) (by decide +kernel)
    (by decide +kernel) (by decide +kernel) (by decide +kernel) (by decide +kernel) (by decide +kernel) (sample_pays (by decide +kernel))
  exact ⟨m', h1, h2⟩

/-- ... remove role 3, even the role itself ... -/
example (cpi : Cpi) (acting : Nat) (r : Role) (a : Auth) (c : Caller) (h : sampleCase acting = some (r, a, c)) :
    ∃ m', process env1 cpi (memOf (removeAuthority env1 (K 1) (K 10) acting 3 c))
        (removeAuthority env1 (K 1) (K 10) acting 3 c).accounts
        (removeAuthority env1 (K 1) (K 10) acting 3 c).data = .ok m' ∧
      (m' (K 1)).data = ((wallet1.used acting).removeRole 3).encode := by
  have hl := sample_cases h
  obtain ⟨n, hn, hb⟩ : ∃ n, (n = 1 ∨ n = 65 ∨ n = 17) ∧
      removeAuthority env1 (K 1) (K 10) acting 3 c = manageBy env1 (K 1) (K 10) (removeData n acting 3) c := by
    cases c <;> exact ⟨_, by simp, rfl⟩
  have hready := sample_ready (data := removeData n acting 3) h
    (by
      rcases hn with rfl | rfl | rfl <;>
      rcases hl with ⟨rfl, _, _, rfl⟩ | ⟨rfl, _, _, rfl⟩ | ⟨rfl, _, _, rfl⟩ | ⟨rfl, _, _, rfl⟩ | ⟨rfl, _, _, rfl⟩ <;> decide +kernel)
  have ho := (sample_acts (data := removeData n acting 3) h).2.2
  rw [← hb] at hready ho
  obtain ⟨m', h1, h2, _⟩ := C70_remove (cpi := cpi) hash1 hready ho
    (by rcases hl with ⟨_, rfl, _⟩ | ⟨_, rfl, _⟩ | ⟨_, rfl, _⟩ | ⟨_, rfl, _⟩ | ⟨_, rfl, _⟩ <;> exact Or.inl (by decide +kernel))
    (show wallet1.role? 3 = some role3 by decide +kernel) (by decide)
  exact ⟨m', h1, h2⟩

/-- ... and give role 3 further permissions or only others. -/
example (cpi : Cpi) (acting : Nat) (r : Role) (a : Auth) (c : Caller) (ch : Change)
    (hch : ch = .addActions acts1 ∨ ch = .replaceAll acts1) (h : sampleCase acting = some (r, a, c)) :
    ∃ m', process env1 cpi (memOf (updateAuthority env1 (K 1) (K 10) acting 3 ch c))
        (updateAuthority env1 (K 1) (K 10) acting 3 ch c).accounts
        (updateAuthority env1 (K 1) (K 10) acting 3 ch c).data = .ok m' ∧
      (m' (K 1)).data = ((wallet1.used acting).setActions 3 (ch.result [⟨P.all, []⟩])).encode := by
  have hl := sample_cases h
  have hready := sample_ready (data := Client.updateData acting 3 ch) h
    (by
      rcases hch with rfl | rfl <;>
      rcases hl with ⟨rfl, _, _, rfl⟩ | ⟨rfl, _, _, rfl⟩ | ⟨rfl, _, _, rfl⟩ | ⟨rfl, _, _, rfl⟩ | ⟨rfl, _, _, rfl⟩ <;> decide +kernel)
  obtain ⟨m', h1, h2, _⟩ := C70_update (cpi := cpi) (ch := ch) hash1 hready (sample_acts h).2.2
    (by rcases hl with ⟨_, rfl, _⟩ | ⟨_, rfl, _⟩ | ⟨_, rfl, _⟩ | ⟨_, rfl, _⟩ | ⟨_, rfl, _⟩ <;> decide +kernel)
    (show wallet1.role? 3 = some role3 by decide +kernel)
    (by rcases hch with rfl | rfl <;> decide +kernel) (by rcases hch with rfl | rfl <;> decide +kernel)
    (by rcases hch with rfl | rfl <;> decide +kernel) (by rcases hch with rfl | rfl <;> decide +kernel)
    (by rcases hch with rfl | rfl <;> decide +kernel) (by rcases hch with rfl | rfl <;> decide +kernel)
    (by rcases hch with rfl | rfl <;> decide +kernel)
    (fun _ => ⟨by rcases hch with rfl | rfl <;> decide +kernel, sample_pays (by rcases hch with rfl | rfl <;> decide +kernel)⟩)
  exact ⟨m', h1, h2⟩

/-- The owner registers a rent claimer. -/
example (cpi : Cpi) : ∃ m', process env1 cpi (memOf (manageBy env1 (K 1) (K 10) (claimerData 0 (K 20)) callerEd))
      (manageBy env1 (K 1) (K 10) (claimerData 0 (K 20)) callerEd).accounts
      (manageBy env1 (K 1) (K 10) (claimerData 0 (K 20)) callerEd).data = .ok m' ∧
    (m' (K 1)).data = ((wallet1.used 0).setClaimer (K 20)).encode := by
  have h : sampleCase 0 = some (role0, auth0, callerEd) := rfl
  obtain ⟨m', h1, h2, _⟩ := C70_claimer (cpi := cpi) (wallet := K 2) (claimer := K 20) (swig := K 1) (payer := K 10) hash1 rfl
    (sample_ready h (by decide +kernel)) (sample_acts h).2.2 (by decide +kernel) rfl (by decide) (by decide) (by decide)
    (by decide +kernel) (by decide) (by decide +kernel) (sample_pays (by decide +kernel))
  exact ⟨m', h1, h2⟩

/-- The holder of role 1 opens a session with its main key `K 11`, here also the payer. -/
example (cpi : Cpi) : ∃ m', process env1 cpi (memOf (createSession env1 (K 1) (K 10) 1 600 (K 14) (.ed25519 (K 11))))
      (createSession env1 (K 1) (K 10) 1 600 (K 14) (.ed25519 (K 11))).accounts
      (createSession env1 (K 1) (K 10) 1 600 (K 14) (.ed25519 (K 11))).data = .ok m' ∧
    (m' (K 1)).data = (wallet1.setAuth 1 (⟨.ed25519 (K 11), some ⟨K 14, 1000, 700⟩⟩ : Auth).encode).encode := by
  have h : sampleCase 1 = some (role1, auth1, callerSession) := rfl
  obtain ⟨k1, k2, _⟩ := sample_acts (data := []) h
  obtain ⟨m', h1, h2, _⟩ := C70_session (cpi := cpi) (swig := K 1) (payer := K 10) (key := K 14) (duration := 600) (s := ⟨K 12, 1000, 100⟩)
    (c := .ed25519 (K 11)) (a := auth1) hash1
    (ready_sample k1 k2 (by decide +kernel) (by intro x hx; cases hx) (by decide +kernel)) rfl rfl (by decide) (by decide)
  exact ⟨m', h1, h2⟩

/-- Role 2 replaces the key of role 0. -/
def replaceIx1 : Bytes := natLE 2 16 ++ zeros 2 ++ natLE 4 2 ++ natLE 4 0 ++ natLE 2 32 ++ zeros 2 ++ K 15

example (cpi : Cpi) : ∃ b, replaceAuthority env1 (K 1) (K 2) 2 0 (K 15) callerK1 = some b ∧
    ∃ m', process env1 cpi (memOf b) b.accounts b.data = .ok m' ∧
      (m' (K 1)).data = ((wallet1.used 2).setAuth 0 (K 15)).encode := by
  refine ⟨byK1 env1 [Client.w (K 1)] replaceIx1 replaceIx1 sign1 90 8, rfl, ?_⟩
  have h : sampleCase 2 = some (role2, auth2, callerK1) := rfl
  obtain ⟨k1, k2, _⟩ := sample_acts (data := []) h
  obtain ⟨g1, g2, _⟩ := sample_acts (data := []) (show sampleCase 0 = some (role0, auth0, callerEd) from rfl)
  obtain ⟨m', h1, h2, _⟩ := C70_replace (cpi := cpi) (swig := K 1) (wallet := K 2) (target := 0) (new := K 15) (key := K 15)
    (auth := auth0) (c := callerK1) (b := byK1 env1 [Client.w (K 1)] replaceIx1 replaceIx1 sign1 90 8) hash1 rfl
    (ready_sample k1 k2 (by decide +kernel) (by intro x hx; cases hx) (by decide +kernel))
    (Or.inl ⟨rfl, _, _, _, rfl, by decide +kernel, by decide +kernel, by decide +kernel, by decide +kernel, signs1, rfl⟩)
    (by decide +kernel) (fun h => absurd h (by decide)) g1 g2 (by decide +kernel) (by decide +kernel)
  exact ⟨m', h1, h2⟩

/-- A wallet whose role 1 belongs to program `K 60`, with the prefix of proofs, and may replace the key of role 0. -/
def execAuth1 : Auth := ⟨.exec (K 60) 8 (zeros 7) (ascii "rplauth1" ++ zeros 32), none⟩
def execRole1 : Role := ⟨7, 1, execAuth1.encode, [⟨P.replaceAuthority, natLE 4 0 ++ zeros 4⟩]⟩
def execWallet1 : Wallet := ⟨255, K 70, 2, 254, zeros 3, 0, [role0, execRole1], none⟩

/-- The proof, made by the library for role 0 and its new key `K 15`, and the request. -/
def proofTx1 : TxIx := ⟨K 60, [⟨K 1, false, false⟩, ⟨K 2, false, false⟩], ascii "rplauth1" ++ zeros 32⟩
def execReplace1 : Built := byExec proofTx1 [Client.w (K 1), ro (K 2), ro instructionsSysvarId]
  (natLE 2 16 ++ zeros 2 ++ natLE 4 1 ++ natLE 4 0 ++ natLE 2 32 ++ zeros 2 ++ K 15) 2 none
def execMem1 : Mem := fun k =>
  if k = instructionsSysvarId then ⟨K 99, 1, sysvarEncode (execReplace1.before ++ [execReplace1.seen execReplace1.accounts]) 1⟩ else mem execWallet1 k

example (cpi : Cpi) : proofData env1 (K 1) (K 2) 1 0 1 (K 10) (K 15) = some proofTx1.data ∧
    replaceAuthority env1 (K 1) (K 2) 1 0 (K 15) (.exec proofTx1 none) = some execReplace1 ∧
    ∃ m', process env1 cpi execMem1 execReplace1.accounts execReplace1.data = .ok m' ∧
      (m' (K 1)).data = ((execWallet1.used 1).setAuth 0 (K 15)).encode := by
  have hpd : proofData env1 (K 1) (K 2) 1 0 1 (K 10) (K 15) = some proofTx1.data := by decide +kernel
  refine ⟨hpd, rfl, ?_⟩
  have hready : Ready env1 execMem1 (K 1) execWallet1 1 execRole1 execAuth1 execReplace1.accounts execReplace1 [] [] := by
    refine ⟨?_, ?_, ?_, by decide +kernel, rfl, ⟨⟨⟨by decide, by decide, by decide⟩, fun _ h => nomatch h⟩, by decide, rfl⟩, ⟨promoted_self _, ?_, by decide, by decide +kernel, by decide⟩, ?_⟩
    · unfold execMem1; rw [if_neg (by decide +kernel)]; rfl
    · unfold execMem1; rw [if_neg (by decide +kernel)]; rfl
    · exact ⟨by decide, by decide, by decide, by decide, by decide, by
        intro r hr
        simp only [execWallet1, List.mem_cons, List.not_mem_nil, or_false] at hr
        rcases hr with rfl | rfl
        all_goals exact ⟨by decide, by decide, by decide, by decide, by decide⟩, by decide, by decide, by simp [execWallet1], by decide⟩
    · unfold execMem1; rw [if_pos rfl]; rfl
    · unfold Plain; decide +kernel
  obtain ⟨m', h1, h2, _⟩ := C70_replace (cpi := cpi) (swig := K 1) (wallet := K 2) (target := 0) (new := K 15) (key := K 15) (t := role0)
    (auth := auth0) (c := .exec proofTx1 none) (b := execReplace1) hash1 rfl hready
    (Or.inl ⟨rfl, K 60, 8, zeros 7, ascii "rplauth1" ++ zeros 32, rfl, ⟨rfl, by decide, by decide, by decide, by decide,
      _, _, _, _, _, _, rfl, rfl, rfl, rfl⟩, fun i h => nomatch h⟩)
    (by decide +kernel) (fun _ => ⟨⟨proofTx1, 255, rfl, ⟨rfl, by decide, fun b hb => absurd (show (255 : UInt8).toNat < b.toNat from hb) (by have := b.toNat_lt; show ¬ 255 < b.toNat; omega)⟩, hpd⟩, fun _ => rfl⟩) rfl
    (sample_acts (data := []) (show sampleCase 0 = some (role0, auth0, callerEd) from rfl)).2.1 (by decide +kernel) (by decide +kernel)
  exact ⟨m', h1, h2⟩

end

end Verif
