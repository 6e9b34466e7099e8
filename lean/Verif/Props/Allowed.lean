import Verif.Proofs.LiveAllowed
import Verif.Spec.SampleCpi

/-!
# C79: a limited role can do what its limits allow

The converse of the limit properties C02-C10: what they do not forbid, succeeds.
-/

namespace Verif
open Client

section
variable {env : Env} {cpi : Cpi} {m m1 : Mem} {metas : List Meta} {swig wallet payer : Key} {w : Wallet} {role : Nat} {inner : FullIx}
  {signers : List Key} {r : Role} {a : Auth} {c : Caller} {pre post : List TxIx} {acts' : List Act}

/-- A call of an allowed program that succeeds, leaves the wallet configuration alone, leaves the wallet address above its rent minimum and takes
no tokens: the request succeeds with the result of the call, if no SOL is lost or a general limit covers it.  That limit is reduced, the
replay counter of the role is advanced, nothing else is changed. -/
theorem C79_call (h : Asks env m metas swig wallet payer w role inner signers r a c pre post)
    (hcall : cpi (m.setData swig (w.used role).encode) (asCalled metas wallet inner) = .ok m1)
    (hcfg : (m1 swig).data = (w.used role).encode ∧ (m1 swig).owner = swigId)
    (hrent : env.rent (m1 wallet).data.length ≤ (m1 wallet).lamports)
    (hkept : ∀ x ∈ metas, TokenOf m wallet x.key →
      SameButBalance (m x.key) (m1 x.key) ∧ tokenBalance (m x.key) ≤ tokenBalance (m1 x.key))
    (hsol : ((m wallet).lamports ≤ (m1 wallet).lamports ∧ acts' = r.actions) ∨
      ((m1 wallet).lamports < (m wallet).lamports ∧ NoSolDest r.actions ∧
        SolTakes r.actions acts' ((m wallet).lamports - (m1 wallet).lamports) env.slot)) :
    process env cpi m metas (Client.signV2 env swig wallet payer role inner signers c).data =
      .ok (m1.setData swig ((w.used role).setActions role acts').encode) := by
  refine restricted_result (mid := acts') h.hash h.ready h.authorized h.restricted h.system h.address h.top h.flags ⟨h.accounts, h.data⟩
    h.call h.mayCall h.funds hcall hcfg hrent h.foreign (fun x hx ht => (hkept x hx ht).1) ?_ ?_
  · intro x i _
    rcases hsol with ⟨h1, h2⟩ | ⟨h1, h2, h3⟩
    · exact .inl ⟨by omega, h2⟩
    · obtain ⟨k1, k2⟩ := sol_general (x := x) h3 h2
      exact .inr ⟨by omega, k1, k2⟩
  · intro x i s y rest tl hone hmet hs hy hpc
    subst hmet
    obtain ⟨k1, k2⟩ := tok_none (m1 := m1) (x := x) (acts := r.actions) hpc (fun a ha => h.foreign a (by simp [ha]))
      (fun a ha ht => (hkept a (by simp [ha]) ht).2)
    rw [k2]
    exact ⟨fun e he b s hes hz => absurd (k1 e he b s hes) hz, .nil _⟩

/-- With an honest System program: a payment of `n` lamports that the SOL limits of the role cover, and that leaves the wallet address its rent
minimum, is made.  The limits are reduced, the replay counter of the role is advanced, nothing else is changed. -/
theorem C79_pay_sol {dst : Key} {n : Nat} (h : Asks env m metas swig wallet payer w role (solPayment wallet dst n) signers r a c pre post)
    (hsys : ∀ (m : Mem) (a b : Meta) (n : Nat), (m b.key).lamports + n < 2 ^ 64 →
      cpi m ⟨systemId, [a, b], natLE 4 2 ++ natLE 8 n⟩ = sysTransfer m a b n)
    (hfits : (m dst).lamports + n < 2 ^ 64)
    (hn : n ≠ 0) (hdst : dst ≠ wallet) (hwr : Writable metas wallet ∧ Writable metas dst) (hempty : (m wallet).data = [])
    (hrent : env.rent 0 + n ≤ (m wallet).lamports)
    (hlive : ∀ x ∈ metas, TokenOf m wallet x.key → (m x.key).lamports ≠ 0 ∧ (m x.key).data.getD 108 0 = 1)
    (hcov : SolCovers dst r.actions acts' n env.slot) :
    ∃ m', process env cpi m metas (Client.signV2 env swig wallet payer role (solPayment wallet dst n) signers c).data = .ok m' ∧
      (m' wallet).lamports + n = (m wallet).lamports ∧ (m' dst).lamports = (m dst).lamports + n ∧
      (m' swig).data = ((w.used role).setActions role acts').encode ∧
      (∀ k, (m' k).owner = (m k).owner ∧ (k ≠ swig → (m' k).data = (m k).data) ∧
        (k ≠ wallet → k ≠ dst → (m' k).lamports = (m k).lamports)) := by
  have hws : wallet ≠ swig := by
    intro e
    have h1 := h.ready.owned
    rw [← e, h.system] at h1
    exact absurd h1 (by decide +kernel)
  have hmem : (m.setData swig (w.used role).encode) wallet = m wallet := Mem.setData_other _ _ hws
  have hany : ∀ k, Writable metas k → metas.any (fun o => o.key == k && o.writable) = true := by
    rintro k ⟨o, ho, e1, e2⟩
    rw [List.any_eq_true]
    exact ⟨o, ho, by simp [e1, e2]⟩
  have hcall : cpi (m.setData swig (w.used role).encode) (asCalled metas wallet (solPayment wallet dst n)) =
      .ok (((m.setData swig (w.used role).encode).setLamports wallet ((m wallet).lamports - n)).setLamports dst ((m dst).lamports + n)) := by
    simp only [asCalled, solPayment, List.map_cons, List.map_nil, hany _ hwr.1, hany _ hwr.2, beq_self_eq_true, Bool.true_or]
    rw [hsys _ _ _ _ (by rw [Mem.setData_lamports]; exact hfits)]
    unfold sysTransfer
    dsimp only
    rw [if_neg (by simp), hmem, if_neg (by simp [h.system, hempty]), if_neg (by omega)]
    have : (((m.setData swig (w.used role).encode).setLamports wallet ((m wallet).lamports - n)) dst).lamports = (m dst).lamports := by
      rw [Mem.setLamports, Mem.set_other _ _ hdst, Mem.setData_lamports]
    rw [this]
  generalize hm1 : ((m.setData swig (w.used role).encode).setLamports wallet ((m wallet).lamports - n)).setLamports dst
    ((m dst).lamports + n) = m1 at hcall
  have hown : ∀ k, (m1 k).owner = (m k).owner := by intro k; rw [← hm1]; simp
  have hdat : ∀ k, (m1 k).data = ((m.setData swig (w.used role).encode) k).data := by intro k; rw [← hm1]; simp
  have hlw : (m1 wallet).lamports = (m wallet).lamports - n := by
    rw [← hm1, Mem.setLamports, Mem.set_other _ _ (Ne.symm hdst)]
    simp [Mem.setLamports, Mem.set]
  have hld : (m1 dst).lamports = (m dst).lamports + n := by rw [← hm1]; simp [Mem.setLamports, Mem.set]
  have hlo : ∀ k, k ≠ wallet → k ≠ dst → (m1 k).lamports = (m k).lamports := by
    intro k h1 h2
    rw [← hm1, Mem.setLamports, Mem.set_other _ _ h2, Mem.setLamports, Mem.set_other _ _ h1, Mem.setData_lamports]
  have hd' : ∀ k, k ≠ swig → (m1 k).data = (m k).data := by
    intro k hk
    rw [hdat, Mem.setData_other _ _ hk]
  have hlost : (m wallet).lamports - (m1 wallet).lamports = n := by omega
  refine ⟨_, restricted_result (mid := acts') (acts' := acts') h.hash h.ready h.authorized h.restricted h.system h.address h.top h.flags
    ⟨h.accounts, h.data⟩ h.call h.mayCall h.funds hcall ⟨by rw [hdat, Mem.setData_data], by rw [hown, h.ready.owned]⟩ ?_ h.foreign ?_ ?_ ?_, ?_⟩
  · rw [hlw, hd' _ hws, hempty]
    simp only [List.length_nil]
    omega
  · intro x hx ht
    have hne : x.key ≠ swig := by
      intro e
      have := ht.program
      rw [e, h.ready.owned] at this
      rcases this with h | h <;> exact absurd h (by decide +kernel)
    have hnw : x.key ≠ wallet := by
      intro e
      have := ht.program
      rw [e, h.system] at this
      rcases this with h | h <;> exact absurd h (by decide +kernel)
    obtain ⟨l1, l2⟩ := hlive x hx ht
    refine ⟨hown _, by rw [hd' _ hne], by rw [hd' _ hne], by rw [hd' _ hne], ?_, l2⟩
    by_cases hxd : x.key = dst
    · rw [hxd, hld]; omega
    · rw [hlo _ hnw hxd]; exact l1
  · intro x i hone
    rw [hlost]
    obtain ⟨k1, k2⟩ := sol_covers (slot := env.slot) (h.ready.wf.roles r (role?_mem h.ready.role).1).acts (sol_transfers (by have := h.funds; omega) hone) hcov
    exact .inr ⟨hn, k1, k2⟩
  · intro x i s y rest tl hone hmet hs hy hpc
    subst hmet
    obtain ⟨k1, k2⟩ := tok_none (m1 := m1) (x := x) (acts := r.actions) hpc (fun a ha => h.foreign a (by simp [ha]))
      (fun a ha ht => by
        have hne : a.key ≠ swig := by
          intro e
          have := ht.program
          rw [e, h.ready.owned] at this
          rcases this with h | h <;> exact absurd h (by decide +kernel)
        unfold tokenBalance
        rw [hd' _ hne]
        exact Nat.le_refl _)
    rw [k2]
    exact ⟨fun e he b s hes hz => absurd (k1 e he b s hes) hz, .nil _⟩
  · refine ⟨?_, ?_, Mem.setData_data .., fun k => ⟨?_, fun hk => ?_, fun h1 h2 => ?_⟩⟩
    · rw [Mem.setData_lamports, hlw]; omega
    · rw [Mem.setData_lamports, hld]
    · rw [Mem.setData_owner, hown]
    · rw [Mem.setData_other _ _ hk, hd' _ hk]
    · rw [Mem.setData_lamports, hlo _ h1 h2]

/-- A transfer of `n` tokens from a token account of the wallet, passed once, that the token limits of the role cover: if the Token program makes
the transfer, the request succeeds with its result.  The limits are reduced, the replay counter of the role is advanced, nothing else is changed. -/
theorem C79_pay_token {src dst : Key} {n : Nat} {before after : List Meta} {s : Meta}
    (h : Asks env m metas swig wallet payer w role inner signers r a c pre post) (hpay : TokenPayment src dst n inner)
    (hsrc : TokenOf m wallet src) (honce : metas = before ++ s :: after ∧ s.key = src ∧ s.writable = true ∧ ∀ x ∈ before ++ after, x.key ≠ src)
    (hcall : cpi (m.setData swig (w.used role).encode) (asCalled metas wallet inner) = .ok m1)
    (hcfg : (m1 swig).data = (w.used role).encode ∧ (m1 swig).owner = swigId)
    (hrent : env.rent (m1 wallet).data.length ≤ (m1 wallet).lamports) (hsol : (m wallet).lamports ≤ (m1 wallet).lamports)
    (hn : n ≠ 0) (hmoved : tokenBalance (m1 src) + n = tokenBalance (m src))
    (hkept : ∀ x ∈ metas, TokenOf m wallet x.key →
      SameButBalance (m x.key) (m1 x.key) ∧ (x.key ≠ src → tokenBalance (m x.key) ≤ tokenBalance (m1 x.key)))
    (hcov : TokenCovers (sl (m src).data 0 32) dst r.actions acts' n env.slot) :
    process env cpi m metas (Client.signV2 env swig wallet payer role inner signers c).data =
      .ok (m1.setData swig ((w.used role).setActions role acts').encode) := by
  obtain ⟨hm, rfl, hwr, hothers⟩ := honce
  refine restricted_result (mid := r.actions) h.hash h.ready h.authorized h.restricted h.system h.address h.top h.flags ⟨h.accounts, h.data⟩
    h.call h.mayCall h.funds hcall hcfg hrent h.foreign (fun x hx ht => (hkept x hx ht).1) (fun x i _ => .inl ⟨by omega, rfl⟩) ?_
  intro x i f y rest tl hone hmet hf hy hpc
  have hmint : (sl (m s.key).data 0 32).length = 32 := by
    have := hsrc.long
    simp [sl]; omega
  have hn64 : n < 2 ^ 64 := by
    have : tokenBalance (m s.key) < 2 ^ 64 := rd_lt _ _ 8
    omega
  obtain ⟨k1, k2⟩ := token_covers (x := x) (slot := env.slot) hmint (h.ready.wf.roles r (role?_mem h.ready.role).1).acts (token_transfers hn64 hone hpay) hcov
  have hsf : s.key ≠ f.key := by
    intro e
    have := hsrc.program
    rw [e, hf, h.ready.owned] at this
    rcases this with h | h <;> exact absurd h (by decide +kernel)
  have hsy : s.key ≠ y.key := by
    intro e
    have := hsrc.program
    rw [e, hy, h.system] at this
    rcases this with h | h <;> exact absurd h (by decide +kernel)
  obtain ⟨l1, rfl, hb⟩ : ∃ l1, rest = l1 ++ s :: after ∧ before = f :: y :: l1 := by
    rw [hm] at hmet
    match before, hmet with
    | [], hmet => simp only [List.nil_append, List.cons.injEq] at hmet; exact absurd (congrArg Meta.key hmet.1) hsf
    | [_], hmet => simp only [List.cons_append, List.nil_append, List.cons.injEq] at hmet; exact absurd (congrArg Meta.key hmet.2.1) hsy
    | b1 :: b2 :: l1, hmet =>
      simp only [List.cons_append, List.cons.injEq] at hmet
      obtain ⟨rfl, rfl, e⟩ := hmet
      exact ⟨l1, e.symm, rfl⟩
  subst hb
  have hin : ∀ x ∈ l1 ++ after, x ∈ metas := by
    intro x hx
    rw [hm]
    rcases List.mem_append.mp hx with hx | hx <;> simp [hx]
  obtain ⟨j1, j2⟩ := tok_one (m1 := m1) (x := x) (acts := r.actions) hpc (fun a ha => h.foreign a (hin a ha))
    (fun a ha ht => (hkept a (hin a ha) ht).2 (hothers a (by
      rcases List.mem_append.mp ha with hx | hx <;> simp [hx]))) hsrc hwr (hkept s (by rw [hm]; simp) hsrc).1 hn hmoved k1
  rw [j2]
  exact ⟨j1, k2⟩

end

/-! ## Concrete requests -/

section
open Sample SampleClient

/-- A role with the key of the owner that may spend 500 lamports, of these 300 to `K 40`, and 20 tokens of the mint `K 50`, and may call the System
and the Token program. -/
def limitedActs (sol dest tok : Nat) : List Act :=
  [(Action.program systemId).toAct, (Action.solLimit sol).toAct, (Action.solDestinationLimit (K 40) dest).toAct,
    (Action.tokenLimit (K 50) tok).toAct, (Action.program tokenId).toAct]

def limitedRole : Role := ⟨1, 1, K 10, limitedActs 500 300 20⟩

def walletL : Wallet := ⟨255, K 70, 2, 255, zeros 3, 0, [role0, limitedRole], none⟩

theorem walletL_wf : walletL.WF where
  idLen := by decide
  padLen := by decide
  counter := by decide
  subCounter := by decide
  count := by decide
  roles := by
    intro r hr
    simp only [walletL, List.mem_cons, List.not_mem_nil, or_false] at hr
    rcases hr with rfl | rfl
    · exact ⟨by decide, by decide, by decide, by decide, by decide⟩
    · exact ⟨by decide +kernel, by decide +kernel, by decide +kernel, by decide +kernel, by decide +kernel⟩
  idsNodup := by decide
  idsLt := by decide
  claimer := by simp [walletL]
  size := by decide +kernel

/-- The ledger: the wallet, a token account `K 31` of its address with 9 tokens, one of another owner with none, one of `K 10` with 4. -/
def memL : Mem := fun k =>
  if k = K 31 then ⟨tokenId, 2039280, K 50 ++ K 2 ++ natLE 8 9 ++ zeros 36 ++ [1] ++ zeros 56⟩
  else if k = K 32 then ⟨tokenId, 2039280, K 50 ++ K 3 ++ natLE 8 0 ++ zeros 36 ++ [1] ++ zeros 56⟩
  else if k = K 33 then ⟨tokenId, 2039280, K 50 ++ K 10 ++ natLE 8 4 ++ zeros 36 ++ [1] ++ zeros 56⟩
  else mem walletL k

theorem demo_pays (m : Mem) (a b : Meta) (n : Nat) (h : (m b.key).lamports + n < 2 ^ 64) :
    demoCpi m ⟨systemId, [a, b], natLE 4 2 ++ natLE 8 n⟩ = sysTransfer m a b n := by
  have r0 : rd (natLE 4 2 ++ natLE 8 n) 0 4 = 2 := rd_here 4 2 _ (by decide)
  have r4 : rd (natLE 4 2 ++ natLE 8 n) 4 8 = n := by
    have := rd_full 8 n (by have : n < 2 ^ 64 := by omega
                            simpa using this) (natLE 4 2) [] (i := 4) (by simp)
    simpa using this
  unfold demoCpi
  rw [if_pos rfl]
  unfold demoSystem
  dsimp only
  rw [r0, if_neg (by decide), if_pos rfl, r4]
  unfold demoTransfer
  rw [if_pos h]

instance (m : Mem) (o k : Key) : Decidable (TokenOf m o k) :=
  decidable_of_iff (((m k).owner = tokenId ∨ (m k).owner = token2022Id) ∧ 165 ≤ (m k).data.length ∧ sl (m k).data 32 64 = o)
    ⟨fun h => ⟨h.1, h.2.1, h.2.2⟩, fun h => ⟨h.1, h.2, h.3⟩⟩

/-- The payment of 200 lamports to `K 40`. -/
def payL : Built := Client.signV2 env1 (K 1) (K 2) (K 10) 1 (solPayment (K 2) (K 40) 200) [] callerEd

/-- Both limits are reduced. -/
example : ∃ m', process env1 demoCpi (onLedger memL payL) payL.accounts payL.data = .ok m' ∧ (m' (K 40)).lamports = 200 ∧
    (m' (K 1)).data = ((walletL.used 1).setActions 1 (limitedActs 300 100 20)).encode := by
  obtain ⟨m', h1, _, h3, h4, _⟩ := C79_pay_sol (env := env1) (cpi := demoCpi) (m := onLedger memL payL) (metas := payL.accounts) (swig := K 1)
    (wallet := K 2) (payer := K 10) (w := walletL) (role := 1) (signers := []) (r := limitedRole) (a := auth0) (c := callerEd) (pre := [])
    (post := []) (dst := K 40) (n := 200) (acts' := limitedActs 300 100 20)
    { hash := hash1
      ready := ready_on walletL_wf rfl rfl (by decide +kernel) (by decide +kernel) (by decide +kernel)
        ⟨cred_ed.1, by decide +kernel, by decide +kernel⟩ (by decide +kernel) (by simp [payL, Client.signV2, callerEd, byEd]) (by decide +kernel)
        (by decide +kernel)
      authorized := acts_ed
      restricted := by decide +kernel
      address := by decide +kernel
      system := by decide +kernel
      funds := by decide +kernel
      top := rfl
      flags := by unfold SameFlags; decide +kernel
      accounts := by decide +kernel
      data := by decide +kernel
      call := by decide +kernel
      mayCall := ⟨_, List.mem_cons_self, .inr (.inr ⟨rfl, rfl⟩)⟩
      foreign := by decide +kernel }
    demo_pays (by decide +kernel) (by decide) (by decide +kernel) ⟨by unfold Writable; decide +kernel, by unfold Writable; decide +kernel⟩
    (by decide +kernel) (by decide +kernel) (by decide +kernel)
    (.inr (.inr ⟨limitedActs 300 300 20,
      ⟨.solLimit 500, .solLimit 300, ⟨by unfold Action.InRange; decide, rfl, [_], _, rfl, rfl, by decide +kernel⟩, rfl, .inl rfl⟩,
      ⟨.solDestinationLimit (K 40) 300, .solDestinationLimit (K 40) 100,
        ⟨by unfold Action.InRange; decide, rfl, [_, _], _, rfl, rfl, by decide +kernel⟩, rfl, .inr ⟨rfl, by decide +kernel⟩⟩⟩))
  exact ⟨m', h1, h3, h4⟩

/-- The transfer of 5 tokens from the wallet to `K 32`, and of 4 tokens of `K 10` to the wallet. -/
def tokensL : FullIx := ⟨tokenId, [⟨K 31, false, true⟩, ⟨K 32, false, true⟩, ⟨K 2, true, false⟩], 3 :: natLE 8 5⟩
def depositL : FullIx := ⟨tokenId, [⟨K 33, false, true⟩, ⟨K 31, false, true⟩, ⟨K 10, true, false⟩], 3 :: natLE 8 4⟩

def sendL (ix : FullIx) : Built := Client.signV2 env1 (K 1) (K 2) (K 10) 1 ix [] callerEd

/-- The ledger after the call. -/
def afterL (ix : FullIx) : Mem :=
  match demoCpi ((onLedger memL (sendL ix)).setData (K 1) (walletL.used 1).encode) (asCalled (sendL ix).accounts (K 2) ix) with
  | .ok m => m
  | .error _ => memL

theorem afterL_ok {ix : FullIx}
    (h : (demoCpi ((onLedger memL (sendL ix)).setData (K 1) (walletL.used 1).encode) (asCalled (sendL ix).accounts (K 2) ix)).isOk = true) :
    demoCpi ((onLedger memL (sendL ix)).setData (K 1) (walletL.used 1).encode) (asCalled (sendL ix).accounts (K 2) ix) = .ok (afterL ix) := by
  unfold afterL
  split
  · assumption
  · rename_i e; rw [e] at h; cases h

instance (a b : Acct) : Decidable (SameButBalance a b) :=
  decidable_of_iff (b.owner = a.owner ∧ b.data.length = a.data.length ∧ b.data.take 64 = a.data.take 64 ∧ b.data.drop 72 = a.data.drop 72 ∧
      b.lamports ≠ 0 ∧ a.data.getD 108 0 = 1)
    ⟨fun ⟨h1, h2, h3, h4, h5, h6⟩ => ⟨h1, h2, h3, h4, h5, h6⟩, fun h => ⟨h.1, h.2, h.3, h.4, h.5, h.6⟩⟩

/-- The payment of 5 tokens reduces the token limit. -/
example : process env1 demoCpi (onLedger memL (sendL tokensL)) (sendL tokensL).accounts (sendL tokensL).data =
    .ok ((afterL tokensL).setData (K 1) ((walletL.used 1).setActions 1 (limitedActs 500 300 15)).encode) :=
  C79_pay_token (env := env1) (cpi := demoCpi) (m := onLedger memL (sendL tokensL)) (metas := (sendL tokensL).accounts) (swig := K 1)
    (wallet := K 2) (payer := K 10) (w := walletL) (role := 1) (signers := []) (r := limitedRole) (a := auth0) (c := callerEd) (pre := [])
    (post := []) (src := K 31) (dst := K 32) (n := 5) (acts' := limitedActs 500 300 15) (before := (sendL tokensL).accounts.take 4)
    (s := ⟨K 31, false, true⟩) (after := (sendL tokensL).accounts.drop 5)
    { hash := hash1
      ready := ready_on walletL_wf rfl rfl (by decide +kernel) (by decide +kernel) (by decide +kernel)
        ⟨cred_ed.1, by decide +kernel, by decide +kernel⟩ (by decide +kernel) (by simp [sendL, Client.signV2, callerEd, byEd]) (by decide +kernel)
        (by decide +kernel)
      authorized := acts_ed
      restricted := by decide +kernel
      address := by decide +kernel
      system := by decide +kernel
      funds := by decide +kernel
      top := rfl
      flags := by unfold SameFlags; decide +kernel
      accounts := by decide +kernel
      data := by decide +kernel
      call := by decide +kernel
      mayCall := ⟨(Action.program tokenId).toAct, by decide +kernel, .inr (.inr ⟨rfl, rfl⟩)⟩
      foreign := by decide +kernel }
    (.plain (K 2) (.inl rfl) rfl rfl) (by decide +kernel) (by decide +kernel) (afterL_ok (by decide +kernel)) (by decide +kernel)
    (by decide +kernel) (by decide +kernel) (by decide) (by decide +kernel) (by decide +kernel)
    (.inl ⟨⟨.tokenLimit (K 50) 20, .tokenLimit (K 50) 15,
      ⟨by unfold Action.InRange; decide, rfl, [_, _, _], _, rfl, rfl, by decide +kernel⟩, by decide +kernel, .inl rfl⟩,
      by unfold NoTokenDest; decide +kernel⟩)

/-- The deposit of 4 tokens costs nothing. -/
example : process env1 demoCpi (onLedger memL (sendL depositL)) (sendL depositL).accounts (sendL depositL).data =
    .ok ((afterL depositL).setData (K 1) ((walletL.used 1).setActions 1 (limitedActs 500 300 20)).encode) :=
  C79_call (env := env1) (cpi := demoCpi) (m := onLedger memL (sendL depositL)) (metas := (sendL depositL).accounts) (swig := K 1)
    (wallet := K 2) (payer := K 10) (w := walletL) (role := 1) (signers := []) (r := limitedRole) (a := auth0) (c := callerEd) (pre := [])
    (post := []) (acts' := limitedActs 500 300 20)
    { hash := hash1
      ready := ready_on walletL_wf rfl rfl (by decide +kernel) (by decide +kernel) (by decide +kernel)
        ⟨cred_ed.1, by decide +kernel, by decide +kernel⟩ (by decide +kernel) (by simp [sendL, Client.signV2, callerEd, byEd]) (by decide +kernel)
        (by decide +kernel)
      authorized := acts_ed
      restricted := by decide +kernel
      address := by decide +kernel
      system := by decide +kernel
      funds := by decide +kernel
      top := rfl
      flags := by unfold SameFlags; decide +kernel
      accounts := by decide +kernel
      data := by decide +kernel
      call := by decide +kernel
      mayCall := ⟨(Action.program tokenId).toAct, by decide +kernel, .inr (.inr ⟨rfl, rfl⟩)⟩
      foreign := by decide +kernel }
    (afterL_ok (by decide +kernel)) (by decide +kernel) (by decide +kernel) (by decide +kernel) (.inl ⟨by decide +kernel, rfl⟩)

end

end Verif
