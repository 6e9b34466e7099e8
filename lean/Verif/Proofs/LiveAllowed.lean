import Verif.Proofs.LiveRestricted

/-! Requests of restricted roles, from the request to the result. -/

namespace Verif
open Client

theorem SameButBalance.rest {a b : Acct} (h : SameButBalance a b) :
    exceptBytes b.data 0 [(64, 72)] = exceptBytes a.data 0 [(64, 72)] := by
  simp only [exceptBytes, sl, Nat.sub_zero, List.drop_zero]
  rw [h.before, h.after]

theorem SameButBalance.kept {wallet : Key} {m : Mem} {k : Key} {b : Acct} (h : SameButBalance (m k) b) (ht : TokenOf m wallet k) :
    TokenKept wallet (m k) b where
  owner := h.owner
  rest := h.rest
  long := by rw [h.length]; exact ht.long
  alive := h.alive
  authority := by
    rw [← ht.authority]
    have : ∀ d : Bytes, sl d 32 64 = sl (d.take 64) 32 64 := by
      intro d
      unfold sl
      rw [List.drop_take, List.take_take]
      simp
    rw [this, h.before, ← this]
  initialized := by
    rw [← h.initialized]
    have : ∀ d : Bytes, d.getD 108 0 = (d.drop 72).getD 36 0 := by
      intro d
      simp [List.getD_eq_getElem?_getD, List.getElem?_drop]
    rw [this, h.after, ← this]

theorem SameButBalance.mint {a b : Acct} (h : SameButBalance a b) : sl b.data 0 32 = sl a.data 0 32 := by
  have : ∀ d : Bytes, sl d 0 32 = sl (d.take 64) 0 32 := by
    intro d
    unfold sl
    rw [List.drop_take, List.take_take]
    simp
  rw [this, h.before, ← this]

/-- The request gets as far as executing the instruction under the limits of the role. -/
theorem restricted_reach {env : Env} {cpi : Cpi} {m : Mem} {metas : List Meta} {swig wallet payer : Key} {w : Wallet} {role : Nat}
    {inner : FullIx} {signers : List Key} {r : Role} {a : Auth} {c : Caller} {pre post : List TxIx} (hh : HashLength env)
    (hr : Ready env m swig w role r a metas (Client.signV2 env swig wallet payer role inner signers c) pre post)
    (ho : ActsFor env a metas (Client.signV2 env swig wallet payer role inner signers c) pre c)
    (hres : Restricted r) (hwal : (m wallet).owner = systemId) (hpda : env.pda (walletSeeds swig ++ [[w.walletBump]]) = some wallet)
    (htop : env.stackHeight = 1) (hflags : SameFlags metas)
    (hsmall : (Client.signV2 env swig wallet payer role inner signers c).accounts.length ≤ 64 ∧
      (Client.signV2 env swig wallet payer role inner signers c).data.length < 2 ^ 16)
    (hf : inner.accounts ≠ [] ∧ inner.accounts.length ≤ 254 ∧ inner.data.length < 2 ^ 16) (hmay : MayInvoke r.actions inner.program) :
    ∃ s y rest tl i loc before after, metas = s :: y :: rest ∧ s.key = swig ∧ y.key = wallet ∧ All2 (PlainClass m swig wallet) rest tl ∧
      loc.swig = swig ∧ Placed loc (w.used role) role { r with auth := usedCred r.authType r.auth } before after ∧
      i.cpi = asCalled metas wallet inner ∧ (∀ a ∈ metas, a.key.length = 32) ∧ (∀ a ∈ i.accounts, a.key.length = 32) ∧
      programOk (signCtx env metas swig wallet w.walletBump loc [i] r) (m.setData swig (w.used role).encode) i = .ok true ∧
      execInner env cpi (m.setData swig (w.used role).encode) metas wallet (walletSeeds swig ++ [[w.walletBump]]) i =
        cpi (m.setData swig (w.used role).encode) (asCalled metas wallet inner) ∧
      process env cpi m metas (Client.signV2 env swig wallet payer role inner signers c).data =
        signLimited (signCtx env metas swig wallet w.walletBump loc [i] r) cpi (m.setData swig (w.used role).encode)
          (.thisSwig (m swig).lamports :: .wallet :: tl) := by
  obtain ⟨cs, x, tl, hfm, hacc, hsf⟩ := signV2_formed hsmall.1
  generalize Client.signV2 env swig wallet payer role inner signers c = b at *
  obtain ⟨payload, hd, hau⟩ := acts_accepts hh hr.cred.1 hfm ho hr.sent
  rw [hr.cred.2.1, hr.cred.2.2] at hau
  have hkeys := hr.sent.accounts.keys
  have hl0 := hr.sent.accounts.length
  have h32 : ∀ a ∈ metas, a.key.length = 32 := (hr.sent.fits.keys (b.seen metas) (by simp)).2
  obtain ⟨ixs, hdec, hsame⟩ := decodeIxs_stands (metas := metas) (hsf.imp fun _ _ h => h.promoted hkeys) (by simp)
    (by simpa using hf.2) wallet []
  obtain ⟨i, rfl, hi⟩ : ∃ i, ixs = [i] ∧ i.program = inner.program ∧ i.accounts.map (·.key) = inner.accounts.map (·.key) ∧
      i.data = inner.data := by
    cases hsame with
    | cons h1 h2 => cases h2; exact ⟨_, rfl, h1⟩
  have hcpi := inner_asCalled hflags hdec hi.1 hi.2.1 hi.2.2
  have hprog : i.program.length = 32 := by
    obtain ⟨cs', y', _, _, _, h4⟩ := (decodeIxs_iff _).mp hdec
    cases h4 with
    | cons hd _ =>
      obtain ⟨o, ho, e⟩ := hd.program
      rw [e]
      exact h32 o (List.mem_of_getElem? ho)
  have hk : metas.map (·.key) = swig :: wallet :: x :: tl := hkeys.trans hacc
  match metas, hk with
  | s :: y :: z :: rest, hk =>
    simp only [List.map_cons, List.cons.injEq] at hk
    obtain ⟨k1, k2, k3, k4⟩ := hk
    have hst := hr.stored
    have how := hr.owned
    subst k1 k2
    have hbl : (compactBytes cs).length < 2 ^ 16 := by
      have := hsmall.2
      rw [hd] at this
      simp [signData] at this
      omega
    have hparse := parseSign_built (payload := payload) (acting_lt hr.wf hr.role) hbl
    rw [hd]
    obtain ⟨t, hpc, e⟩ := process_plain (env := env) (cpi := cpi) (ix := signData role (compactBytes cs) ++ payload) hr.wf hst how hwal
      hr.plain (by rw [hl0]; omega)
    obtain ⟨before, after, hp, e2⟩ := signV2_reach (cpi := cpi) (tl := t) (n := (m s.key).lamports) hr.wf hst htop hparse
      ⟨hr.role, hau⟩ hdec
    refine ⟨s, y, z :: rest, t, i, _, before, after, rfl, rfl, rfl, hpc, rfl, hp, hcpi, h32, inner_keys h32 hdec i (by simp), ?_, ?_, ?_⟩
    · refine program_ok hp (Mem.setData_data ..) rfl ?_ hprog
      rw [hi.1]; exact hmay
    · exact execInner_called hcpi hpda (by rw [Mem.setData_owner]; exact hwal) hf.1
    · rw [e, dispatch, if_neg (by simp [signData]), show rd (signData role (compactBytes cs) ++ payload) 0 2 = 11 by
        simp only [signData, List.append_assoc]; exact rd_here 2 11 _ (by decide)]
      have e3 := signWith_limited (env := env) (cpi := cpi) (metas := s :: y :: z :: rest) (wallet := y.key) (bump := w.walletBump)
        (cls := .thisSwig (m s.key).lamports :: .wallet :: t) (ixs := [i]) hp (Mem.setData_data m s.key _) hres
      exact e2.trans e3

/-- The contexts in which the one instruction is executed. -/
structure OneCall (env : Env) (metas : List Meta) (wallet : Key) (inner : FullIx) (x : SignCtx) (i : Inner) : Prop where
  sameEnv : x.env = env
  sameWallet : x.wallet = wallet
  one : x.ixs = [i]
  call : i.cpi = asCalled metas wallet inner

/-- The request of a restricted role succeeds if the call does and the limits allow what it takes. -/
theorem restricted_result {env : Env} {cpi : Cpi} {m m1 : Mem} {metas : List Meta} {swig wallet payer : Key} {w : Wallet} {role : Nat}
    {inner : FullIx} {signers : List Key} {r : Role} {a : Auth} {c : Caller} {pre post : List TxIx} {mid acts' : List Act}
    (hh : HashLength env)
    (hr : Ready env m swig w role r a metas (Client.signV2 env swig wallet payer role inner signers c) pre post)
    (ho : ActsFor env a metas (Client.signV2 env swig wallet payer role inner signers c) pre c)
    (hres : Restricted r) (hwal : (m wallet).owner = systemId) (hpda : env.pda (walletSeeds swig ++ [[w.walletBump]]) = some wallet)
    (htop : env.stackHeight = 1) (hflags : SameFlags metas)
    (hsmall : (Client.signV2 env swig wallet payer role inner signers c).accounts.length ≤ 64 ∧
      (Client.signV2 env swig wallet payer role inner signers c).data.length < 2 ^ 16)
    (hf : inner.accounts ≠ [] ∧ inner.accounts.length ≤ 254 ∧ inner.data.length < 2 ^ 16) (hmay : MayInvoke r.actions inner.program)
    (hmax : (m wallet).lamports < 2 ^ 64)
    (hcall : cpi (m.setData swig (w.used role).encode) (asCalled metas wallet inner) = .ok m1)
    (hcfg : (m1 swig).data = (w.used role).encode ∧ (m1 swig).owner = swigId)
    (hrent : env.rent (m1 wallet).data.length ≤ (m1 wallet).lamports)
    (hsw : ∀ x ∈ metas, ¬ TokenOf m swig x.key)
    (hkept : ∀ x ∈ metas, TokenOf m wallet x.key → SameButBalance (m x.key) (m1 x.key))
    (hsol : ∀ x i, OneCall env metas wallet inner x i →
      ((m wallet).lamports - (m1 wallet).lamports = 0 ∧ mid = r.actions) ∨
      ((m wallet).lamports - (m1 wallet).lamports ≠ 0 ∧ SolOk x r.actions ((m wallet).lamports - (m1 wallet).lamports) ∧
        Plays env.slot r.actions (solSeg x r.actions ((m wallet).lamports - (m1 wallet).lamports)) mid))
    (htok : ∀ x i s y rest tl, OneCall env metas wallet inner x i → metas = s :: y :: rest → s.key = swig → y.key = wallet →
      All2 (PlainClass m swig wallet) rest tl →
      (∀ e ∈ (rest.zip tl).map (tokAfter m1), ∀ b s, e.2 = .token b s → s ≠ 0 → TokenOk x r.actions e.1.key (sl (m1 e.1.key).data 0 32) s) ∧
      Plays env.slot mid (((rest.zip tl).map (tokAfter m1)).flatMap fun e => segOf x m1 r.actions e.1 e.2) acts') :
    process env cpi m metas (Client.signV2 env swig wallet payer role inner signers c).data =
      .ok (m1.setData swig ((w.used role).setActions role acts').encode) := by
  obtain ⟨s, y, rest, tl, i, loc, before, after, rfl, rfl, rfl, hpc, hloc, hp, hcpi, h32, hi32, hok, hex, hproc⟩ :=
    restricted_reach (cpi := cpi) hh hr ho hres hwal hpda htop hflags hsmall hf hmay
  rw [hproc]
  have hone : OneCall env (s :: y :: rest) y.key inner (signCtx env (s :: y :: rest) s.key y.key w.walletBump loc [i] r) i := ⟨rfl, rfl, rfl, hcpi⟩
  have hl100 : (s :: y :: rest).length ≤ 100 := by rw [hr.sent.accounts.length]; omega
  have hlam : ((m.setData s.key (w.used role).encode) y.key).lamports = (m y.key).lamports := Mem.setData_lamports ..
  obtain ⟨ht1, ht2⟩ := htok _ _ s y rest tl hone rfl rfl rfl hpc
  have hz : (y :: rest).zip (Class.wallet :: tl) = (y, .wallet) :: rest.zip tl := rfl
  refine signLimited_one (x := signCtx env (s :: y :: rest) s.key y.key w.walletBump loc [i] r) (swigM := s) (metas := y :: rest)
    (i := i) (m1 := m1) hp (fun ix hix a ha => ?_) rfl hloc rfl hl100 hok (hex.trans hcall) (Mem.setData_data ..) ?_ hrent ?_ ?_ ?_ ?_ ?_
  · obtain rfl : ix = i := by simpa [signCtx] using hix
    exact hi32 a ha
  · exact ⟨by rw [hcfg.1, Mem.setData_data], by rw [hcfg.2, Mem.setData_owner, hr.owned]⟩
  · rw [hz]
    intro e he
    rcases List.mem_cons.mp he with rfl | he
    · exact ⟨rfl, fun h => by cases h⟩
    · obtain ⟨n, h1, h2⟩ := List.getElem_of_mem he
      have hpe : PlainClass m s.key y.key e.1 e.2 ∧ e.1 ∈ rest := by
        have : ∀ {l : List Meta} {t : List Class}, All2 (PlainClass m s.key y.key) l t → ∀ e ∈ l.zip t, PlainClass m s.key y.key e.1 e.2 ∧ e.1 ∈ l := by
          intro l t hlt
          induction hlt with
          | nil => intro e he; cases he
          | cons h _ ih =>
            intro e he
            rcases List.mem_cons.mp he with rfl | he
            · exact ⟨h, by simp⟩
            · exact ⟨(ih e he).1, by simp [(ih e he).2]⟩
        exact this hpc e he
      obtain ⟨hpe, hmem⟩ := hpe
      refine ⟨hpe.simple, fun htr => ?_⟩
      have hmem' : e.1 ∈ s :: y :: rest := by simp [hmem]
      have htk : TokenOf m y.key e.1.key := by
        by_cases hcase : TokenOf m s.key e.1.key ∨ TokenOf m y.key e.1.key
        · exact hcase.resolve_left (hsw e.1 hmem')
        · rw [hpe.other hcase] at htr; cases htr
      have hne : e.1.key ≠ s.key := by
        intro e1
        have := htk.program
        rw [e1, hr.owned] at this
        rcases this with h | h <;> exact absurd h (by decide +kernel)
      refine ⟨⟨_, hpe.token (.inr htk)⟩, hne, h32 _ hmem', ?_, ?_⟩
      · rw [Mem.setData_other _ _ hne]
        exact Nat.le_trans (by decide) htk.long
      · rw [Mem.setData_other _ _ hne]
        exact (hkept e.1 hmem' htk).kept htk
  · intro h
    rw [show (signCtx env (s :: y :: rest) s.key y.key w.walletBump loc [i] r).wallet = y.key from rfl, hlam] at h ⊢
    rcases hsol _ _ hone with ⟨h0, _⟩ | ⟨_, h1, _⟩
    · exact absurd h0 h
    · exact h1
  · rw [show (signCtx env (s :: y :: rest) s.key y.key w.walletBump loc [i] r).wallet = y.key from rfl, hlam]
    exact hmax
  · rw [hz]
    intro e he
    rcases List.mem_cons.mp he with rfl | he
    · intro b s h; cases h
    · exact ht1 e he
  · rw [hz, show (signCtx env (s :: y :: rest) s.key y.key w.walletBump loc [i] r).wallet = y.key from rfl, hlam]
    refine Plays.append (as1 := mid) ?_ ?_
    · rcases hsol _ _ hone with ⟨h0, rfl⟩ | ⟨h0, _, h2⟩
      · rw [if_pos h0]; exact .nil _
      · rw [if_neg h0]; exact h2
    · exact ht2

/-! ## SOL -/

theorem takesOf_mem {t1 t2 : Nat} {key : Bytes} {acts acts' : List Act} {n slot : Nat} (h : TakesOf t1 t2 key acts acts' n slot) :
    ∃ x ∈ acts, (x.ty = t1 ∨ x.ty = t2) ∧ x.grants x.ty key := by
  obtain ⟨lim, lim', ⟨h1, _, pre, post, rfl, _⟩, rfl, h2⟩ := h
  exact ⟨lim.toAct, by simp, h2.imp id (fun h => h.1), takes_grants h1⟩

theorem solDestHeld_false {acts : List Act} (h : NoSolDest acts) : solDestHeld acts = false := by
  unfold solDestHeld
  rw [List.any_eq_false]
  intro a ha
  simp [h a ha]

theorem solDestHeld_takes {dst : Key} {acts acts' : List Act} {n slot : Nat} (h : SolDestTakes dst acts acts' n slot) :
    solDestHeld acts = true := by
  obtain ⟨x, hx, h1, _⟩ := takesOf_mem h
  unfold solDestHeld
  rw [List.any_eq_true]
  exact ⟨x, hx, by rcases h1 with e | e <;> simp [e]⟩

/-- General limits alone. -/
theorem sol_general {x : SignCtx} {acts acts' : List Act} {n slot : Nat} (h : SolTakes acts acts' n slot) (hn : NoSolDest acts) :
    SolOk x acts n ∧ Plays slot acts (solSeg x acts n) acts' := by
  obtain ⟨h1, h2⟩ := takesOf_plays h
  constructor
  · exact ⟨.inl h1, fun h => by rw [solDestHeld_false hn] at h; cases h⟩
  · unfold solSeg spendSeg
    rw [solDestHeld_false hn]
    simpa using h2

theorem spend_covers {acts acts' : List Act} {g1 g2 d1 d2 : Nat} {key : Bytes} {kf : Key → Bytes} {held : Bool} {n slot : Nat} {dst : Key}
    (hw : ∀ a ∈ acts, a.WF) (hheld : held = true)
    (h : (NoneOf g1 g2 key acts ∧ TakesOf d1 d2 (kf dst) acts acts' n slot) ∨
      ∃ mid, TakesOf g1 g2 key acts mid n slot ∧ TakesOf d1 d2 (kf dst) mid acts' n slot) :
    SpendOk acts g1 g2 d1 d2 key kf held n [(dst, n)] ∧ Plays slot acts (spendSeg acts g1 g2 d1 d2 key kf held n [(dst, n)]) acts' := by
  have hd : eitherSeg acts d1 d2 (kf dst) n ≠ [] ∧ Plays slot acts (eitherSeg acts g1 g2 key n ++ eitherSeg acts d1 d2 (kf dst) n) acts' := by
    rcases h with ⟨h1, h2⟩ | ⟨mid, h1, h2⟩
    · rw [noneOf_seg h1]
      exact takesOf_plays h2
    · have hc := h1.charged hw
      obtain ⟨e1, e2⟩ := takesOf_plays h2
      rw [eitherSeg_congr hc] at e1 e2
      exact ⟨e1, (takesOf_plays h1).2.append e2⟩
  subst hheld
  refine ⟨⟨.inr rfl, fun _ => ⟨by simp, by simp, ?_⟩⟩, ?_⟩
  · intro t ht
    obtain rfl : t = (dst, n) := by simpa using ht
    exact hd.1
  · unfold spendSeg
    simpa using hd.2

theorem sol_covers {x : SignCtx} {acts acts' : List Act} {n slot : Nat} {dst : Key} (hw : ∀ a ∈ acts, a.WF)
    (ht : solTransfers x.wallet x.ixs = [(dst, n)]) (h : SolCovers dst acts acts' n slot) :
    SolOk x acts n ∧ Plays slot acts (solSeg x acts n) acts' := by
  rcases h with ⟨h1, h2⟩ | h
  · exact sol_general h1 h2
  · have hheld : solDestHeld acts = true := by
      rcases h with ⟨_, h2⟩ | ⟨mid, h1, h2⟩
      · exact solDestHeld_takes h2
      · rw [← solDestHeld_charged (h1.charged hw)]
        exact solDestHeld_takes h2
    unfold SolOk solSeg
    rw [ht]
    exact spend_covers (kf := fun d => d) hw hheld h

theorem called_accounts {metas : List Meta} {wallet : Key} {inner : FullIx} {i : Inner} (h : i.cpi = asCalled metas wallet inner) :
    i.program = inner.program ∧ i.accounts.map (·.key) = inner.accounts.map (·.key) ∧ i.data = inner.data := by
  have h1 : i.program = (asCalled metas wallet inner).program := by rw [← h]; rfl
  have h2 : i.accounts = (asCalled metas wallet inner).accounts := by rw [← h]; rfl
  have h3 : i.data = (asCalled metas wallet inner).data := by rw [← h]; rfl
  refine ⟨h1, ?_, h3⟩
  rw [h2]
  simp [asCalled]

theorem map_key_two {l : List Meta} {a b : Key} {t : List Key} (h : l.map (·.key) = a :: b :: t) :
    ∃ x y l', l = x :: y :: l' ∧ x.key = a ∧ y.key = b ∧ l'.map (·.key) = t := by
  match l, h with
  | x :: y :: l', h =>
    simp only [List.map_cons, List.cons.injEq] at h
    exact ⟨x, y, l', rfl, h⟩

theorem sol_transfers {env : Env} {metas : List Meta} {wallet dst : Key} {n : Nat} {x : SignCtx} {i : Inner} (hn : n < 2 ^ 64)
    (h : OneCall env metas wallet (solPayment wallet dst n) x i) : solTransfers x.wallet x.ixs = [(dst, n)] := by
  obtain ⟨h1, h2, h3⟩ := called_accounts h.call
  obtain ⟨p, q, l', e1, e2, e3, _⟩ := map_key_two (l := i.accounts) (a := wallet) (b := dst) (t := []) h2
  rw [h.sameWallet, h.one]
  unfold solTransfers
  have hd : i.data = natLE 4 2 ++ natLE 8 n := h3
  have r0 : rd i.data 0 4 = 2 := by rw [hd]; exact rd_here 4 2 _ (by decide)
  have r4 : rd i.data 4 8 = n := by
    rw [hd]
    have := rd_full 8 n (by simpa using hn) (natLE 4 2) [] (i := 4) (by simp)
    simpa using this
  simp only [List.filterMap_cons, List.filterMap_nil]
  rw [if_pos ⟨h1, by rw [hd]; simp, r0⟩, e1]
  dsimp only
  rw [if_pos e2, e3, r4]

/-! ## Tokens -/

/-- No token account of the wallet among the accounts loses tokens: nothing is charged for tokens. -/
theorem tok_none {m m1 : Mem} {swig wallet : Key} {x : SignCtx} {acts : List Act} : ∀ {l : List Meta} {tl : List Class},
    All2 (PlainClass m swig wallet) l tl → (∀ a ∈ l, ¬ TokenOf m swig a.key) →
    (∀ a ∈ l, TokenOf m wallet a.key → tokenBalance (m a.key) ≤ tokenBalance (m1 a.key)) →
    (∀ e ∈ (l.zip tl).map (tokAfter m1), ∀ b s, e.2 = .token b s → s = 0) ∧
    ((l.zip tl).map (tokAfter m1)).flatMap (fun e => segOf x m1 acts e.1 e.2) = [] := by
  intro l tl h
  induction h with
  | nil => intro _ _; simp
  | cons hc _ ih =>
    rename_i a c l tl _
    intro hsw hb
    obtain ⟨i1, i2⟩ := ih (fun a ha => hsw a (by simp [ha])) (fun a ha => hb a (by simp [ha]))
    have key : ∀ b s, (tokAfter m1 (a, c)).2 = .token b s → s = 0 := by
      intro b s he
      by_cases ht : TokenOf m wallet a.key
      · rw [hc.token (.inr ht)] at he
        simp only [tokAfter] at he
        split at he
        · cases he; rfl
        · have := hb a (by simp) ht
          unfold tokenBalance at this
          rw [if_neg (by omega)] at he
          cases he; rfl
      · have := hc.other (by rintro (h | h); exact hsw a (by simp) h; exact ht h)
        cases c <;> simp [tokAfter] at he
        cases this
    refine ⟨?_, ?_⟩
    · intro e he
      simp only [List.zip_cons_cons, List.map_cons, List.mem_cons] at he
      rcases he with rfl | he
      · exact key
      · exact i1 e he
    · simp only [List.zip_cons_cons, List.map_cons, List.flatMap_cons]
      rw [i2, List.append_nil]
      cases hcl : (tokAfter m1 (a, c)).2 with
      | token b s =>
        rw [key b s hcl]
        simp [segOf]
      | none => rfl
      | wallet => rfl
      | thisSwig _ => rfl
      | stake =>
        exfalso
        have := hc.simple
        cases c <;> simp [tokAfter] at hcl <;> first | (split at hcl <;> cases hcl) | cases this
      | scope =>
        exfalso
        have := hc.simple
        cases c <;> simp [tokAfter] at hcl <;> first | (split at hcl <;> cases hcl) | cases this

theorem All2.split {α β : Type} {R : α → β → Prop} {a : α} {l2 : List α} : ∀ {l1 : List α} {tl : List β}, All2 R (l1 ++ a :: l2) tl →
    ∃ t1 c t2, tl = t1 ++ c :: t2 ∧ All2 R l1 t1 ∧ R a c ∧ All2 R l2 t2 := by
  intro l1
  induction l1 with
  | nil =>
    intro tl h
    cases h with
    | cons h1 h2 => exact ⟨[], _, _, rfl, .nil, h1, h2⟩
  | cons b l1 ih =>
    intro tl h
    cases h with
    | cons h1 h2 =>
      obtain ⟨t1, c, t2, rfl, e1, e2, e3⟩ := ih h2
      exact ⟨_ :: t1, c, t2, rfl, .cons h1 e1, e2, e3⟩

/-- One token account of the wallet loses `n` tokens. -/
theorem tok_one {m m1 : Mem} {swig wallet : Key} {x : SignCtx} {acts : List Act} {l1 l2 : List Meta} {a : Meta} {tl : List Class} {n : Nat}
    (h : All2 (PlainClass m swig wallet) (l1 ++ a :: l2) tl) (hsw : ∀ a ∈ l1 ++ l2, ¬ TokenOf m swig a.key)
    (hb : ∀ a ∈ l1 ++ l2, TokenOf m wallet a.key → tokenBalance (m a.key) ≤ tokenBalance (m1 a.key))
    (ha : TokenOf m wallet a.key) (hw : a.writable = true) (hk : SameButBalance (m a.key) (m1 a.key)) (hn : n ≠ 0)
    (hl : tokenBalance (m1 a.key) + n = tokenBalance (m a.key))
    (hok : TokenOk x acts a.key (sl (m a.key).data 0 32) n) :
    (∀ e ∈ ((l1 ++ a :: l2).zip tl).map (tokAfter m1), ∀ b s, e.2 = .token b s → s ≠ 0 →
      TokenOk x acts e.1.key (sl (m1 e.1.key).data 0 32) s) ∧
    (((l1 ++ a :: l2).zip tl).map (tokAfter m1)).flatMap (fun e => segOf x m1 acts e.1 e.2) =
      tokenSeg x acts a.key (sl (m a.key).data 0 32) n := by
  obtain ⟨t1, c, t2, rfl, h1, h2, h3⟩ := h.split
  obtain ⟨n1, n2⟩ := tok_none (m1 := m1) (x := x) (acts := acts) h1 (fun a ha => hsw a (by simp [ha])) (fun a ha => hb a (by simp [ha]))
  obtain ⟨n3, n4⟩ := tok_none (m1 := m1) (x := x) (acts := acts) h3 (fun a ha => hsw a (by simp [ha])) (fun a ha => hb a (by simp [ha]))
  have hlt : tokenBalance (m a.key) < 2 ^ 64 := rd_lt _ _ 8
  have hlen : 72 ≤ (m1 a.key).data.length := by rw [hk.length]; exact Nat.le_trans (by decide) ha.long
  have hta : tokAfter m1 (a, c) = (a, .token (tokenBalance (m1 a.key)) n) := by
    rw [h2.token (.inr ha)]
    simp only [tokAfter]
    rw [if_neg (by rw [hw]; simp; omega)]
    unfold tokenBalance at hl hlt ⊢
    rw [if_pos (by omega)]
    unfold satAdd64
    congr 2
    omega
  have hg : ¬ Gone (m1 a.key) := by
    rintro (h | h)
    · rw [h] at hlen; simp at hlen
    · exact hk.alive h
  rw [List.zip_append h1.length', List.map_append, List.flatMap_append, List.zip_cons_cons, List.map_cons, List.flatMap_cons, n2, n4, hta]
  refine ⟨?_, ?_⟩
  · intro e he b s hes hs
    rcases List.mem_append.mp he with he | he
    · exact absurd (n1 e he b s hes) hs
    · rcases List.mem_cons.mp he with rfl | he
      · cases hes
        rw [hk.mint]
        exact hok
      · exact absurd (n3 e he b s hes) hs
  · simp only [segOf]
    rw [if_neg (by rintro (h | h); exact hg h; exact hn h), hk.mint]
    simp

theorem tokenDestHeld_false {mint : Key} {acts : List Act} (h : NoTokenDest mint acts) : tokenDestHeld mint acts = false := by
  unfold tokenDestHeld
  rw [List.any_eq_false]
  intro a ha hc
  simp only [Bool.and_eq_true, Bool.or_eq_true, beq_iff_eq] at hc
  exact h a ha hc.1 hc.2.symm

theorem tokenDestHeld_takes {mint dst : Key} (hm : mint.length = 32) {acts acts' : List Act} {n slot : Nat}
    (h : TokenDestTakes mint dst acts acts' n slot) : tokenDestHeld mint acts = true := by
  obtain ⟨x, hx, h1, h2⟩ := takesOf_mem h
  unfold tokenDestHeld
  rw [List.any_eq_true]
  have hkey : ∀ d : Bytes, d.take 64 = mint ++ dst → mint == d.take 32 := by
    intro d hd
    have : d.take 32 = (d.take 64).take 32 := by rw [List.take_take]; simp
    rw [this, hd, List.take_left' hm]
    simp
  refine ⟨x, hx, ?_⟩
  have hg := h2.2
  rcases h1 with e | e
  · rw [e] at hg
    simp [e, hkey x.data (hg rfl)]
  · rw [e] at hg
    simp [e, hkey x.data (hg rfl)]

theorem token_covers {x : SignCtx} {acts acts' : List Act} {n slot : Nat} {src mint dst : Key} (hm : mint.length = 32)
    (hw : ∀ a ∈ acts, a.WF) (ht : tokenTransfers src x.ixs = [(dst, n)]) (h : TokenCovers mint dst acts acts' n slot) :
    TokenOk x acts src mint n ∧ Plays slot acts (tokenSeg x acts src mint n) acts' := by
  rcases h with ⟨h1, h2⟩ | h
  · obtain ⟨k1, k2⟩ := takesOf_plays h1
    constructor
    · exact ⟨.inl k1, fun h => by rw [tokenDestHeld_false h2] at h; cases h⟩
    · unfold tokenSeg spendSeg
      rw [tokenDestHeld_false h2]
      simpa using k2
  · have hheld : tokenDestHeld mint acts = true := by
      rcases h with ⟨_, h2⟩ | ⟨mid, h1, h2⟩
      · exact tokenDestHeld_takes hm h2
      · rw [← tokenDestHeld_charged _ (h1.charged hw)]
        exact tokenDestHeld_takes hm h2
    unfold TokenOk tokenSeg
    rw [ht]
    exact spend_covers (kf := fun d => mint ++ d) hw hheld h

theorem token_transfers {env : Env} {metas : List Meta} {wallet src dst : Key} {n : Nat} {inner : FullIx} {x : SignCtx} {i : Inner}
    (hn : n < 2 ^ 64) (h : OneCall env metas wallet inner x i) (hp : TokenPayment src dst n inner) :
    tokenTransfers src x.ixs = [(dst, n)] := by
  obtain ⟨h1, h2, h3⟩ := called_accounts h.call
  rw [h.one]
  unfold tokenTransfers
  simp only [List.filterMap_cons, List.filterMap_nil]
  cases hp with
  | plain auth hprog hacc hdata =>
    rw [hacc] at h2
    obtain ⟨p, q, l', e1, e2, e3, _⟩ := map_key_two h2
    rw [hdata] at h3
    have r1 : rd (3 :: natLE 8 n) 1 8 = n := by
      have := rd_full 8 n (by simpa using hn) [3] [] (i := 1) (by simp)
      simpa using this
    rw [if_pos (by rw [h1]; exact hprog), h3]
    have : tokenDestIx (3 :: natLE 8 n) = some 1 := by
      unfold tokenDestIx
      rw [if_neg (by simp), if_pos (by simp), if_pos (by simp)]
    rw [this, e1]
    simp [e2, e3, r1]
  | checked auth mint dec hprog hacc hdata =>
    rw [hacc] at h2
    obtain ⟨p, q, l', e1, e2, _, e4⟩ := map_key_two h2
    obtain ⟨u, v, l'', e5, e6, _, _⟩ := map_key_two e4
    rw [hdata] at h3
    have r1 : rd (12 :: natLE 8 n ++ [dec]) 1 8 = n := by
      have := rd_full 8 n (by simpa using hn) [12] [dec] (i := 1) (by simp)
      simpa using this
    rw [if_pos (by rw [h1]; exact hprog), h3]
    have : tokenDestIx (12 :: natLE 8 n ++ [dec]) = some 2 := by
      unfold tokenDestIx
      rw [if_neg (by simp), if_neg (by simp), if_pos (by simp), if_pos (by simp)]
    rw [this, e1, e5]
    simp only [List.getElem?_cons_zero, List.getElem?_cons_succ]
    rw [if_pos e2, e6, r1]

end Verif
