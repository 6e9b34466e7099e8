import Verif.Proofs.More
import Verif.Props.AcceptFull

/-!
# Does a further permission ever take something away? (C113)

Granting a role a further permission should leave it able to sign what it could sign before.  It does not (`C113_refuted`, `C113_refuted_shadowed`): the first
limit for one destination forbids all other destinations, and a one-time limit puts the recurring limit of the same role out of use.  What holds
(`C113_better_partial`): larger limits, and further permissions that are not themselves limits or program scopes, take nothing away, whatever
accounts are passed.  `Better` is in
Verif/Spec/More.lean.
-/

namespace Verif
open Client

section
variable {env : Env} {cpi : Cpi} {m : Mem} {swig : Meta} {rest : List Meta} {ix : Bytes} {w : Wallet} {r : Role}

theorem setActions_role (id : Nat) (acts : List Act) (hr : w.role? id = some r) : (w.setActions id acts).role? id = some { r with actions := acts } := by
  unfold Wallet.setActions
  have := mapRole_find w id id (fun r => { r with actions := acts }) (fun _ => rfl)
  rw [hr] at this
  have hid : r.id = id := by simpa using List.find?_some hr
  simpa [hid] using this

theorem setActions_scopeOn {id : Nat} {acts : List Act} (hr : w.role? id = some r) (hb : Better r.actions acts) (k : Key) :
    (w.setActions id acts).scopeOn k = w.scopeOn k := by
  unfold Wallet.scopeOn
  have e : ∀ j, ((w.setActions id acts).role? j).bind (fun r => payload? r.actions P.programScope k) =
      (w.role? j).bind fun r => payload? r.actions P.programScope k := by
    intro j
    by_cases hj : j = id
    · subst hj
      rw [setActions_role j acts hr, hr]
      exact hb.loose.scope k
    · have := mapRole_find w id j (fun r => { r with actions := acts }) (fun _ => rfl)
      unfold Wallet.setActions
      rw [this]
      cases h : w.role? j with
      | none => rfl
      | some q =>
        have hq : q.id = j := by simpa using List.find?_some h
        simp [hq, hj]
  simp only [e]
  rfl

/-- Better permissions lose nothing: if the signing request is accepted with the role as it is, then it is accepted with the permissions `acts`, where
each limit of the role is at least as large as before, program scopes are as they were, and the permissions that are new are neither limits nor
program scopes.  The request may move lamports, tokens and stake and touch the targets of scopes.  Assumed as for C114; and the called programs do
not look into the configuration account, which is the only difference between the two ledgers. -/
theorem C113_better_partial {acts : List Act} (ho : Open m swig.key w) (hl : (swig :: rest).length ≤ 254) (hi : rd ix 0 2 = 11)
    (hk : ∀ a ∈ swig :: rest, a.key.length = 32) (hkeep : cpi.Keeps swig.key) (hblind : cpi.Blind swig.key) (hs : env.slot < 2 ^ 64)
    (hsys : swig.key ≠ instructionsSysvarId) (hr : w.role? (rd ix 4 4) = some r) (hb : Better r.actions acts) (hw : (w.setActions (rd ix 4 4) acts).WF)
    (h : Accepted env cpi m (swig :: rest) ix) :
    Accepted env cpi (m.setData swig.key (w.setActions (rd ix 4 4) acts).encode) (swig :: rest) ix := by
  have hr2 := setActions_role (rd ix 4 4) acts hr
  have ho2 : Open (m.setData swig.key (w.setActions (rd ix 4 4) acts).encode) swig.key (w.setActions (rd ix 4 4) acts) :=
    ⟨by rw [Mem.setData_owner]; exact ho.owner, hw, Mem.setData_data ..⟩
  have hsc := setActions_scopeOn hr hb
  have hset : ∀ d : Bytes, ((m.setData swig.key (w.setActions (rd ix 4 4) acts).encode).setData swig.key d) =
      (m.setData swig.key (w.used (rd ix 4 4)).encode).setData swig.key d := by
    intro d
    funext x
    unfold Mem.setData Mem.set
    by_cases h : x = swig.key <;> simp [h]
  -- what both theorems of C114 share
  have shared : ∀ {wallet x3 : Meta} {more : List Meta} {ixs : List Inner}, rest = wallet :: x3 :: more →
      (m wallet.key).owner = systemId →
      Speaks env m (swig :: rest) w (rd ix 4 4) (ix.drop (8 + rd ix 2 2)) (innerBytes ix) r →
      ((m.setData swig.key (w.setActions (rd ix 4 4) acts).encode) wallet.key).owner = systemId ∧
      Speaks env (m.setData swig.key (w.setActions (rd ix 4 4) acts).encode) (swig :: rest) (w.setActions (rd ix 4 4) acts) (rd ix 4 4)
        (ix.drop (8 + rd ix 2 2)) (innerBytes ix) { r with actions := acts } := by
    intro wallet x3 more ixs _ h2 h3
    refine ⟨by rw [Mem.setData_owner]; exact h2, hr2, ?_⟩
    rw [Mem.setData_other _ _ (Ne.symm hsys)]
    exact h3.2
  have runs : ∀ {wallet : Key} {ixs : List Inner} {m1 : Mem}, execAll env cpi (swig :: rest) wallet (walletSeeds swig.key ++ [[w.walletBump]])
      (m.setData swig.key (w.used (rd ix 4 4)).encode) ixs = .ok m1 →
      execAll env cpi (swig :: rest) wallet (walletSeeds swig.key ++ [[(w.setActions (rd ix 4 4) acts).walletBump]])
      ((m.setData swig.key (w.setActions (rd ix 4 4) acts).encode).setData swig.key ((w.setActions (rd ix 4 4) acts).used (rd ix 4 4)).encode) ixs =
        .ok (m1.setData swig.key ((w.setActions (rd ix 4 4) acts).used (rd ix 4 4)).encode) := by
    intro wallet ixs m1 h
    rw [hset]
    exact (execAll_blind hblind _ h).1
  by_cases free : r.holds P.all ∨ r.holds P.allButManageAuthority
  · -- the role was unrestricted and stays so
    have free2 : ∀ q, (w.setActions (rd ix 4 4) acts).role? (rd ix 4 4) = some q → q.holds P.all ∨ q.holds P.allButManageAuthority := by
      intro q hq
      rw [hr2] at hq
      cases hq
      obtain ⟨l, more, rfl, hall, _⟩ := hb
      refine free.imp ?_ ?_ <;>
      · rintro ⟨x, hx, ht⟩
        obtain ⟨y, hy, hrel⟩ := hall.right_of hx
        exact ⟨y, List.mem_append_left _ hy, hrel.ty.trans ht⟩
    obtain ⟨wallet, x3, more, r', ixs, h1, h2, h3, h4, hin, h5, h6, m', h7⟩ :=
      (C114_sign_free (env := env) (cpi := cpi) ho hl hi (fun q hq => by rw [hr] at hq; cases hq; exact free)).mp h
    have e := h5.1
    rw [hr] at e
    cases e
    obtain ⟨k1, k2⟩ := shared (ixs := ixs) h1 h4 h5
    exact (C114_sign_free ho2 hl hi free2).mpr ⟨wallet, x3, more, _, ixs, h1, h2, h3, k1, hin.same ho.owner hsc, k2, h6, _, runs h7⟩
  · have lim : ∀ q, w.role? (rd ix 4 4) = some q → ¬ q.holds P.all ∧ ¬ q.holds P.allButManageAuthority := by
      intro q hq
      rw [hr] at hq
      cases hq
      exact ⟨fun x => free (.inl x), fun x => free (.inr x)⟩
    obtain ⟨wallet, x3, more, r', ixs, h1, h2, h3, h4, hin, h5, h6, m', h7⟩ := (C114_sign_limited (env := env) (cpi := cpi) ho hl hi lim hk hkeep).mp h
    have e := h5.1
    rw [hr] at e
    cases e
    obtain ⟨k1, k2⟩ := shared (ixs := ixs) h1 h4 h5
    by_cases free2 : (({ r with actions := acts } : Role).holds P.all) ∨ (({ r with actions := acts } : Role).holds P.allButManageAuthority)
    · exact (C114_sign_free ho2 hl hi (fun q hq => by rw [hr2] at hq; cases hq; exact free2)).mpr
        ⟨wallet, x3, more, _, ixs, h1, h2, h3, k1, hin.same ho.owner hsc, k2, h6, _, runs (by rw [h1]; exact h7.runs)⟩
    · have lim2 : ∀ q, (w.setActions (rd ix 4 4) acts).role? (rd ix 4 4) = some q → ¬ q.holds P.all ∧ ¬ q.holds P.allButManageAuthority := by
        intro q hq
        rw [hr2] at hq
        cases hq
        exact ⟨fun x => free2 (.inl x), fun x => free2 (.inr x)⟩
      refine (C114_sign_limited ho2 hl hi lim2 hk hkeep).mpr ⟨wallet, x3, more, _, ixs, h1, h2, h3, k1, hin.same ho.owner hsc, k2, h6,
        m'.setData swig.key ((w.setActions (rd ix 4 4) acts).used (rd ix 4 4)).encode, ?_⟩
      rw [hset]
      have hne : wallet.key ≠ swig.key := by
        intro e
        rw [e, ho.owner] at h4
        exact absurd h4 (by decide +kernel)
      exact h7.better hs (by rw [Mem.setData_owner]; exact ho.owner) hsc hne hblind hb

end

/-! ## A further permission that takes away -/

namespace Sample

/-- A System program that knows transfers only. -/
def plainPay : Cpi := fun m ix =>
  match ix.accounts with
  | [a, b] => if ix.program = systemId ∧ rd ix.data 4 8 ≤ (m a.key).lamports then .ok (directTransfer m a.key b.key (rd ix.data 4 8)) else .error .runtime
  | _ => .error .runtime

theorem plainPay_blind (k : Key) : plainPay.Blind k := by
  intro m d ix
  unfold plainPay
  split
  · rename_i a b _
    simp only [Mem.setData_lamports]
    split
    · refine ⟨fun m' h => ?_, fun e h => (by cases h)⟩
      cases h
      simp only [directTransfer, setData_setLamports, Mem.setData_lamports]
    · exact ⟨fun _ h => (by cases h), fun e _ => ⟨_, rfl⟩⟩
  · exact ⟨fun _ h => (by cases h), fun e _ => ⟨_, rfl⟩⟩

theorem plainPay_keeps (k : Key) : plainPay.Keeps k := by
  intro m ix m' h
  unfold plainPay at h
  split at h
  · split at h
    · cases h
      unfold directTransfer Mem.setLamports Mem.set
      constructor <;> simp only <;> split <;> (try split) <;> simp_all
    · cases h
  · cases h

/-- A role that may pay 500 lamports; one that may pay 500 lamports per 100 slots. -/
def onceActs : List Act := [⟨P.programAll, []⟩, (Action.solLimit 500).toAct]
def oftenActs : List Act := [⟨P.programAll, []⟩, (Action.solRecurringLimit 500 100 0 500).toAct]

end Sample

/-- The claim: a further permission never takes away a request that was accepted. -/
def MoreIsMore : Prop :=
  ∀ (env : Env) (cpi : Cpi) (m : Mem) (swig : Meta) (rest : List Meta) (ix : Bytes) (w : Wallet) (r : Role) (x : Act), Open m swig.key w → Plain m w (swig :: rest) →
    rd ix 0 2 = 11 → cpi.Keeps swig.key → cpi.Blind swig.key → w.role? (rd ix 4 4) = some r → (w.setActions (rd ix 4 4) (r.actions ++ [x])).WF → x.ty ≠ P.programScope →
    Accepted env cpi m (swig :: rest) ix → Accepted env cpi (m.setData swig.key (w.setActions (rd ix 4 4) (r.actions ++ [x])).encode) (swig :: rest) ix

section
open Sample

private theorem takes_away {acts : List Act} {x : Act} {n : Nat} (h : MoreIsMore) (hx : x.ty ≠ P.programScope)
    (ho : (signMem acts (K 1)).owner = swigId ∧ (signWallet acts).WF ∧ (signMem acts (K 1)).data = (signWallet acts).encode)
    (hp : ∀ a ∈ signSwig :: signAddr :: signRest, (signMem acts a.key).owner ≠ stakeId ∧ ∀ r ∈ (signWallet acts).roles, ∀ x ∈ r.actions, x.ty ≠ P.programScope)
    (hi : rd (signIx [paySol n]) 0 2 = 11 ∧ rd (signIx [paySol n]) 4 4 = 1) (hw : ((signWallet acts).setActions 1 (acts ++ [x])).WF)
    (hyes : ok (process signEnv plainPay (signMem acts) (signSwig :: signAddr :: signRest) (signIx [paySol n])) = true)
    (hno : ok (process signEnv plainPay ((signMem acts).setData (K 1) ((signWallet acts).setActions 1 (acts ++ [x])).encode) (signSwig :: signAddr :: signRest)
      (signIx [paySol n])) = false) : False := by
  have hr : (signWallet acts).role? (rd (signIx [paySol n]) 4 4) = some ⟨1, 1, K 11, acts⟩ := by rw [hi.2]; rfl
  have := h signEnv plainPay (signMem acts) signSwig (signAddr :: signRest) (signIx [paySol n]) (signWallet acts) ⟨1, 1, K 11, acts⟩ x ⟨ho.1, ho.2.1, ho.2.2⟩
    (fun a ha => ⟨(hp a ha).1, fun r hr x hx e => absurd e ((hp a ha).2 r hr x hx)⟩) hi.1 (plainPay_keeps _) (plainPay_blind _) hr (by rw [hi.2]; exact hw) hx
    (exists_of_ok hyes)
  rw [hi.2] at this
  obtain ⟨m', e⟩ := this
  replace e : process signEnv plainPay ((signMem acts).setData (K 1) ((signWallet acts).setActions 1 (acts ++ [x])).encode) (signSwig :: signAddr :: signRest)
    (signIx [paySol n]) = .ok m' := e
  rw [e] at hno
  cases hno

/-- Not so: a role that may pay 500 lamports to anybody is given leave to pay 1000 to `K 77`, and can no longer pay 100 to `K 40`. -/
theorem C113_refuted : ¬ MoreIsMore := fun h =>
  takes_away (acts := onceActs) (x := (Action.solDestinationLimit (K 77) 1000).toAct) (n := 100) h (by decide) (by decide +kernel) (by decide +kernel)
    (by decide +kernel) (by decide +kernel) (by decide +kernel) (by decide +kernel)

/-- Nor without limits for destinations: a role that may pay 500 lamports every 100 slots is given leave to pay 50 more, once, and can no longer pay 100. -/
theorem C113_refuted_shadowed : ¬ MoreIsMore := fun h =>
  takes_away (acts := oftenActs) (x := (Action.solLimit 50).toAct) (n := 100) h (by decide) (by decide +kernel) (by decide +kernel)
    (by decide +kernel) (by decide +kernel) (by decide +kernel) (by decide +kernel)

/-- The hypotheses of `C113_better_partial` are met: 500 lamports become 700, and a permission to close accounts is added. -/
example : Better onceActs [⟨P.programAll, []⟩, (Action.solLimit 700).toAct, ⟨P.closeSwigAuthority, []⟩] ∧
    ((signWallet onceActs).setActions 1 [⟨P.programAll, []⟩, (Action.solLimit 700).toAct, ⟨P.closeSwigAuthority, []⟩]).WF ∧
    Accepted signEnv plainPay (signMem onceActs) (signSwig :: signAddr :: signRest) (signIx [paySol 100]) ∧ signEnv.slot < 2 ^ 64 ∧
    signSwig.key ≠ instructionsSysvarId := by
  refine ⟨⟨[⟨P.programAll, []⟩, (Action.solLimit 700).toAct], [⟨P.closeSwigAuthority, []⟩], rfl,
    .cons (.inl rfl) (.cons (.inr ⟨.solLimit 500, .solLimit 700, by decide, by decide, .sol (by decide), rfl, rfl⟩) .nil), ?_⟩, by decide +kernel, exists_of_ok (by decide +kernel),
    by decide, by decide +kernel⟩
  intro x hx
  rw [List.mem_singleton] at hx
  subst hx
  unfold NoLimit
  decide

namespace Sample

/-- A stake program that knows withdrawals only. -/
def plainDraw : Cpi := fun m ix =>
  match ix.accounts with
  | [a, b, _] => if ix.program = stakeId ∧ rd ix.data 4 8 ≤ (m a.key).lamports then .ok (directTransfer m a.key b.key (rd ix.data 4 8)) else .error .runtime
  | _ => .error .runtime

theorem plainDraw_blind (k : Key) : plainDraw.Blind k := by
  intro m d ix
  unfold plainDraw
  split
  · rename_i a b _ _
    simp only [Mem.setData_lamports]
    split
    · refine ⟨fun m' h => ?_, fun e h => (by cases h)⟩
      cases h
      simp only [directTransfer, setData_setLamports, Mem.setData_lamports]
    · exact ⟨fun _ h => (by cases h), fun e _ => ⟨_, rfl⟩⟩
  · exact ⟨fun _ h => (by cases h), fun e _ => ⟨_, rfl⟩⟩

theorem plainDraw_keeps (k : Key) : plainDraw.Keeps k := by
  intro m ix m' h
  unfold plainDraw at h
  split at h
  · split at h
    · cases h
      unfold directTransfer Mem.setLamports Mem.set
      constructor <;> simp only <;> split <;> (try split) <;> simp_all
    · cases h
  · cases h

end Sample

/-- They are met with a stake account of the wallet: of a limit of 600 for stake 500 are withdrawn; the limit becomes 900, and the role also gets
leave for all stake. -/
example : Better stakeActs [(Action.stakeLimit 900).toAct, ⟨P.programAll, []⟩, ⟨P.stakeAll, []⟩] ∧
    ((signWallet stakeActs).setActions 1 [(Action.stakeLimit 900).toAct, ⟨P.programAll, []⟩, ⟨P.stakeAll, []⟩]).WF ∧
    Open (moreMem (signWallet stakeActs) stakeAcct) (K 1) (signWallet stakeActs) ∧
    StakeWatched (moreMem (signWallet stakeActs) stakeAcct) (K 1) (K 2) ⟨K 80, false, true⟩ ∧
    plainDraw.Blind (K 1) ∧ plainDraw.Keeps (K 1) ∧
    Accepted signEnv plainDraw (moreMem (signWallet stakeActs) stakeAcct) (signSwig :: signAddr :: moreRest) (signIx [withdrawStake 500]) := by
  refine ⟨⟨[(Action.stakeLimit 900).toAct, ⟨P.programAll, []⟩], [⟨P.stakeAll, []⟩], rfl,
    .cons (.inr ⟨.stakeLimit 600, .stakeLimit 900, by decide, by decide, .stake (by decide), rfl, rfl⟩) (.cons (.inl rfl) .nil), ?_⟩, by decide +kernel, stake_met.1,
    stake_met.2.1, plainDraw_blind _, plainDraw_keeps _, exists_of_ok (by decide +kernel)⟩
  intro x hx
  rw [List.mem_singleton] at hx
  subst hx
  unfold NoLimit
  decide

end

end Verif
