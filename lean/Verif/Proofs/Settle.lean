import Verif.Proofs.SignState

/-! The settlement loop of `sign_v2`: which charges it makes and what it checks. -/

namespace Verif

/-! ## Does the role hold destination limits? -/

theorem scanGo_enc {test : Nat → Nat → Bool} (T : Act → Bool) : ∀ (as : List Act) (pre : Bytes) (fuel : Nat),
    (∀ a ∈ as, a.WF) → pre.length + actsSize as < 2 ^ 32 → as.length ≤ fuel →
    (∀ (pre' : Bytes) (a : Act) (as' : List Act), pre ++ encActs pre.length as = pre' ++ encActs pre'.length (a :: as') →
      a ∈ as → pre'.length + a.size < 2 ^ 32 → test a.ty pre'.length = T a) →
    scanGo test (pre ++ encActs pre.length as) fuel pre.length = .ok (as.any T) := by
  intro as
  induction as with
  | nil =>
    intro pre fuel _ _ _ _
    cases fuel with
    | zero => simp [scanGo, encActs]
    | succ n => simp [scanGo, encActs]
  | cons a as ih =>
    intro pre fuel hwf hsz hf ht
    cases fuel with
    | zero => simp at hf
    | succ n =>
      have ha := hwf a (by simp)
      simp only [actsSize_cons] at hsz
      have hsa : pre.length + a.size < 2 ^ 32 := by omega
      obtain ⟨f1, f2, f3, f4⟩ := act_fields pre a as ha hsa
      have hlen : (pre ++ encActs pre.length (a :: as)).length = pre.length + (a.size + actsSize as) := by simp
      have h8 : 8 ≤ a.size := by simp [Act.size]
      have hpos : a.ty ≤ 26 := ha.bounds.2.2
      simp only [scanGo]
      rw [if_pos (by omega), f1, permission_ok hpos]
      simp only [ok_bind]
      rw [ht pre a as rfl (by simp) hsa]
      by_cases hT : T a = true
      · rw [if_pos hT]; simp [hT]
      · rw [if_neg hT, f3]
        have hT' : T a = false := by simpa using hT
        have hstep := acts_step pre [] a as
        simp only [List.append_nil] at hstep
        have hpl : pre.length + a.size = (pre ++ encAct (pre.length + a.size) a).length := by simp
        rw [hstep]
        have hpl2 : scanGo test (pre ++ encAct (pre.length + a.size) a ++ encActs (pre ++ encAct (pre.length + a.size) a).length as) n
            (pre.length + a.size) = scanGo test (pre ++ encAct (pre.length + a.size) a ++
              encActs (pre ++ encAct (pre.length + a.size) a).length as) n (pre ++ encAct (pre.length + a.size) a).length :=
          congrArg (scanGo test _ n) hpl
        rw [hpl2, ih (pre ++ encAct (pre.length + a.size) a) n (fun x hx => hwf x (by simp [hx]))
          (by rw [← hpl]; omega) (by simp at hf; omega)
          (fun pre' b as' e hb hs => ht pre' b as' (by rw [hstep]; exact e) (by simp [hb]) hs)]
        simp [hT']

/-- The role holds a destination limit for SOL. -/
def solDestHeld (as : List Act) : Bool :=
  as.any fun a => a.ty == P.solDestinationLimit || a.ty == P.solRecurringDestinationLimit

/-- The role holds a destination limit for tokens of this mint. -/
def tokenDestHeld (mint : Bytes) (as : List Act) : Bool :=
  as.any fun a => (a.ty == P.tokenDestinationLimit || a.ty == P.tokenRecurringDestinationLimit) && mint == a.data.take 32

theorem hasSolDest_enc {as : List Act} (hwf : ∀ a ∈ as, a.WF) (hsz : actsSize as < 2 ^ 32) :
    hasSolDest (encActs 0 as) = .ok (solDestHeld as) := by
  have hfuel : as.length ≤ (encActs 0 as).length := by have := length_le_actsSize as; simp; omega
  have := scanGo_enc (test := fun ty _ => ty == P.solDestinationLimit || ty == P.solRecurringDestinationLimit)
    (fun a => a.ty == P.solDestinationLimit || a.ty == P.solRecurringDestinationLimit) as [] (encActs 0 as).length hwf
    (by simpa using hsz) hfuel (fun _ _ _ _ _ _ => rfl)
  simpa [hasSolDest, solDestHeld] using this

theorem hasTokenDest_enc {as : List Act} (mint : Bytes) (hwf : ∀ a ∈ as, a.WF) (hsz : actsSize as < 2 ^ 32) :
    hasTokenDest mint (encActs 0 as) = .ok (tokenDestHeld mint as) := by
  have hfuel : as.length ≤ (encActs 0 as).length := by have := length_le_actsSize as; simp; omega
  have := scanGo_enc (test := fun ty c => (ty == P.tokenDestinationLimit || ty == P.tokenRecurringDestinationLimit) &&
      decide (aBoundary (encActs 0 as) c ≥ c + 40) && decide ((encActs 0 as).length ≥ c + 40) &&
      mint == sl (encActs 0 as) (c + 8) (c + 40))
    (fun a => (a.ty == P.tokenDestinationLimit || a.ty == P.tokenRecurringDestinationLimit) && mint == a.data.take 32) as []
    (encActs 0 as).length hwf (by simpa using hsz) hfuel ?_
  · simpa [hasTokenDest, tokenDestHeld] using this
  · intro pre a as' e ha hs
    have hw := hwf a ha
    simp only [List.nil_append, List.length_nil] at e
    rw [e]
    by_cases hty : a.ty = P.tokenDestinationLimit ∨ a.ty = P.tokenRecurringDestinationLimit
    · have hl : 72 ≤ a.data.length := by
        rcases hty with h | h
        · unfold Act.WF at hw; rw [h] at hw; have := Option.some.inj (show some 72 = some a.data.length from hw); omega
        · unfold Act.WF at hw; rw [h] at hw; have := Option.some.inj (show some 96 = some a.data.length from hw); omega
      obtain ⟨_, _, f3, f4⟩ := act_fields pre a as' hw hs
      have g1 : decide (aBoundary (pre ++ encActs pre.length (a :: as')) pre.length ≥ pre.length + 40) = true := by
        rw [f3]; apply decide_eq_true; simp only [Act.size]; omega
      have g2 : decide ((pre ++ encActs pre.length (a :: as')).length ≥ pre.length + 40) = true := by
        apply decide_eq_true; simp [Act.size]; omega
      have g3 : sl (pre ++ encActs pre.length (a :: as')) (pre.length + 8) (pre.length + 40) = a.data.take 32 := by
        rw [← sl_zero, ← f4, sl_sl _ _ _ _ _ (by omega)]
      rw [g1, g2, g3]
      simp
    · have : (a.ty == P.tokenDestinationLimit || a.ty == P.tokenRecurringDestinationLimit) = false := by
        rw [Bool.eq_false_iff]; intro h; apply hty; simpa using h
      simp only [this, Bool.false_and]

theorem solDestHeld_charged {as as' : List Act} (h : All2 Act.Charged as as') : solDestHeld as' = solDestHeld as := by
  unfold solDestHeld
  induction h with
  | nil => rfl
  | cons h1 _ ih => simp only [List.any_cons, h1.1, ih]

theorem tokenDestHeld_charged {as as' : List Act} (mint : Bytes) (h : All2 Act.Charged as as') :
    tokenDestHeld mint as' = tokenDestHeld mint as := by
  unfold tokenDestHeld
  induction h with
  | nil => rfl
  | cons h1 _ ih =>
    rename_i a a' _ _ _
    simp only [List.any_cons, h1.1, ih]
    congr 1
    by_cases hty : a.ty = P.tokenDestinationLimit ∨ a.ty = P.tokenRecurringDestinationLimit
    · have hk : repeatable a.ty = true ∧ ∀ x, keyOf a.ty x = x.take 64 := by
        rcases hty with e | e <;> rw [e] <;> exact ⟨rfl, fun _ => rfl⟩
      have h64 := h1.2.key hk.1
      rw [hk.2, hk.2] at h64
      have e : ∀ x : Bytes, x.take 32 = (x.take 64).take 32 := fun x => by rw [List.take_take]; rfl
      rw [e a'.data, e a.data, h64]
    · have : (a.ty == P.tokenDestinationLimit || a.ty == P.tokenRecurringDestinationLimit) = false := by
        rw [Bool.eq_false_iff]; intro h; apply hty; simpa using h
      simp only [this, Bool.false_and]

/-! ## What is charged -/

/-- General limit of one kind, and the limits of the destinations. -/
def spendSeg (as : List Act) (g1 g2 d1 d2 : Nat) (key : Bytes) (kf : Key → Bytes) (held : Bool) (spent : Nat)
    (ts : List (Key × Nat)) : List Chg :=
  eitherSeg as g1 g2 key spent ++ (if held then ts.flatMap fun t => eitherSeg as d1 d2 (kf t.1) t.2 else [])

/-- What must hold for the charge to be made: a limit exists, and destination limits, if any, cover the transfers, which add up. -/
structure SpendOk (as : List Act) (g1 g2 d1 d2 : Nat) (key : Bytes) (kf : Key → Bytes) (held : Bool) (spent : Nat)
    (ts : List (Key × Nat)) : Prop where
  some : eitherSeg as g1 g2 key spent ≠ [] ∨ held = true
  dest : held = true → ts ≠ [] ∧ (ts.map Prod.snd).sum = spent ∧ ∀ t ∈ ts, eitherSeg as d1 d2 (kf t.1) t.2 ≠ []

section
variable {x : SignCtx} {w : Wallet} {id : Nat} {r : Role} {before after : List Role}

theorem Placed.spend (h : Placed x.loc w id r before after) {as : List Act} (hc : All2 Act.Charged r.actions as) {m m' : Mem}
    {g1 g2 d1 d2 : Nat} {key : Bytes} {kf : Key → Bytes} {spent slot : Nat} {ts : List (Key × Nat)}
    {hasF : Bytes → R Bool} {heldF : List Act → Bool}
    (hg1 : repeatable g1 = true → key.length = keyLen g1) (hg2 : repeatable g2 = true → key.length = keyLen g2)
    (hd1 : repeatable d1 = true → ∀ d : Key, d.length = 32 → (kf d).length = keyLen d1)
    (hd2 : repeatable d2 = true → ∀ d : Key, d.length = 32 → (kf d).length = keyLen d2)
    (hts : ∀ t ∈ ts, t.1.length = 32)
    (hheld : ∀ as : List Act, (∀ a ∈ as, a.WF) → actsSize as < 2 ^ 32 → hasF (encActs 0 as) = .ok (heldF as))
    (hinv : ∀ as as' : List Act, All2 Act.Charged as as' → heldF as' = heldF as)
    (ho : (do
      let (m, general) ← Verif.chargeEither x (cfgMem x.loc w id m as) g1 g2 key (chargeFn g1 spent slot) (chargeFn g2 spent slot)
      let acts ← x.loc.bytes m
      let has ← hasF acts
      let (m, dest) ← settleDests has
        (fun m d n => Verif.chargeEither x m d1 d2 (kf d) (chargeFn d1 n slot) (chargeFn d2 n slot)) m spent ts
      require (general = true ∨ dest = true) E.au_permissionDeniedMissingPermission
      .ok m : R Mem) = .ok m') :
    ∃ as', m' = cfgMem x.loc w id m as' ∧ Plays slot as (spendSeg as g1 g2 d1 d2 key kf (heldF as) spent ts) as' ∧
      All2 Act.Charged as as' ∧ SpendOk as g1 g2 d1 d2 key kf (heldF as) spent ts := by
  obtain ⟨⟨ma, general⟩, h1, ho⟩ := bind_ok_iff.mp ho
  simp only at ho
  obtain ⟨as1, rfl, p1, p2, p3⟩ := h.chargeEither hc hg1 hg2 h1
  have hc1 := charged_trans hc p2
  rw [h.bytes hc1] at ho
  simp only [ok_bind] at ho
  rw [hheld as1 (All2.wf hc1 h.roleWf.acts) (h.actsLt hc1)] at ho
  simp only [ok_bind] at ho
  rw [hinv as as1 p2] at ho
  obtain ⟨⟨mb, dest⟩, h2, ho⟩ := bind_ok_iff.mp ho
  simp only at ho
  obtain ⟨_, h3, ho⟩ := bind_ok_iff.mp ho
  have h6 := require_ok_iff.mp h3
  clear h3
  cases ho
  unfold settleDests at h2
  by_cases hb : heldF as = true
  · rw [if_pos hb] at h2
    obtain ⟨⟨mc, sum⟩, h4, h2⟩ := bind_ok_iff.mp h2
    simp only at h2
    obtain ⟨_, h5, h2⟩ := bind_ok_iff.mp h2
    have h5 := require_ok_iff.mp h5
    cases h2
    obtain ⟨as', rfl, q1, q2, q3, q4⟩ := h.chargeDests hd1 hd2 hc1 hts h4
    simp only [eitherSeg_congr p2] at q1 q3
    refine ⟨as', rfl, ?_, charged_trans p2 q2, ⟨.inr hb, fun _ => ⟨h5.1, by omega, q3⟩⟩⟩
    unfold spendSeg
    rw [if_pos hb]
    exact p1.append q1
  · rw [if_neg hb] at h2
    cases h2
    refine ⟨as1, rfl, ?_, p2, ⟨.inl ?_, fun hb' => absurd hb' hb⟩⟩
    · unfold spendSeg
      rw [if_neg hb, List.append_nil]
      exact p1
    · rcases h6 with h6 | h6
      · exact p3.mp h6
      · cases h6

/-- SOL. -/
def solSeg (x : SignCtx) (as : List Act) (spent : Nat) : List Chg :=
  spendSeg as P.solLimit P.solRecurringLimit P.solRecurringDestinationLimit P.solDestinationLimit [] (fun d => d) (solDestHeld as) spent
    (solTransfers x.wallet x.ixs)

def SolOk (x : SignCtx) (as : List Act) (spent : Nat) : Prop :=
  SpendOk as P.solLimit P.solRecurringLimit P.solRecurringDestinationLimit P.solDestinationLimit [] (fun d => d) (solDestHeld as) spent
    (solTransfers x.wallet x.ixs)

/-- Tokens. -/
def tokenSeg (x : SignCtx) (as : List Act) (src mint : Bytes) (spent : Nat) : List Chg :=
  spendSeg as P.tokenLimit P.tokenRecurringLimit P.tokenRecurringDestinationLimit P.tokenDestinationLimit mint (fun d => mint ++ d)
    (tokenDestHeld mint as) spent (tokenTransfers src x.ixs)

def TokenOk (x : SignCtx) (as : List Act) (src mint : Bytes) (spent : Nat) : Prop :=
  SpendOk as P.tokenLimit P.tokenRecurringLimit P.tokenRecurringDestinationLimit P.tokenDestinationLimit mint (fun d => mint ++ d)
    (tokenDestHeld mint as) spent (tokenTransfers src x.ixs)

/-- All accounts of the inner instructions have 32-byte keys. -/
def Keys32 (x : SignCtx) : Prop := ∀ ix ∈ x.ixs, ∀ a ∈ ix.accounts, a.key.length = 32

theorem solTransfers_len (hk : Keys32 x) : ∀ t ∈ solTransfers x.wallet x.ixs, t.1.length = 32 := by
  intro t ht
  unfold solTransfers at ht
  obtain ⟨ix, hix, he⟩ := List.mem_filterMap.mp ht
  split at he
  · split at he
    · rename_i a d rest hacc
      split at he
      · cases he
        exact hk ix hix d (by rw [hacc]; simp)
      · cases he
    · cases he
  · cases he

theorem tokenTransfers_len (hk : Keys32 x) (src : Key) : ∀ t ∈ tokenTransfers src x.ixs, t.1.length = 32 := by
  intro t ht
  unfold tokenTransfers at ht
  obtain ⟨ix, hix, he⟩ := List.mem_filterMap.mp ht
  split at he
  · split at he
    · cases he
    · split at he
      · rename_i a d ha hd
        split at he
        · cases he
          exact hk ix hix d (List.mem_of_getElem? hd)
        · cases he
      · cases he
  · cases he

theorem Placed.settleSol (h : Placed x.loc w id r before after) (hk : Keys32 x) {as : List Act}
    (hc : All2 Act.Charged r.actions as) {m m' : Mem} {spent : Nat}
    (ho : settleSol x (cfgMem x.loc w id m as) spent = .ok m') :
    ∃ as', m' = cfgMem x.loc w id m as' ∧ Plays x.env.slot as (solSeg x as spent) as' ∧ All2 Act.Charged as as' ∧ SolOk x as spent :=
  h.spend hc (g1 := P.solLimit) (g2 := P.solRecurringLimit) (d1 := P.solRecurringDestinationLimit) (d2 := P.solDestinationLimit)
    (key := []) (kf := fun d => d) (hasF := hasSolDest) (heldF := solDestHeld) (by intro h; cases h) (by intro h; cases h)
    (fun _ d hd => hd) (fun _ d hd => hd) (solTransfers_len hk) (fun _ => hasSolDest_enc) (fun _ _ => solDestHeld_charged) ho

theorem Placed.settleTokenSpent (h : Placed x.loc w id r before after) (hk : Keys32 x) {as : List Act}
    (hc : All2 Act.Charged r.actions as) {m m' : Mem} {src mint : Bytes} (hm : mint.length = 32) {spent : Nat}
    (ho : settleTokenSpent x (cfgMem x.loc w id m as) src mint spent = .ok m') :
    ∃ as', m' = cfgMem x.loc w id m as' ∧ Plays x.env.slot as (tokenSeg x as src mint spent) as' ∧ All2 Act.Charged as as' ∧
      TokenOk x as src mint spent :=
  h.spend hc (g1 := P.tokenLimit) (g2 := P.tokenRecurringLimit) (d1 := P.tokenRecurringDestinationLimit)
    (d2 := P.tokenDestinationLimit) (key := mint) (kf := fun d => mint ++ d) (hasF := hasTokenDest mint) (heldF := tokenDestHeld mint)
    (fun _ => hm) (fun _ => hm) (fun _ d hd => by simp [hm, hd, keyLen]) (fun _ d hd => by simp [hm, hd, keyLen])
    (tokenTransfers_len hk src) (fun _ => hasTokenDest_enc mint) (fun _ _ => tokenDestHeld_charged mint) ho

/-! ## One account -/

/-- The account is gone: no data or no lamports. -/
def Gone (a : Acct) : Prop := a.data = [] ∨ a.lamports = 0

instance (a : Acct) : Decidable (Gone a) := inferInstanceAs (Decidable (_ ∨ _))

/-- What is charged for one account, given the ledger after the instructions. -/
def segOf (x : SignCtx) (m : Mem) (as : List Act) (a : Meta) : Class → List Chg
  | .token _ spent => if Gone (m a.key) ∨ spent = 0 then [] else tokenSeg x as a.key (sl (m a.key).data 0 32) spent
  | .stake _ _ _ spent =>
    if spent = 0 ∨ (payload? as P.stakeAll []).isSome then [] else eitherSeg as P.stakeLimit P.stakeRecurringLimit [] spent
  | .scope _ _ spent => if spent = 0 then [] else [⟨P.programScope, a.key, spent⟩]
  | _ => []

/-- What has been checked for one account. -/
def OkOf (x : SignCtx) (m : Mem) (as : List Act) (a : Meta) (h : Option Bytes) : Class → Prop
  | .token _ spent =>
    (Gone (m a.key) ∧ (payload? as P.closeSwigAuthority []).isSome = true ∧ (m a.key).lamports = 0 ∧ (m a.key).owner = systemId) ∨
    (¬ Gone (m a.key) ∧ 165 ≤ (m a.key).data.length ∧ recheck x m a h [(64, 72)] = .ok () ∧
      sl (m a.key).data 32 64 = x.wallet ∧ (m a.key).data.getD 108 0 = 1 ∧
      (spent ≠ 0 → TokenOk x as a.key (sl (m a.key).data 0 32) spent))
  | .stake _ _ _ spent => recheck x m a h [(0, 4), (124, 200)] = .ok () ∧
      (spent ≠ 0 → (payload? as P.stakeAll []).isSome = true ∨ eitherSeg as P.stakeLimit P.stakeRecurringLimit [] spent ≠ [])
  | .scope _ _ _ => ∃ s rs, payload? as P.programScope a.key = some s ∧ scopeRange (ProgramScope.decode s) (m a.key).data = some rs ∧
      recheck x m a h rs = .ok ()
  | _ => True

/-- The account is looked at in the settlement. -/
def Class.tracked : Class → Bool
  | .token .. | .stake .. | .scope .. => true
  | _ => false

theorem recheck_congr {m m' : Mem} {a : Meta} (h : m a.key = m' a.key) (hh : Option Bytes) (rs : List (Nat × Nat)) :
    recheck x m a hh rs = recheck x m' a hh rs := by
  unfold recheck; rw [h]

theorem cfgMem_other (l : ActLoc) (w : Wallet) (id : Nat) (m : Mem) (as : List Act) {k : Key} (h : k ≠ l.swig) :
    cfgMem l w id m as k = m k := by
  unfold cfgMem; exact Mem.setData_other _ _ h

theorem Placed.settleOne (h : Placed x.loc w id r before after) (hk : Keys32 x) {as : List Act}
    (hc : All2 Act.Charged r.actions as) {m m' : Mem} {a : Meta} {c : Class} {hh : Option Bytes} {total : Nat}
    (h0 : c.isSwig = false) (ha : c.tracked = true → a.key ≠ x.loc.swig ∧ a.key.length = 32)
    (ho : settleOne x (cfgMem x.loc w id m as) a c hh total = .ok m') :
    ∃ as', m' = cfgMem x.loc w id m as' ∧ Plays x.env.slot as (segOf x m as a c) as' ∧ All2 Act.Charged as as' ∧
      OkOf x m as a hh c := by
  cases c with
  | none => cases ho; exact ⟨as, rfl, .nil _, All2.refl' Act.Charged.refl _, trivial⟩
  | wallet => cases ho; exact ⟨as, rfl, .nil _, All2.refl' Act.Charged.refl _, trivial⟩
  | thisSwig l => cases h0
  | token b spent =>
    obtain ⟨hne, hl⟩ := ha rfl
    have hm := cfgMem_other x.loc w id m as hne
    simp only [Verif.settleOne, settleToken, hm] at ho
    by_cases hg : Gone (m a.key)
    · rw [if_pos (show (m a.key).data = [] ∨ (m a.key).lamports = 0 from hg)] at ho
      unfold settleClosed at ho
      rw [h.has hc m P.closeSwigAuthority [] (fun hr => by cases hr), hm] at ho
      simp only [ok_bind] at ho
      obtain ⟨_, h1, ho⟩ := bind_ok_iff.mp ho
      obtain ⟨_, h2, ho⟩ := bind_ok_iff.mp ho
      cases ho
      have h1 := require_ok_iff.mp h1
      have h2 := require_ok_iff.mp h2
      exact ⟨as, rfl, by simp only [segOf, if_pos (Or.inl hg : Gone (m a.key) ∨ spent = 0)]; exact .nil _,
        All2.refl' Act.Charged.refl _, .inl ⟨hg, h1, h2.1, h2.2⟩⟩
    · rw [if_neg (show ¬ ((m a.key).data = [] ∨ (m a.key).lamports = 0) from hg)] at ho
      obtain ⟨_, h1, ho⟩ := bind_ok_iff.mp ho
      obtain ⟨_, h2, ho⟩ := bind_ok_iff.mp ho
      obtain ⟨_, h3, ho⟩ := bind_ok_iff.mp ho
      obtain ⟨_, h4, ho⟩ := bind_ok_iff.mp ho
      have h1 := require_ok_iff.mp h1
      have h3 := require_ok_iff.mp h3
      have h4 := require_ok_iff.mp h4
      rw [recheck_congr hm] at h2
      by_cases hs : spent = 0
      · rw [if_pos hs] at ho
        cases ho
        exact ⟨as, rfl, by simp only [segOf, if_pos (Or.inr hs : Gone (m a.key) ∨ spent = 0)]; exact .nil _,
          All2.refl' Act.Charged.refl _, .inr ⟨hg, h1, h2, h3, h4, fun e => absurd hs e⟩⟩
      · rw [if_neg hs] at ho
        have hml : (sl (m a.key).data 0 32).length = 32 := by rw [sl_length]; omega
        obtain ⟨as', e1, e2, e3, e4⟩ := h.settleTokenSpent hk hc hml ho
        refine ⟨as', e1, ?_, e3, .inr ⟨hg, h1, h2, h3, h4, fun _ => e4⟩⟩
        simp only [segOf]
        rw [if_neg (by rintro (h | h); exacts [hg h, hs h])]
        exact e2
  | stake st b l spent =>
    obtain ⟨hne, hl⟩ := ha rfl
    have hm := cfgMem_other x.loc w id m as hne
    simp only [Verif.settleOne, settleStake] at ho
    obtain ⟨_, h1, ho⟩ := bind_ok_iff.mp ho
    rw [recheck_congr hm] at h1
    by_cases hs : spent = 0
    · rw [if_pos hs] at ho
      cases ho
      exact ⟨as, rfl, by simp only [segOf, if_pos (Or.inl hs : spent = 0 ∨ _)]; exact .nil _,
        All2.refl' Act.Charged.refl _, h1, fun e => absurd hs e⟩
    · rw [if_neg hs] at ho
      unfold settleStakeSpent at ho
      rw [h.has hc m P.stakeAll [] (fun hr => by cases hr)] at ho
      simp only [ok_bind] at ho
      by_cases hall : (payload? as P.stakeAll []).isSome = true
      · rw [if_pos hall] at ho
        cases ho
        exact ⟨as, rfl, by simp only [segOf, if_pos (Or.inr hall : spent = 0 ∨ _)]; exact .nil _,
          All2.refl' Act.Charged.refl _, h1, fun _ => .inl hall⟩
      · rw [if_neg hall] at ho
        obtain ⟨⟨m2, ok⟩, h2, ho⟩ := bind_ok_iff.mp ho
        simp only at ho
        obtain ⟨_, h3, ho⟩ := bind_ok_iff.mp ho
        have h5 := require_ok_iff.mp h3
        cases ho
        obtain ⟨as', e1, e2, e3, e4⟩ := h.chargeEither (ty1 := P.stakeLimit) (ty2 := P.stakeRecurringLimit) (n := spent)
          (slot := x.env.slot) hc (fun hr => by cases hr) (fun hr => by cases hr) h2
        refine ⟨as', e1, ?_, e3, h1, fun _ => .inr (e4.mp h5)⟩
        simp only [segOf]
        rw [if_neg (by rintro (h | h); exacts [hs h, hall h])]
        exact e2
  | scope ro b spent =>
    obtain ⟨hne, hl⟩ := ha rfl
    have hm := cfgMem_other x.loc w id m as hne
    simp only [Verif.settleOne, settleScope] at ho
    rw [h.find hc m P.programScope a.key (fun _ => hl)] at ho
    simp only [ok_bind] at ho
    obtain ⟨s, h1, ho⟩ := bind_ok_iff.mp ho
    obtain ⟨rs, h2, ho⟩ := bind_ok_iff.mp ho
    obtain ⟨_, h3, ho⟩ := bind_ok_iff.mp ho
    have h1 := orErr_ok h1
    have h2 := orErr_ok h2
    rw [hm] at h2
    rw [recheck_congr hm] at h3
    by_cases hs : spent = 0
    · rw [if_pos hs] at ho
      cases ho
      exact ⟨as, rfl, by simp only [segOf, if_pos hs]; exact .nil _, All2.refl' Act.Charged.refl _, s, rs, h1, h2, h3⟩
    · rw [if_neg hs] at ho
      unfold settleScopeSpent at ho
      obtain ⟨o, h4, ho⟩ := bind_ok_iff.mp ho
      have ho := orErr_ok ho
      rcases h.charge (ty := P.programScope) (n := spent) (slot := x.env.slot) hc (fun _ => hl) h4 with ⟨rfl, _⟩ | ⟨as', rfl, e1, e2, _⟩
      · cases ho
      · cases ho
        refine ⟨as', rfl, ?_, e2, s, rs, h1, h2, h3⟩
        simp only [segOf, if_neg hs]
        exact .cons _ e1 (.nil _)

end

end Verif
