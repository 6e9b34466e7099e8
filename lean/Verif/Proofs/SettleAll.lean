import Verif.Proofs.Settle
import Verif.Proofs.ChargesRec
import Verif.Spec.Exact

/-! A whole SignV2 of a restricted role: the settlement of all accounts, and the tracking of what the instructions took. -/

namespace Verif

/-! ## Checks do not depend on the counters -/

theorem spendSeg_congr {as as' : List Act} (h : All2 Act.Charged as as') (g1 g2 d1 d2 : Nat) (key : Bytes) (kf : Key → Bytes)
    (held : Bool) (spent : Nat) (ts : List (Key × Nat)) :
    spendSeg as' g1 g2 d1 d2 key kf held spent ts = spendSeg as g1 g2 d1 d2 key kf held spent ts := by
  unfold spendSeg
  simp only [eitherSeg_congr h]

theorem SpendOk.congr {as as' : List Act} (h : All2 Act.Charged as as') {g1 g2 d1 d2 : Nat} {key : Bytes} {kf : Key → Bytes}
    {held : Bool} {spent : Nat} {ts : List (Key × Nat)} (hs : SpendOk as' g1 g2 d1 d2 key kf held spent ts) :
    SpendOk as g1 g2 d1 d2 key kf held spent ts := by
  obtain ⟨h1, h2⟩ := hs
  simp only [eitherSeg_congr h] at h1 h2
  exact ⟨h1, h2⟩

theorem solSeg_congr {x : SignCtx} {as as' : List Act} (h : All2 Act.Charged as as') (n : Nat) : solSeg x as' n = solSeg x as n := by
  unfold solSeg; rw [spendSeg_congr h, solDestHeld_charged h]

theorem tokenSeg_congr {x : SignCtx} {as as' : List Act} (h : All2 Act.Charged as as') (src mint : Bytes) (n : Nat) :
    tokenSeg x as' src mint n = tokenSeg x as src mint n := by
  unfold tokenSeg; rw [spendSeg_congr h, tokenDestHeld_charged mint h]

theorem TokenOk.congr {x : SignCtx} {as as' : List Act} (h : All2 Act.Charged as as') {src mint : Bytes} {n : Nat}
    (hs : TokenOk x as' src mint n) : TokenOk x as src mint n := by
  unfold TokenOk at *; rw [tokenDestHeld_charged mint h] at hs; exact hs.congr h

theorem segOf_congr {x : SignCtx} {m : Mem} {as as' : List Act} (h : All2 Act.Charged as as') (a : Meta) (c : Class) :
    segOf x m as' a c = segOf x m as a c := by
  cases c <;> simp only [segOf]
  · rw [tokenSeg_congr h]
  · rw [payload?_charged h, eitherSeg_congr h]

theorem payload?_chargedTo {as as' : List Act} (h : All2 Act.Charged as as') {ty : Nat} {key s' : Bytes}
    (hs : payload? as' ty key = some s') : ∃ s, payload? as ty key = some s ∧ ChargedTo ty s s' := by
  unfold payload? at *
  induction h with
  | nil => cases hs
  | cons h1 _ ih =>
    rename_i a a' as as' _
    simp only [List.find?_cons] at *
    have := h1.grants ty key
    by_cases hg : a.grants ty key
    · have hg' := this.mpr hg
      rw [decide_eq_true hg'] at hs
      rw [decide_eq_true hg]
      cases hs
      exact ⟨a.data, rfl, hg.1 ▸ h1.2⟩
    · have hg' : ¬ a'.grants ty key := fun h => hg (this.mp h)
      rw [decide_eq_false hg'] at hs
      rw [decide_eq_false hg]
      exact ih hs

theorem scope_fixed {s s' : Bytes} (h : ChargedTo P.programScope s s') : s'.drop 48 = s.drop 48 ∧ sl s' 16 40 = sl s 16 40 := by
  have h1 : sl s' 16 40 ++ s'.drop 48 = sl s 16 40 ++ s.drop 48 := h.fixed
  have hl : (sl s' 16 40).length = (sl s 16 40).length := by simp only [sl_length, h.len]
  exact ⟨(List.append_inj h1 hl).2, (List.append_inj h1 hl).1⟩

theorem rd_drop (s : Bytes) (i n k : Nat) (h : k ≤ i) : rd s i n = rd (s.drop k) (i - k) n := by
  show leNat (sl s i (i + n)) = leNat (sl (s.drop k) (i - k) (i - k + n))
  congr 1
  unfold sl
  rw [List.drop_drop, show i + n - i = i - k + n - (i - k) by omega, show k + (i - k) = i by omega]

theorem sl_drop' (s : Bytes) (i j k : Nat) (h : k ≤ i) : sl s i j = sl (s.drop k) (i - k) (j - k) := by
  unfold sl
  rw [List.drop_drop, show j - k - (i - k) = j - i by omega, show k + (i - k) = i by omega]

/-- The part of a program scope that charges leave alone. -/
theorem scope_decode_fixed {s s' : Bytes} (h : ChargedTo P.programScope s s') :
    (ProgramScope.decode s').balanceFieldStart = (ProgramScope.decode s).balanceFieldStart ∧
    (ProgramScope.decode s').balanceFieldEnd = (ProgramScope.decode s).balanceFieldEnd ∧
    (ProgramScope.decode s').scopeType = (ProgramScope.decode s).scopeType ∧
    (ProgramScope.decode s').numericType = (ProgramScope.decode s).numericType := by
  obtain ⟨h1, _⟩ := scope_fixed h
  simp only [ProgramScope.decode]
  refine ⟨?_, ?_, ?_, ?_⟩
  · rw [rd_drop s' _ _ 48 (by omega), rd_drop s _ _ 48 (by omega), h1]
  · rw [rd_drop s' _ _ 48 (by omega), rd_drop s _ _ 48 (by omega), h1]
  · rw [rd_drop s' _ _ 48 (by omega), rd_drop s _ _ 48 (by omega), h1]
  · rw [rd_drop s' _ _ 48 (by omega), rd_drop s _ _ 48 (by omega), h1]

theorem OkOf.congr {x : SignCtx} {m : Mem} {as as' : List Act} (h : All2 Act.Charged as as') {a : Meta} {hh : Option Bytes} {c : Class}
    (ho : OkOf x m as' a hh c) : OkOf x m as a hh c := by
  cases c with
  | none => trivial
  | thisSwig _ => trivial
  | wallet => trivial
  | token b spent =>
    rcases ho with ⟨h1, h2, h3⟩ | ⟨h1, h2, h3, h4, h5, h6⟩
    · rw [payload?_charged h] at h2
      exact .inl ⟨h1, h2, h3⟩
    · exact .inr ⟨h1, h2, h3, h4, h5, fun hs => (h6 hs).congr h⟩
  | stake st b l spent =>
    obtain ⟨h1, h2⟩ := ho
    simp only [payload?_charged h, eitherSeg_congr h] at h2
    exact ⟨h1, h2⟩
  | scope ro b spent =>
    obtain ⟨s', rs, h1, h2, h3⟩ := ho
    obtain ⟨s, h4, h5⟩ := payload?_chargedTo h h1
    refine ⟨s, rs, h4, ?_, h3⟩
    obtain ⟨e1, e2, _⟩ := scope_decode_fixed h5
    unfold scopeRange at *
    rw [e1, e2] at h2
    exact h2

theorem All2.uncons {α β : Type} {R : α → β → Prop} {a : α} {as : List α} {l : List β} (h : All2 R (a :: as) l) :
    ∃ b bs, l = b :: bs ∧ R a b ∧ All2 R as bs := by
  cases h with
  | cons h1 h2 => exact ⟨_, _, rfl, h1, h2⟩

theorem All2.right {α β : Type} {R : α → β → Prop} {p : α → Prop} {q : β → Prop} {as : List α} {bs : List β} (h : All2 R as bs)
    (hp : ∀ a ∈ as, p a) (hi : ∀ a b, R a b → p a → q b) : ∀ b ∈ bs, q b := by
  induction h with
  | nil => simp
  | cons h1 _ ih =>
    intro b hb
    rcases List.mem_cons.mp hb with rfl | hb
    · exact hi _ _ h1 (hp _ (List.mem_cons_self ..))
    · exact ih (fun a ha => hp a (List.mem_cons_of_mem _ ha)) b hb

theorem All2.imp' {α β : Type} {R S : α → β → Prop} (hi : ∀ a b, R a b → S a b) {as : List α} {bs : List β}
    (h : All2 R as bs) : All2 S as bs := by
  induction h with
  | nil => exact .nil
  | cons h1 _ ih => exact .cons (hi _ _ h1) ih

section
variable {x : SignCtx} {w : Wallet} {id : Nat} {r : Role} {before after : List Role}

/-- The accounts after the first. -/
theorem Placed.settleAll (h : Placed x.loc w id r before after) (hk : Keys32 x) {m : Mem} {total : Nat} :
    ∀ {l : List (Meta × Class)} {hs : List (Option Bytes)} {as : List Act} {m' : Mem}, l.length = hs.length →
    All2 Act.Charged r.actions as →
    (∀ e ∈ l, e.2.isSwig = false ∧ (e.2.tracked = true → e.1.key ≠ x.loc.swig ∧ e.1.key.length = 32)) →
    Verif.settleAll x total (cfgMem x.loc w id m as) l hs = .ok m' →
    ∃ as', m' = cfgMem x.loc w id m as' ∧ Plays x.env.slot as (l.flatMap fun e => segOf x m as e.1 e.2) as' ∧
      All2 Act.Charged as as' ∧ All2 (fun e hh => OkOf x m as e.1 hh e.2) l hs := by
  intro l
  induction l with
  | nil =>
    intro hs as m' hl hc _ ho
    cases hs with
    | nil => cases ho; exact ⟨as, rfl, .nil _, All2.refl' Act.Charged.refl _, .nil⟩
    | cons => simp at hl
  | cons e l ih =>
    intro hs as m' hl hc he ho
    cases hs with
    | nil => simp at hl
    | cons hh hs =>
      obtain ⟨a, c⟩ := e
      simp only [Verif.settleAll] at ho
      obtain ⟨m1, h1, ho⟩ := bind_ok_iff.mp ho
      have he0 := he (a, c) (by simp)
      obtain ⟨as1, rfl, p1, p2, p3⟩ := h.settleOne hk hc he0.1 he0.2 h1
      obtain ⟨as', rfl, q1, q2, q3⟩ := ih (by simpa using hl) (charged_trans hc p2) (fun e h => he e (by simp [h])) ho
      refine ⟨as', rfl, ?_, charged_trans p2 q2, .cons p3 ?_⟩
      · simp only [List.flatMap_cons]
        refine p1.append ?_
        simp only [segOf_congr p2] at q1
        exact q1
      · exact All2.imp' (fun e hh ho => OkOf.congr p2 ho) q3

end

/-! ## Tracking -/

/-- What tracking an account from `c0` guarantees about `c`: what is gone has been counted as spent. -/
inductive Mono : Class → Class → Prop
  | same (c : Class) : Mono c c
  | token {b0 s0 b s : Nat} : (b0 < 2 ^ 64 → b0 ≤ b + s) → Mono (.token b0 s0) (.token b s)
  | stake {st b0 l0 s0 b l s : Nat} : (b0 < 2 ^ 64 → l0 < 2 ^ 64 → b < 2 ^ 64 ∧ b0 ≤ b + s ∧ b ≤ b0 + s ∧ l0 ≤ l + s) →
      Mono (.stake st b0 l0 s0) (.stake st b l s)
  | scope {ro b0 s0 b s : Nat} : (b0 < 2 ^ 128 → b0 ≤ b + s) → Mono (.scope ro b0 s0) (.scope ro b s)

/-- The tracked values are those of the ledger. -/
def Cur (x : SignCtx) (m : Mem) (a : Meta) : Class → Prop
  | .token b _ => 72 ≤ (m a.key).data.length → b = rd (m a.key).data 64 8
  | .stake _ b l _ => l = (m a.key).lamports ∧ (164 ≤ (m a.key).data.length → b = rd (m a.key).data 156 8)
  | .scope _ b _ => ∀ s v, x.loc.find m P.programScope a.key = .ok (some s) →
      (ProgramScope.decode s).readAccountBalance (m a.key).data = .ok v → b = v
  | _ => True

theorem track_mono {x : SignCtx} {m : Mem} {a : Meta} {c0 c c' : Class} (hm : Mono c0 c) (h : track x m a c = .ok c') :
    Mono c0 c' ∧ (a.writable = true → Cur x m a c') := by
  unfold track at h
  by_cases hw : a.writable = false
  · rw [if_pos hw] at h
    cases h
    exact ⟨hm, fun h => by rw [hw] at h; cases h⟩
  · rw [if_neg hw] at h
    cases c with
    | none => cases h; exact ⟨hm, fun _ => trivial⟩
    | thisSwig l => cases h; exact ⟨hm, fun _ => trivial⟩
    | wallet => cases h; exact ⟨hm, fun _ => trivial⟩
    | token b s =>
      have hb : ∃ b0 s0, c0 = .token b0 s0 ∧ (b0 < 2 ^ 64 → b0 ≤ b + s) := by
        cases hm with
        | same => exact ⟨b, s, rfl, fun _ => by omega⟩
        | token h => exact ⟨_, _, rfl, h⟩
      obtain ⟨b0, s0, rfl, hb⟩ := hb
      simp only at h
      by_cases hl : (m a.key).data.length < 72
      · rw [if_pos hl] at h
        cases h
        exact ⟨hm, fun _ h => by omega⟩
      · rw [if_neg hl] at h
        cases h
        refine ⟨.token fun h0 => ?_, fun _ _ => rfl⟩
        have := hb h0
        unfold satAdd64
        split <;> omega
    | stake st b l s =>
      have hb : ∃ b0 l0 s0, c0 = .stake st b0 l0 s0 ∧
          (b0 < 2 ^ 64 → l0 < 2 ^ 64 → b < 2 ^ 64 ∧ b0 ≤ b + s ∧ b ≤ b0 + s ∧ l0 ≤ l + s) := by
        cases hm with
        | same => exact ⟨b, l, s, rfl, fun _ _ => by omega⟩
        | stake h => exact ⟨_, _, _, rfl, h⟩
      obtain ⟨b0, l0, s0, rfl, hb⟩ := hb
      simp only at h
      by_cases hl : (m a.key).data.length < 164
      · rw [if_pos hl] at h
        cases h
        refine ⟨.stake fun h0 h1 => ?_, fun _ => ⟨rfl, fun h => by omega⟩⟩
        obtain ⟨k1, k2, k3, k4⟩ := hb h0 h1
        unfold satAdd64
        omega
      · rw [if_neg hl] at h
        cases h
        refine ⟨.stake fun h0 h1 => ?_, fun _ => ⟨rfl, fun _ => rfl⟩⟩
        obtain ⟨k1, k2, k3, k4⟩ := hb h0 h1
        have := rd8_lt (m a.key).data 156
        unfold satAdd64
        omega
    | scope ro b s =>
      have hb : ∃ b0 s0, c0 = .scope ro b0 s0 ∧ (b0 < 2 ^ 128 → b0 ≤ b + s) := by
        cases hm with
        | same => exact ⟨b, s, rfl, fun _ => by omega⟩
        | scope h => exact ⟨_, _, rfl, h⟩
      obtain ⟨b0, s0, rfl, hb⟩ := hb
      simp only [trackScoped] at h
      obtain ⟨o, h1, h⟩ := bind_ok_iff.mp h
      cases o with
      | none =>
        cases h
        exact ⟨hm, fun _ s v hs => by rw [h1] at hs; cases hs⟩
      | some d =>
        simp only at h
        unfold trackScope at h
        cases hr : (ProgramScope.decode d).readAccountBalance (m a.key).data with
        | ok cur =>
          rw [hr] at h
          cases h
          refine ⟨.scope fun h0 => ?_, fun _ d' v hs hv => ?_⟩
          · have := hb h0
            unfold satAdd128
            split <;> omega
          · rw [h1] at hs
            cases hs
            rw [hr] at hv
            exact Except.ok.inj hv
        | error e =>
          rw [hr] at h
          have hne : ∀ d' v, x.loc.find m P.programScope a.key = .ok (some d') →
              (ProgramScope.decode d').readAccountBalance (m a.key).data = .ok v → b = v := by
            intro d' v hs hv
            rw [h1] at hs
            cases hs
            rw [hr] at hv
            cases hv
          cases e <;> first | (cases h; done) | (cases h; exact ⟨hm, fun _ => hne⟩)

theorem trackAll_mono {x : SignCtx} {m : Mem} : ∀ {l0 l l' : List (Meta × Class)},
    All2 (fun e e' => e'.1 = e.1 ∧ Mono e.2 e'.2) l0 l → trackAll x m l = .ok l' →
    All2 (fun e e' => e'.1 = e.1 ∧ Mono e.2 e'.2) l0 l' ∧ ∀ e ∈ l', e.1.writable = true → Cur x m e.1 e.2 := by
  intro l0 l l' h
  induction h generalizing l' with
  | nil => intro h; cases h; exact ⟨.nil, by simp⟩
  | cons h1 _ ih =>
    rename_i e0 e l0 l _
    intro h
    obtain ⟨a, c⟩ := e
    simp only [trackAll] at h
    obtain ⟨c', h2, h⟩ := bind_ok_iff.mp h
    obtain ⟨l1, h3, h⟩ := bind_ok_iff.mp h
    cases h
    obtain ⟨k1, k2⟩ := track_mono h1.2 h2
    obtain ⟨k3, k4⟩ := ih h3
    refine ⟨.cons ⟨h1.1, k1⟩ k3, fun e he => ?_⟩
    rcases List.mem_cons.mp he with rfl | he
    · exact k2
    · exact k4 e he

/-- The instruction loop: the calls are those of an unrestricted role, each instruction was permitted, and what left the wallet address
or a tracked account has been counted. -/
theorem runIxs_ok {x : SignCtx} {cpi : Cpi} {l0 : List (Meta × Class)} : ∀ {ixs : List Inner} {m m1 : Mem} {l acc : List (Meta × Class)}
    {total tot : Nat}, runIxs x cpi m l total ixs = .ok (m1, acc, tot) →
    All2 (fun e e' => e'.1 = e.1 ∧ Mono e.2 e'.2) l0 l →
    execAll x.env cpi x.metas x.wallet x.seeds m ixs = .ok m1 ∧
    All2 (fun e e' => e'.1 = e.1 ∧ Mono e.2 e'.2) l0 acc ∧
    ((ixs = [] ∧ acc = l ∧ m1 = m) ∨ ∀ e ∈ acc, e.1.writable = true → Cur x m1 e.1 e.2) ∧
    (∀ L, L < 2 ^ 64 → L ≤ (m x.wallet).lamports + total → L ≤ (m1 x.wallet).lamports + tot) ∧
    (∀ pre ix post, ixs = pre ++ ix :: post → ∃ mid, execAll x.env cpi x.metas x.wallet x.seeds m pre = .ok mid ∧
      programOk x mid ix = .ok true) := by
  intro ixs
  induction ixs with
  | nil =>
    intro m m1 l acc total tot h hl
    cases h
    exact ⟨rfl, hl, .inl ⟨rfl, rfl, rfl⟩, fun _ _ h => h, fun pre ix post h => by simp at h⟩
  | cons ix ixs ih =>
    intro m m1 l acc total tot h hl
    simp only [runIxs] at h
    obtain ⟨b, h1, g1⟩ := bind_ok_iff.mp h
    obtain ⟨_, h2, g2⟩ := bind_ok_iff.mp g1
    obtain ⟨m2, h3, g3⟩ := bind_ok_iff.mp g2
    obtain ⟨l2, h4, g4⟩ := bind_ok_iff.mp g3
    have hb := require_ok_iff.mp h2
    clear h g1 g2 g3 h2
    subst hb
    obtain ⟨k1, k2⟩ := trackAll_mono hl h4
    obtain ⟨e1, e2, e3, e4, e5⟩ := ih g4 k1
    refine ⟨?_, e2, .inr ?_, ?_, ?_⟩
    · simp only [execAll, h3, ok_bind]; exact e1
    · rcases e3 with ⟨_, rfl, rfl⟩ | e3
      · exact k2
      · exact e3
    · intro L hL hle
      refine e4 L hL ?_
      unfold satAdd64
      omega
    · intro pre ix' post he
      cases pre with
      | nil =>
        cases he
        exact ⟨m, rfl, h1⟩
      | cons p pre =>
        cases he
        obtain ⟨mid, f1, f2⟩ := e5 pre ix' post rfl
        exact ⟨mid, by simp only [execAll, h3, ok_bind]; exact f1, f2⟩

/-- The total is what the wallet address lost in all instructions together, cut off at the largest `u64`. -/
theorem runIxs_total {x : SignCtx} {cpi : Cpi} : ∀ {ixs : List Inner} {m m1 : Mem} {l acc : List (Meta × Class)} {total tot : Nat},
    runIxs x cpi m l total ixs = .ok (m1, acc, tot) → total < 2 ^ 64 →
    tot = min (2 ^ 64 - 1) (total + (lostEach x.env cpi x.metas x.wallet x.seeds x.wallet m ixs).sum) := by
  intro ixs
  induction ixs with
  | nil =>
    intro m m1 l acc total tot h ht
    cases h
    simp only [lostEach, List.sum_nil]
    omega
  | cons ix ixs ih =>
    intro m m1 l acc total tot h ht
    simp only [runIxs] at h
    obtain ⟨b, h1, g1⟩ := bind_ok_iff.mp h
    obtain ⟨_, h2, g2⟩ := bind_ok_iff.mp g1
    obtain ⟨m2, h3, g3⟩ := bind_ok_iff.mp g2
    obtain ⟨l2, h4, g4⟩ := bind_ok_iff.mp g3
    have hlt : satAdd64 total ((m x.wallet).lamports - (m2 x.wallet).lamports) < 2 ^ 64 := by unfold satAdd64; omega
    have e := ih g4 hlt
    simp only [lostEach, h3, List.sum_cons]
    rw [e]
    unfold satAdd64
    omega

/-! ### Nothing else is counted -/

/-- What is counted as spent for an account of the given kind is at most what left it in the instructions (added to what had been counted before, and to what the
class is behind the ledger; a stake account must keep its size); nothing is counted for an account that is not writable. -/
def Few (env : Env) (cpi : Cpi) (metas : List Meta) (signer : Key) (seeds : List Bytes) (m : Mem) (ixs : List Inner) (a : Meta) : Class → Class → Prop
  | .token b s, .token _ s' => (a.writable = false → s' = s) ∧
      s' ≤ s + (b - tokensOf (m a.key)) + (changeEach tokensOut env cpi metas signer seeds a.key m ixs).sum
  | .stake _ b l s, .stake _ _ _ s' => (a.writable = false → s' = s) ∧
      ((∀ n ∈ changeEach (fun _ a' => a'.data.length) env cpi metas signer seeds a.key m ixs, 164 ≤ n) →
      s' ≤ s + (l - (m a.key).lamports) + ((b - stakedOf (m a.key)) + (stakedOf (m a.key) - b)) +
        (changeEach stakeMove env cpi metas signer seeds a.key m ixs).sum)
  | _, _ => True

theorem Few.refl {env : Env} {cpi : Cpi} {metas : List Meta} {signer : Key} {seeds : List Bytes} {m : Mem} {a : Meta} (c : Class) :
    Few env cpi metas signer seeds m [] a c c := by
  cases c <;> simp only [Few, implies_true, true_and] <;> intros <;> omega

theorem track_few {x : SignCtx} {cpi : Cpi} {m m2 : Mem} {ixn : Inner} {ixs : List Inner} {a : Meta} {c c1 c2 : Class}
    (he : execInner x.env cpi m x.metas x.wallet x.seeds ixn = .ok m2) (ht : track x m2 a c = .ok c1)
    (h : Few x.env cpi x.metas x.wallet x.seeds m2 ixs a c1 c2) : Few x.env cpi x.metas x.wallet x.seeds m (ixn :: ixs) a c c2 := by
  unfold track at ht
  by_cases hw : a.writable = false
  · rw [if_pos hw] at ht
    cases ht
    cases c <;> cases c2 <;> simp only [Few] at h ⊢
    · exact ⟨h.1, by have := h.1 hw; omega⟩
    · exact ⟨h.1, fun _ => by have := h.1 hw; omega⟩
  · rw [if_neg hw] at ht
    have hw' : a.writable = true := by simpa using hw
    cases c with
    | token b s =>
      simp only at ht
      split at ht
      · cases ht
        cases c2 <;> simp only [Few, changeEach, he, List.sum_cons, tokensOut] at h ⊢
        exact ⟨fun hf => absurd hf hw, by omega⟩
      · cases ht
        cases c2 <;> simp only [Few, changeEach, he, List.sum_cons, tokensOut] at h ⊢
        refine ⟨fun hf => absurd hf hw, ?_⟩
        have h2 := h.2
        rw [show rd (m2 a.key).data 64 8 = tokensOf (m2 a.key) from rfl] at h2
        unfold satAdd64 at h2
        split at h2 <;> omega
    | stake st b l s =>
      simp only at ht
      split at ht
      · rename_i hlen
        cases ht
        cases c2 <;> simp only [Few, changeEach, he, List.forall_mem_cons] at h ⊢
        exact ⟨fun hf => absurd hf hw, fun hk => absurd hk.1 (by omega)⟩
      · cases ht
        cases c2 <;> simp only [Few, changeEach, he, List.sum_cons, stakeMove, stakedOf, List.forall_mem_cons] at h ⊢
        refine ⟨fun hf => absurd hf hw, fun hk => ?_⟩
        have h2 := h.2 hk.2
        unfold satAdd64 at h2
        generalize rd (m2 a.key).data 156 8 = v2 at *
        generalize rd (m a.key).data 156 8 = v1 at *
        omega
    | scope ro b s => cases c2 <;> simp only [Few]
    | none => cases c2 <;> simp only [Few]
    | thisSwig l => cases c2 <;> simp only [Few]
    | wallet => cases c2 <;> simp only [Few]

theorem trackAll_few {x : SignCtx} {cpi : Cpi} {m m2 : Mem} {ixn : Inner} {ixs : List Inner} 
    (he : execInner x.env cpi m x.metas x.wallet x.seeds ixn = .ok m2) : ∀ {l l2 acc : List (Meta × Class)}, trackAll x m2 l = .ok l2 →
    All2 (fun e e' => e'.1 = e.1 ∧ Few x.env cpi x.metas x.wallet x.seeds m2 ixs e.1 e.2 e'.2) l2 acc →
    All2 (fun e e' => e'.1 = e.1 ∧ Few x.env cpi x.metas x.wallet x.seeds m (ixn :: ixs) e.1 e.2 e'.2) l acc := by
  intro l
  induction l with
  | nil => intro l2 acc h ha; cases h; cases ha; exact .nil
  | cons e l ih =>
    intro l2 acc h ha
    obtain ⟨a, c⟩ := e
    simp only [trackAll] at h
    obtain ⟨c', h2, h⟩ := bind_ok_iff.mp h
    obtain ⟨l1, h3, h⟩ := bind_ok_iff.mp h
    cases h
    cases ha with
    | cons h4 h5 => exact .cons ⟨h4.1, track_few he h2 h4.2⟩ (ih h3 h5)

theorem runIxs_few {x : SignCtx} {cpi : Cpi} : ∀ {ixs : List Inner} {m m1 : Mem} {l acc : List (Meta × Class)} {total tot : Nat},
    runIxs x cpi m l total ixs = .ok (m1, acc, tot) →
    All2 (fun e e' => e'.1 = e.1 ∧ Few x.env cpi x.metas x.wallet x.seeds m ixs e.1 e.2 e'.2) l acc := by
  intro ixs
  induction ixs with
  | nil =>
    intro m m1 l acc total tot h
    cases h
    exact All2.refl' (fun _ => ⟨rfl, Few.refl _⟩) _
  | cons ix ixs ih =>
    intro m m1 l acc total tot h
    simp only [runIxs] at h
    obtain ⟨b, h1, g1⟩ := bind_ok_iff.mp h
    obtain ⟨_, h2, g2⟩ := bind_ok_iff.mp g1
    obtain ⟨m2, h3, g3⟩ := bind_ok_iff.mp g2
    obtain ⟨l2, h4, g4⟩ := bind_ok_iff.mp g3
    exact trackAll_few h3 h4 (ih g4)

theorem snapAll_length {x : SignCtx} {m : Mem} : ∀ {l : List (Meta × Class)} {i : Nat} {hs : List (Option Bytes)},
    snapAll x m i l = .ok hs → l.length = hs.length := by
  intro l
  induction l with
  | nil => intro i hs h; cases h; rfl
  | cons e l ih =>
    intro i hs h
    obtain ⟨a, c⟩ := e
    simp only [snapAll] at h
    obtain ⟨h0, _, h⟩ := bind_ok_iff.mp h
    obtain ⟨hs', h2, h⟩ := bind_ok_iff.mp h
    cases h
    simp [ih h2]

theorem snapAll_each {x : SignCtx} {m : Mem} : ∀ {l : List (Meta × Class)} {i : Nat} {hs : List (Option Bytes)},
    snapAll x m i l = .ok hs → All2 (fun e h => ∃ j, snap x m j e.1 e.2 = .ok h) l hs := by
  intro l
  induction l with
  | nil => intro i hs h; cases h; exact .nil
  | cons e l ih =>
    intro i hs h
    obtain ⟨a, c⟩ := e
    simp only [snapAll] at h
    obtain ⟨h0, h1, h⟩ := bind_ok_iff.mp h
    obtain ⟨hs', h2, h⟩ := bind_ok_iff.mp h
    cases h
    exact .cons ⟨i, h1⟩ (ih h2)

theorem All2.length' {α β : Type} {r : α → β → Prop} {as : List α} {bs : List β} (h : All2 r as bs) : as.length = bs.length := h.length

theorem Mono.isSwig {c c' : Class} (h : Mono c c') : c'.isSwig = c.isSwig := by cases h <;> rfl
theorem Mono.tracked {c c' : Class} (h : Mono c c') : c'.tracked = c.tracked := by cases h <;> rfl

/-- Outcome of a SignV2 of a restricted role. -/
structure Limited (x : SignCtx) (cpi : Cpi) (m m' : Mem) (swigM : Meta) (rest : List (Meta × Class)) (w : Wallet) (id : Nat) (r : Role)
    where
  /-- ledger after the instructions -/
  m1 : Mem
  /-- lamports taken from the wallet address -/
  total : Nat
  /-- other accounts with what they spent, and their snapshots -/
  acc : List (Meta × Class)
  hs : List (Option Bytes)
  exec : execAll x.env cpi x.metas x.wallet x.seeds m x.ixs = .ok m1
  permitted : ∀ pre ix post, x.ixs = pre ++ ix :: post → ∃ mid, execAll x.env cpi x.metas x.wallet x.seeds m pre = .ok mid ∧
    programOk x mid ix = .ok true
  spent : (m x.wallet).lamports < 2 ^ 64 → (m x.wallet).lamports ≤ (m1 x.wallet).lamports + total
  gross : total = min (2 ^ 64 - 1) (lostEach x.env cpi x.metas x.wallet x.seeds x.wallet m x.ixs).sum
  mono : All2 (fun e e' => e'.1 = e.1 ∧ Mono e.2 e'.2) rest acc
  few : All2 (fun e e' => e'.1 = e.1 ∧ Few x.env cpi x.metas x.wallet x.seeds m x.ixs e.1 e.2 e'.2) rest acc
  cur : (x.ixs = [] ∧ acc = rest ∧ m1 = m) ∨ ∀ e ∈ acc, e.1.writable = true → Cur x m1 e.1 e.2
  snaps : All2 (fun e h => ∃ j, snap x m j e.1 e.2 = .ok h) rest hs
  config : ∃ h0, (∃ j l, snap x m j swigM (.thisSwig l) = .ok h0) ∧ recheck x m1 swigM h0 [] = .ok ()
  rent : (m1 x.wallet).lamports ≥ x.env.rent (m1 x.wallet).data.length
  settled : (m1 x.loc.swig).data = w.encode →
    (∀ e ∈ rest, e.2.isSwig = false ∧ (e.2.tracked = true → e.1.key ≠ x.loc.swig ∧ e.1.key.length = 32)) →
    ∃ as', m' = cfgMem x.loc w id m1 as' ∧
      Plays x.env.slot r.actions ((if total = 0 then [] else solSeg x r.actions total) ++
        acc.flatMap fun e => segOf x m1 r.actions e.1 e.2) as' ∧
      (total ≠ 0 → SolOk x r.actions total) ∧ All2 (fun e hh => OkOf x m1 r.actions e.1 hh e.2) acc hs

theorem signLimited_ok {x : SignCtx} {cpi : Cpi} {m m' : Mem} {swigM : Meta} {l : Nat} {metas : List Meta} {cls : List Class}
    {w : Wallet} {id : Nat} {r : Role} {before after : List Role} (hp : Placed x.loc w id r before after) (hk : Keys32 x)
    (hmetas : x.metas = swigM :: metas) (h : signLimited x cpi m (.thisSwig l :: cls) = .ok m') :
    Nonempty (Limited x cpi m m' swigM (metas.zip cls) w id r) := by
  unfold signLimited at h
  rw [hmetas, List.zip_cons_cons] at h
  obtain ⟨hs, h1, g1⟩ := bind_ok_iff.mp h
  obtain ⟨⟨m1, acc, total⟩, h2, h⟩ := bind_ok_iff.mp g1
  clear g1
  simp only at h
  obtain ⟨e1, e2, e3, e4, e5⟩ := runIxs_ok h2 (All2.refl' (fun _ => ⟨rfl, .same _⟩) _)
  have e6 := runIxs_total h2 (by omega)
  have e7 := runIxs_few h2
  rw [Nat.zero_add] at e6
  clear h2
  have hsn := snapAll_each h1
  clear h1
  obtain ⟨h0, hs, rfl, s1, s2⟩ := hsn.uncons
  obtain ⟨⟨a, c⟩, acc, rfl, t1, t2⟩ := e2.uncons
  obtain ⟨_, _, hac, _, t3⟩ := e7.uncons
  cases hac
  clear e2 e7 hsn
  obtain ⟨ha, hc⟩ := t1
  simp only at ha hc
  subst ha
  have hc' : c = .thisSwig l := by cases hc; rfl
  subst hc'
  simp only [settleAll, settleOne, settleSwig] at h
  obtain ⟨m2, h3, h⟩ := bind_ok_iff.mp h
  obtain ⟨_, h4, h3⟩ := bind_ok_iff.mp h3
  obtain ⟨_, h5, h3⟩ := bind_ok_iff.mp h3
  have h5 := require_ok_iff.mp h5
  refine ⟨⟨m1, total, acc, hs, e1, e5, fun hlt => e4 _ hlt (by omega), e6, t2, t3, ?_, s2,
    ⟨h0, by obtain ⟨j, hj⟩ := s1; exact ⟨j, l, hj⟩, h4⟩, h5, ?_⟩⟩
  · rcases e3 with ⟨k1, k2, k3⟩ | e3
    · cases k2
      exact .inl ⟨k1, rfl, k3⟩
    · exact .inr fun e he => e3 e (by simp [he])
  · intro hd hrest
    rw [hp.start hd] at h3
    have hcr : All2 Act.Charged r.actions r.actions := All2.refl' Act.Charged.refl _
    have hacc : ∀ e ∈ acc, e.2.isSwig = false ∧ (e.2.tracked = true → e.1.key ≠ x.loc.swig ∧ e.1.key.length = 32) :=
      t2.right hrest fun e e' q p => by rw [q.2.isSwig, q.2.tracked, q.1]; exact p
    have hlen : acc.length = hs.length := by rw [← t2.length, ← s2.length]
    by_cases ht : total = 0
    · rw [if_pos ht] at h3
      cases h3
      obtain ⟨as', f1, f2, f3, f4⟩ := hp.settleAll hk hlen hcr hacc h
      exact ⟨as', f1, by rw [if_pos ht]; exact f2, fun hn => absurd ht hn, f4⟩
    · rw [if_neg ht] at h3
      obtain ⟨as1, rfl, g2, g3, g4⟩ := hp.settleSol hk hcr h3
      obtain ⟨as', f1, f2, f3, f4⟩ := hp.settleAll hk hlen g3 hacc h
      refine ⟨as', f1, ?_, fun _ => g4, All2.imp' (fun e hh ho => OkOf.congr g3 ho) f4⟩
      rw [if_neg ht]
      simp only [segOf_congr g3] at f2
      exact g2.append f2

end Verif
