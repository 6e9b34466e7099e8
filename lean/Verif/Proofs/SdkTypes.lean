import Verif.Spec.Sdk
import Verif.Proofs.ClientActions
import Verif.Proofs.PutAct

/-! Lemmas about reading permissions of the Rust SDK from stored roles. -/

set_option linter.unusedSimpArgs false

namespace Verif

/-! ## All actions of a type -/

theorem getAllOfTypeGo_enc (ty : Nat) : ∀ (as : List Act) (pre : Bytes) (fuel : Nat),
    (∀ a ∈ as, a.WF) → pre.length + actsSize as < 2 ^ 32 → as.length ≤ fuel →
    getAllOfTypeGo ty (pre ++ encActs pre.length as) fuel pre.length = .ok ((as.filter (fun a => a.ty = ty)).map Act.data) := by
  intro as
  induction as with
  | nil => intro pre fuel _ _ _; cases fuel <;> simp [getAllOfTypeGo, encActs]
  | cons a as ih =>
    intro pre fuel hwf hsz hf
    have ha := hwf a (by simp)
    have hb := ha.bounds
    simp only [actsSize_cons] at hsz
    obtain ⟨f1, f2, f3, f4⟩ := act_fields pre a as ha (by omega)
    obtain ⟨fuel, rfl⟩ : ∃ k, fuel = k + 1 := ⟨fuel - 1, by simp at hf; omega⟩
    have hlen : (pre ++ encActs pre.length (a :: as)).length = pre.length + (a.size + actsSize as) := by simp
    have hs : a.size = 8 + a.data.length := rfl
    have e : (pre ++ encAct (pre.length + a.size) a).length = pre.length + a.size := by simp
    have hstep : pre ++ encActs pre.length (a :: as) = (pre ++ encAct (pre.length + a.size) a) ++
        encActs (pre ++ encAct (pre.length + a.size) a).length as := by
      have := acts_step pre [] a as
      simpa using this
    have hrec := ih (pre ++ encAct (pre.length + a.size) a) fuel (fun x hx => hwf x (by simp [hx]))
        (by simp; omega) (by simp at hf; omega)
    rw [← hstep, e] at hrec
    simp only [getAllOfTypeGo, f1, f3, hlen]
    rw [if_pos (by omega), if_neg (by omega), permission_ok (by omega)]
    simp only [ok_bind]
    by_cases hty : a.ty = ty
    · have hal : (actionLen ty).getD 0 = a.data.length := by rw [← hty, ha]; rfl
      rw [hal, if_neg (by omega), hrec]
      simp only [ok_bind]
      rw [if_pos hty, f4]
      simp [hty]
    · rw [if_neg (fun h => hty h.1), hrec]
      simp only [ok_bind]
      rw [if_neg hty]
      simp [hty]

theorem getAllOfType_enc (ty : Nat) (as : List Act) (hwf : ∀ a ∈ as, a.WF) (hne : 1 ≤ as.length) (hsz : actsSize as < 2 ^ 32) :
    getAllOfType ty (encActs 0 as) = .ok ((as.filter (fun a => a.ty = ty)).map Act.data) := by
  have h8 := length_le_actsSize as
  unfold getAllOfType
  rw [if_neg (by simp; omega)]
  exact getAllOfTypeGo_enc ty as [] _ hwf (by simpa using hsz) (by simp; omega)

/-- Looking for a sub-account without key: the first that is not yet bound to an address. -/
theorem getAction_sub_enc (as : List Act) (hwf : ∀ a ∈ as, a.WF) (hne : 1 ≤ as.length) (hsz : actsSize as < 2 ^ 32) :
    getAction P.subAccount [] (encActs 0 as) =
      .ok ((as.find? (fun a => a.grants P.subAccount (zeros 32))).map Act.data) := by
  rw [← getAction_enc P.subAccount (zeros 32) as hwf hne hsz (fun _ => rfl)]
  unfold getAction
  rw [getActionGo_congr (k2 := zeros 32)]
  intro d
  rfl

namespace Sdk

open Client (Action)

/-- What is read for a stored action. -/
def dec (ty : Nat) (d : Bytes) : Option Permission :=
  match ty with
  | 1 => some (.sol (rd d 0 8) none)
  | 2 => some (.sol (rd d 0 8) (some ⟨rd d 8 8, rd d 16 8, rd d 24 8⟩))
  | 3 => some (.program (sl d 0 32))
  | 4 => some (readScope d)
  | 5 => some (.token (sl d 0 32) (rd d 32 8) none)
  | 6 => some (.token (sl d 0 32) (rd d 40 8) (some ⟨rd d 32 8, rd d 56 8, rd d 48 8⟩))
  | 7 => some .all
  | 8 => some .manageAuthority
  | 9 => some (.subAccount (sl d 0 32))
  | 10 => some (.stake (rd d 0 8) none)
  | 11 => some (.stake (rd d 0 8) (some ⟨rd d 8 8, rd d 16 8, rd d 24 8⟩))
  | 12 => some .stakeAll
  | 13 => some .programAll
  | 14 => some .programCurated
  | 15 => some .allButManageAuthority
  | 16 => some (.solDestination (sl d 0 32) (rd d 32 8) none)
  | 17 => some (.solDestination (sl d 0 32) (rd d 32 8) (some ⟨rd d 40 8, rd d 48 8, rd d 56 8⟩))
  | 18 => some (.tokenDestination (sl d 0 32) (sl d 32 64) (rd d 64 8) none)
  | 19 => some (.tokenDestination (sl d 0 32) (sl d 32 64) (rd d 64 8) (some ⟨rd d 72 8, rd d 80 8, rd d 88 8⟩))
  | 21 => some (.replaceAuthority (rd d 0 4))
  | 22 => some .subAccountV2Create
  | 23 => some (.subAccountV2All (rd d 0 4))
  | 24 => some (.subAccountV2Sign (rd d 0 4))
  | 25 => some (.subAccountV2Withdraw (rd d 0 4))
  | 26 => some (.subAccountV2Toggle (rd d 0 4))
  | _ => none

theorem rd8_lt (d : Bytes) (i : Nat) : rd d i 8 < 2 ^ 64 := by simpa using rd_lt d i 8
theorem rd4_lt (d : Bytes) (i : Nat) : rd d i 4 < 2 ^ 32 := by simpa using rd_lt d i 4
theorem rd16_lt (d : Bytes) (i : Nat) : rd d i 16 < 2 ^ 128 := by simpa using rd_lt d i 16

theorem natLE_leNat' {b : Bytes} {k : Nat} (h : b.length = k) : natLE k (leNat b) = b := by subst h; exact natLE_leNat b

theorem split32_8 {d : Bytes} (h : d.length = 40) : sl d 0 32 ++ natLE 8 (rd d 32 8) = d := by
  rw [natLE_rd (by omega), sl_append_sl _ (by omega) (by omega)]
  conv => rhs; rw [← sl_full d, h]

theorem dec_names {a : Act} {p : Permission} (hwf : a.WF) (h : dec a.ty a.data = some p)
    (hs : a.ty = P.programScope → rd a.data 16 16 < 2 ^ 64) : p.InRange ∧ p.Names a := by
  obtain ⟨ty, d⟩ := a
  have hlen : ∀ n, actionLen ty = some n → d.length = n := by
    intro n hn
    have : actionLen ty = some d.length := hwf
    rw [hn] at this
    exact (Option.some.inj this).symm
  have full : ∀ n, d.length = n → sl d 0 n = d := by intro n hn; rw [← hn, sl_full]
  have R8 := rd8_lt d
  have R4 := rd4_lt d
  simp only [dec] at h
  split at h
  all_goals cases h
  all_goals
    have this := hlen _ rfl
    have F := full _ this
  case h_4 =>
    have hm : rd d 16 16 % 2 ^ 64 = rd d 16 16 := Nat.mod_eq_of_lt (hs rfl)
    refine ⟨?_, ?_⟩
    · unfold readScope
      simp only [Permission.InRange]
      refine ⟨by rw [sl_length_of_le (by omega)], by rw [sl_length_of_le (by omega)], R8 _, ?_, ?_, ?_, ?_⟩
      · intro n hn
        split at hn
        · simp at hn; omega
        · simp at hn
      · intro n hn
        split at hn
        · simp at hn; have := R8 32; omega
        · simp at hn
      · intro n hn; simp at hn; have := R8 128; omega
      · intro n hn; simp at hn; have := R8 136; omega
    · unfold readScope
      rw [hm]
      refine ⟨rd d 0 16, rd d 16 16, rd d 32 8, rd d 40 8, rd d 112 8, rd d 128 8, rd d 136 8,
        ⟨rd16_lt _ _, rd16_lt _ _, R8 _, R8 _, ?_, ?_, R8 _, R8 _, R8 _, R8 _⟩, ?_, ?_, rfl, rfl, rfl⟩
      · rw [sl_length_of_le (by omega)]
      · rw [sl_length_of_le (by omega)]
      · simp only [Action.toAct, Action.bytes, Action.header, natLE_rd, this, Nat.reduceAdd, Nat.reduceLeDiff,
          sl_append_sl, Nat.zero_le, F, P.programScope]
      · split
        · rw [if_neg (by omega)]
        · rw [if_pos (by omega)]
  case h_9 => exact ⟨by simp [Permission.InRange, sl_length_of_le, this], rfl, this, (sl_zero d 32).symm⟩
  case h_14 => exact ⟨trivial, d, this, rfl⟩
  case h_7 | h_8 | h_12 | h_13 | h_15 | h_21 =>
    cases List.eq_nil_of_length_eq_zero this
    exact ⟨trivial, rfl⟩
  case h_20 | h_22 | h_23 | h_24 | h_25 =>
    refine ⟨R4 _, sl d 4 8, by rw [sl_length_of_le (by omega)], ?_⟩
    simp only [Action.toAct, Action.bytes, Action.header, natLE_rd, this, Nat.reduceAdd, Nat.reduceLeDiff, sl_append_sl, Nat.zero_le, F]
  all_goals
    refine ⟨?_, ?_⟩
    · simp [Permission.InRange, Recurring.InRange, R8, sl_length_of_le, this]
    · simp only [Permission.Names, Action.toAct, Action.bytes, Action.header, natLE_rd, this, Nat.reduceAdd, Nat.reduceLeDiff,
          sl_append_sl, Nat.zero_le, F, P.solLimit, P.solRecurringLimit, P.program, P.tokenLimit, P.tokenRecurringLimit, P.stakeLimit,
          P.stakeRecurringLimit, P.solDestinationLimit, P.solRecurringDestinationLimit, P.tokenDestinationLimit,
          P.tokenRecurringDestinationLimit]

theorem names_dec {a : Act} {p : Permission} (hp : p.InRange) (h : p.Names a) : dec a.ty a.data = some p := by
  cases p with
  | all => cases h; rfl
  | manageAuthority => cases h; rfl
  | programAll => cases h; rfl
  | stakeAll => cases h; rfl
  | allButManageAuthority => cases h; rfl
  | subAccountV2Create => cases h; rfl
  | programCurated => obtain ⟨r, _, rfl⟩ := h; rfl
  | replaceAuthority i =>
    obtain ⟨r, _, rfl⟩ := h
    simp [Action.toAct, Action.bytes, Action.header, dec, Client.rd_here 4 i _ (by simpa [Permission.InRange] using hp), P.replaceAuthority]
  | subAccountV2All i =>
    obtain ⟨r, _, rfl⟩ := h
    simp [Action.toAct, Action.bytes, Action.header, dec, Client.rd_here 4 i _ (by simpa [Permission.InRange] using hp), P.subAccountV2All]
  | subAccountV2Sign i =>
    obtain ⟨r, _, rfl⟩ := h
    simp [Action.toAct, Action.bytes, Action.header, dec, Client.rd_here 4 i _ (by simpa [Permission.InRange] using hp), P.subAccountV2Sign]
  | subAccountV2Withdraw i =>
    obtain ⟨r, _, rfl⟩ := h
    simp [Action.toAct, Action.bytes, Action.header, dec, Client.rd_here 4 i _ (by simpa [Permission.InRange] using hp), P.subAccountV2Withdraw]
  | subAccountV2Toggle i =>
    obtain ⟨r, _, rfl⟩ := h
    simp [Action.toAct, Action.bytes, Action.header, dec, Client.rd_here 4 i _ (by simpa [Permission.InRange] using hp), P.subAccountV2Toggle]
  | subAccount k =>
    obtain ⟨h1, h2, h3⟩ := h
    rw [h1]
    simp only [dec, P.subAccount, sl_zero, h3]
  | program k =>
    cases h
    simp only [Permission.InRange] at hp
    simp [Action.toAct, Action.bytes, Action.header, dec, P.program, Client.sl_only _ _ hp]
  | programScope p t numeric limit window s e =>
    obtain ⟨used, full, per, last, kind, start, stop, hr, rfl, rfl, rfl, rfl, rfl⟩ := h
    obtain ⟨h1, h2, h3, h4, h5, h6, h7, h8, h9, h10⟩ := hr
    obtain ⟨_, _, _, g, _⟩ := hp
    simp only [Action.toAct, Action.bytes, Action.header, dec, P.programScope]
    have e1 : (256 : Nat) ^ 16 = 2 ^ 128 := by decide
    have e2 : (256 : Nat) ^ 8 = 2 ^ 64 := by decide
    simp only [readScope, List.append_assoc, Client.rd_skip, Client.rd_here, Client.rd_only, Client.sl_skip, Client.sl_here, natLE_length,
      h1, h2, h3, h4, h5, h6, h7, h8, h9, h10, e1, e2, Nat.reduceLeDiff, Nat.reduceSub, Nat.zero_le]
    by_cases hk : kind = 0
    · subst hk; simp
    · rw [if_neg hk] at g
      have : full % 2 ^ 64 = full := Nat.mod_eq_of_lt (g full rfl)
      rw [this, if_pos (by omega), if_neg hk]
  | sol n c =>
    cases c with
    | none =>
      cases h
      simp only [Permission.InRange] at hp
      simp [Action.toAct, Action.bytes, Action.header, dec, P.solLimit, Client.rd_only, hp.1]
    | some c =>
      cases h
      simp only [Permission.InRange, Recurring.InRange, Option.mem_def, Option.some.injEq, forall_eq'] at hp
      simp [Action.toAct, Action.bytes, Action.header, dec, P.solRecurringLimit, Client.rd_only, hp, Client.rd_here, Client.rd_skip]
  | token m n c =>
    cases c with
    | none =>
      cases h
      simp only [Permission.InRange] at hp
      simp [Action.toAct, Action.bytes, Action.header, dec, P.tokenLimit, Client.rd_only, hp, Client.rd_here, Client.rd_skip, Client.sl_skip, Client.sl_here]
    | some c =>
      cases h
      simp only [Permission.InRange, Recurring.InRange, Option.mem_def, Option.some.injEq, forall_eq'] at hp
      simp [Action.toAct, Action.bytes, Action.header, dec, P.tokenRecurringLimit, Client.rd_only, hp, Client.rd_here, Client.rd_skip, Client.sl_skip, Client.sl_here]
  | tokenDestination m t n c =>
    cases c with
    | none =>
      cases h
      simp only [Permission.InRange] at hp
      simp [Action.toAct, Action.bytes, Action.header, dec, P.tokenDestinationLimit, Client.rd_only, hp, Client.rd_here, Client.rd_skip, Client.sl_skip, Client.sl_here]
    | some c =>
      cases h
      simp only [Permission.InRange, Recurring.InRange, Option.mem_def, Option.some.injEq, forall_eq'] at hp
      simp [Action.toAct, Action.bytes, Action.header, dec, P.tokenRecurringDestinationLimit, Client.rd_only, hp, Client.rd_here, Client.rd_skip, Client.sl_skip, Client.sl_here]
  | solDestination t n c =>
    cases c with
    | none =>
      cases h
      simp only [Permission.InRange] at hp
      simp [Action.toAct, Action.bytes, Action.header, dec, P.solDestinationLimit, Client.rd_only, hp, Client.rd_here, Client.rd_skip, Client.sl_skip, Client.sl_here]
    | some c =>
      cases h
      simp only [Permission.InRange, Recurring.InRange, Option.mem_def, Option.some.injEq, forall_eq'] at hp
      simp [Action.toAct, Action.bytes, Action.header, dec, P.solRecurringDestinationLimit, Client.rd_only, hp, Client.rd_here, Client.rd_skip, Client.sl_skip, Client.sl_here]
  | stake n c =>
    cases c with
    | none =>
      cases h
      simp only [Permission.InRange] at hp
      simp [Action.toAct, Action.bytes, Action.header, dec, P.stakeLimit, Client.rd_only, hp, Client.rd_here, Client.rd_skip, Client.sl_skip, Client.sl_here]
    | some c =>
      cases h
      simp only [Permission.InRange, Recurring.InRange, Option.mem_def, Option.some.injEq, forall_eq'] at hp
      simp [Action.toAct, Action.bytes, Action.header, dec, P.stakeRecurringLimit, Client.rd_only, hp, Client.rd_here, Client.rd_skip, Client.sl_skip, Client.sl_here]

/-- The actions of a role that reading it looks at: for types that can be held once the first one, of the program scopes the first on the
Token program, of the sub-accounts the first without address, otherwise all. -/
def Listed (as : List Act) (a : Act) : Prop :=
  if a.ty = P.programScope then as.find? (fun x => x.grants P.programScope tokenId) = some a
  else if a.ty = P.subAccount then as.find? (fun x => x.grants P.subAccount (zeros 32)) = some a
  else if repeatable a.ty = true then a ∈ as
  else as.find? (fun x => x.grants a.ty []) = some a

theorem gather_mem (acts : Bytes) : ∀ fs : List (Bytes → R (List Permission)), (∀ f ∈ fs, ∃ l, f acts = .ok l) →
    ∃ l, gather acts fs = .ok l ∧ ∀ p, p ∈ l ↔ ∃ f ∈ fs, ∃ l', f acts = .ok l' ∧ p ∈ l'
  | [], _ => ⟨[], rfl, by simp⟩
  | f :: fs, h => by
    obtain ⟨l1, e1⟩ := h f (by simp)
    obtain ⟨l2, e2, m2⟩ := gather_mem acts fs (fun g hg => h g (by simp [hg]))
    refine ⟨l1 ++ l2, by simp [gather, e1, e2], fun p => ?_⟩
    rw [List.mem_append, m2]
    constructor
    · rintro (h | ⟨g, hg, l', e, hp⟩)
      · exact ⟨f, by simp, l1, e1, h⟩
      · exact ⟨g, by simp [hg], l', e, hp⟩
    · rintro ⟨g, hg, l', e, hp⟩
      simp only [List.mem_cons] at hg
      rcases hg with rfl | hg
      · rw [e1] at e; cases e; exact .inl hp
      · exact .inr ⟨g, hg, l', e, hp⟩

theorem find_grants {as : List Act} {ty : Nat} {key : Bytes} {a : Act} (h : as.find? (fun x => x.grants ty key) = some a) :
    a ∈ as ∧ a.grants ty key := by
  have := List.find?_some h
  exact ⟨List.mem_of_find?_eq_some h, by simpa using this⟩

section
variable {as : List Act} (hwf : ∀ a ∈ as, a.WF) (hne : 1 ≤ as.length) (hsz : actsSize as < 2 ^ 32)
include hwf hne hsz

theorem single_enc {ty : Nat} {key : Bytes} (f : Bytes → Permission) (hk : repeatable ty = true → key.length = keyLen ty) :
    single ty key f (encActs 0 as) = .ok (((as.find? (fun a => a.grants ty key)).map fun a => f a.data).toList) := by
  unfold single
  rw [getAction_enc ty key as hwf hne hsz hk]
  simp only [ok_bind]
  cases as.find? (fun a => a.grants ty key) <;> rfl

theorem single_sub_enc (f : Bytes → Permission) :
    single P.subAccount [] f (encActs 0 as) =
      .ok (((as.find? (fun a => a.grants P.subAccount (zeros 32))).map fun a => f a.data).toList) := by
  unfold single
  rw [getAction_sub_enc as hwf hne hsz]
  simp only [ok_bind]
  cases as.find? (fun a => a.grants P.subAccount (zeros 32)) <;> rfl

theorem every_enc (ty : Nat) (f : Bytes → Permission) :
    every ty f (encActs 0 as) = .ok ((as.filter (fun a => a.ty = ty)).map fun a => f a.data) := by
  unfold every
  rw [getAllOfType_enc ty as hwf hne hsz]
  simp

theorem readers_ok : ∀ f ∈ readers, ∃ l, f (encActs 0 as) = .ok l ∧ ∀ p ∈ l, ∃ a, Listed as a ∧ dec a.ty a.data = some p := by
  intro f hf
  have S : ∀ (ty : Nat) (g : Bytes → Permission), repeatable ty = false → (∀ d, dec ty d = some (g d)) →
      ∃ l, single ty [] g (encActs 0 as) = .ok l ∧ ∀ p ∈ l, ∃ a, Listed as a ∧ dec a.ty a.data = some p := by
    intro ty g hr hd
    refine ⟨_, single_enc hwf hne hsz g (by simp [hr]), ?_⟩
    intro p hp
    simp only [Option.mem_toList, Option.mem_def, Option.map_eq_some_iff] at hp
    obtain ⟨a, ha, rfl⟩ := hp
    have h1 := (find_grants ha).2.1
    refine ⟨a, ?_, by rw [h1]; exact hd _⟩
    unfold Listed
    rw [if_neg (by rintro h; rw [h1] at h; rw [h] at hr; exact absurd hr (by decide)),
      if_neg (by rintro h; rw [h1] at h; rw [h] at hr; exact absurd hr (by decide)), if_neg (by rw [h1, hr]; simp), h1]
    exact ha
  have E : ∀ (ty : Nat) (g : Bytes → Permission), repeatable ty = true → ty ≠ P.programScope → ty ≠ P.subAccount →
      (∀ d, dec ty d = some (g d)) →
      ∃ l, every ty g (encActs 0 as) = .ok l ∧ ∀ p ∈ l, ∃ a, Listed as a ∧ dec a.ty a.data = some p := by
    intro ty g hr h4 h9 hd
    refine ⟨_, every_enc hwf hne hsz ty g, ?_⟩
    intro p hp
    simp only [List.mem_map, List.mem_filter, decide_eq_true_eq] at hp
    obtain ⟨a, ⟨ha, h1⟩, rfl⟩ := hp
    refine ⟨a, ?_, by rw [h1]; exact hd _⟩
    unfold Listed
    rw [if_neg (by rw [h1]; exact h4), if_neg (by rw [h1]; exact h9), if_pos (by rw [h1, hr])]
    exact ha
  simp only [readers, List.mem_cons, List.not_mem_nil, or_false] at hf
  rcases hf with rfl | rfl | rfl | rfl | rfl | rfl | rfl | rfl | rfl | rfl | rfl | rfl | rfl | rfl | rfl | rfl | rfl | rfl | rfl |
    rfl | rfl | rfl | rfl | rfl | rfl
  case inr.inr.inr.inr.inr.inr.inr.inr.inr.inr.inr.inr.inr.inr.inl =>
    refine ⟨_, single_enc hwf hne hsz _ (fun _ => rfl), ?_⟩
    intro p hp
    simp only [Option.mem_toList, Option.mem_def, Option.map_eq_some_iff] at hp
    obtain ⟨a, ha, rfl⟩ := hp
    have h1 := (find_grants ha).2.1
    refine ⟨a, ?_, by rw [h1]; rfl⟩
    unfold Listed
    rw [if_pos h1]
    exact ha
  case inr.inr.inr.inr.inr.inr.inr.inr.inr.inr.inr.inr.inr.inr.inr.inl =>
    refine ⟨_, single_sub_enc hwf hne hsz _, ?_⟩
    intro p hp
    simp only [Option.mem_toList, Option.mem_def, Option.map_eq_some_iff] at hp
    obtain ⟨a, ha, rfl⟩ := hp
    have h1 := (find_grants ha).2.1
    refine ⟨a, ?_, by rw [h1]; rfl⟩
    unfold Listed
    rw [if_neg (by rw [h1]; decide), if_pos h1]
    exact ha
  all_goals first
    | exact S _ _ rfl (fun _ => rfl)
    | exact E _ _ rfl (by decide) (by decide) (fun _ => rfl)

/-- Reading a stored role never fails; what is listed are the permissions read for the actions looked at. -/
theorem fromRole_enc : ∃ l, fromRole (encActs 0 as) = .ok l ∧ ∀ p, p ∈ l ↔ ∃ a, Listed as a ∧ dec a.ty a.data = some p := by
  obtain ⟨l, e, hl⟩ := gather_mem (encActs 0 as) readers
    (fun f hf => by obtain ⟨l, h, _⟩ := readers_ok hwf hne hsz f hf; exact ⟨l, h⟩)
  refine ⟨l, e, fun p => ?_⟩
  rw [hl]
  constructor
  · rintro ⟨f, hf, l', e', hp⟩
    obtain ⟨l2, h2, h3⟩ := readers_ok hwf hne hsz f hf
    rw [e'] at h2; cases h2
    exact h3 p hp
  · rintro ⟨a, hs, hd⟩
    obtain ⟨ty, d⟩ := a
    have S : ∀ (key : Bytes) (g : Bytes → Permission) (i : Nat), readers[i]? = some (single ty key g) → g d = p →
        single ty key g (encActs 0 as) = .ok (((as.find? (fun a => a.grants ty key)).map fun a => g a.data).toList) →
        as.find? (fun x => x.grants ty key) = some ⟨ty, d⟩ → ∃ f ∈ readers, ∃ l', f (encActs 0 as) = .ok l' ∧ p ∈ l' := by
      intro key g i hi hg he hf
      refine ⟨_, List.mem_of_getElem? hi, _, he, ?_⟩
      rw [hf]; simp [hg]
    have E : ∀ (g : Bytes → Permission) (i : Nat), readers[i]? = some (every ty g) → g d = p →
        ⟨ty, d⟩ ∈ as → ∃ f ∈ readers, ∃ l', f (encActs 0 as) = .ok l' ∧ p ∈ l' := by
      intro g i hi hg hf
      refine ⟨_, List.mem_of_getElem? hi, _, every_enc hwf hne hsz ty g, ?_⟩
      simp only [List.mem_map, List.mem_filter, decide_eq_true_eq]
      exact ⟨_, ⟨hf, rfl⟩, hg⟩
    simp only [dec] at hd
    split at hd
    all_goals cases hd
    · exact S [] _ 3 rfl rfl (single_enc hwf hne hsz _ (by decide)) hs
    · exact S [] _ 4 rfl rfl (single_enc hwf hne hsz _ (by decide)) hs
    · exact E _ 13 rfl rfl hs
    · exact S _ _ 14 rfl rfl (single_enc hwf hne hsz _ (fun _ => rfl)) hs
    · exact E _ 5 rfl rfl hs
    · exact E _ 6 rfl rfl hs
    · exact S [] _ 0 rfl rfl (single_enc hwf hne hsz _ (by decide)) hs
    · exact S [] _ 1 rfl rfl (single_enc hwf hne hsz _ (by decide)) hs
    · refine ⟨_, List.mem_of_getElem? (i := 15) rfl, _, single_sub_enc hwf hne hsz _, ?_⟩
      rw [show as.find? (fun a => a.grants P.subAccount (zeros 32)) = some ⟨9, d⟩ from hs]; simp
    · exact S [] _ 21 rfl rfl (single_enc hwf hne hsz _ (by decide)) hs
    · exact S [] _ 22 rfl rfl (single_enc hwf hne hsz _ (by decide)) hs
    · exact S [] _ 23 rfl rfl (single_enc hwf hne hsz _ (by decide)) hs
    · exact S [] _ 11 rfl rfl (single_enc hwf hne hsz _ (by decide)) hs
    · exact S [] _ 12 rfl rfl (single_enc hwf hne hsz _ (by decide)) hs
    · exact S [] _ 24 rfl rfl (single_enc hwf hne hsz _ (by decide)) hs
    · exact E _ 9 rfl rfl hs
    · exact E _ 10 rfl rfl hs
    · exact E _ 7 rfl rfl hs
    · exact E _ 8 rfl rfl hs
    · exact E _ 2 rfl rfl hs
    · exact S [] _ 16 rfl rfl (single_enc hwf hne hsz _ (by decide)) hs
    · exact E _ 17 rfl rfl hs
    · exact E _ 18 rfl rfl hs
    · exact E _ 19 rfl rfl hs
    · exact E _ 20 rfl rfl hs
end

end Sdk
end Verif
