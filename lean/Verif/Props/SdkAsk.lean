import Verif.Props.SdkLookup
import Verif.Props.Sdk
import Verif.Props.Sign
import Verif.Props.Allowed

/-!
# Property C85: the questions of the Rust SDK about a role

`has_all_permissions`, `can_manage_authority`, `get_sol_limit`, `get_recurring_sol_limit`, `can_spend_sol`, `get_role_count`,
`get_authority_type`, `is_session_based`, `get_authority_identity` and `get_current_authority_permissions` answer from the stored roles;
the statements say what a true answer means for requests to the program, and where it means nothing.
-/

namespace Verif
open Client Sdk

/-! ## What is listed of SOL limits -/

/-- The SOL limits listed for a role. -/
def isSol : Permission → Bool
  | .sol .. => true
  | _ => false

private theorem gather_append (acts : Bytes) : ∀ (fs gs : List (Bytes → R (List Permission))) (l1 l2 : List Permission),
    gather acts fs = .ok l1 → gather acts gs = .ok l2 → gather acts (fs ++ gs) = .ok (l1 ++ l2)
  | [], _, l1, l2, h1, h2 => by cases h1; exact h2
  | f :: fs, gs, l1, l2, h1, h2 => by
    simp only [gather, bind_ok_iff] at h1
    obtain ⟨p, hp, q, hq, h1⟩ := h1
    cases h1
    simp [gather, hp, gather_append acts fs gs q l2 hq h2]

private theorem gather_split (acts : Bytes) : ∀ (fs gs : List (Bytes → R (List Permission))) (l : List Permission),
    gather acts (fs ++ gs) = .ok l → ∃ l1 l2, gather acts fs = .ok l1 ∧ gather acts gs = .ok l2 ∧ l = l1 ++ l2
  | [], _, l, h => ⟨[], l, rfl, h, rfl⟩
  | f :: fs, gs, l, h => by
    simp only [List.cons_append, gather, bind_ok_iff] at h
    obtain ⟨p, hp, q, hq, h⟩ := h
    cases h
    obtain ⟨l1, l2, e1, e2, rfl⟩ := gather_split acts fs gs q hq
    exact ⟨p ++ l1, l2, by simp [gather, hp, e1], e2, by simp⟩

/-- A lookup that lists no SOL limits. -/
private def NoSol (f : Bytes → R (List Permission)) : Prop := ∀ acts l, f acts = .ok l → ∀ p ∈ l, isSol p = false

private theorem noSol_single (ty : Nat) (key : Bytes) (g : Bytes → Permission) (h : ∀ d, isSol (g d) = false) : NoSol (single ty key g) := by
  intro acts l e p hp
  simp only [single, bind_ok_iff] at e
  obtain ⟨o, _, e⟩ := e
  cases o with
  | none => cases e; cases hp
  | some d =>
    cases e
    simp only [List.mem_singleton] at hp
    rw [hp]; exact h _

private theorem noSol_every (ty : Nat) (g : Bytes → Permission) (h : ∀ d, isSol (g d) = false) : NoSol (every ty g) := by
  intro acts l e p hp
  simp only [every, bind_ok_iff] at e
  obtain ⟨o, _, e⟩ := e
  cases e
  obtain ⟨d, _, rfl⟩ := List.mem_map.mp hp
  exact h _

private theorem noSol_gather (acts : Bytes) : ∀ (fs : List (Bytes → R (List Permission))) (l : List Permission), (∀ f ∈ fs, NoSol f) →
    gather acts fs = .ok l → ∀ p ∈ l, isSol p = false
  | [], l, _, h => by cases h; simp
  | f :: fs, l, hf, h => by
    simp only [gather, bind_ok_iff] at h
    obtain ⟨p, hp, q, hq, h⟩ := h
    cases h
    intro x hx
    rcases List.mem_append.mp hx with hx | hx
    · exact hf f (by simp) acts p hp x hx
    · exact noSol_gather acts fs q (fun g hg => hf g (by simp [hg])) hq x hx

/-- The fixed limit, then the recurring one. -/
def solShown (r : Role) : List Permission :=
  ((r.limit? P.solLimit []).map fun d => Permission.sol (rd d 0 8) none).toList ++
    ((r.limit? P.solRecurringLimit []).map fun d => Permission.sol (rd d 0 8) (some ⟨rd d 8 8, rd d 16 8, rd d 24 8⟩)).toList

private theorem shown_sol {w : Wallet} (hw : w.WF) {id : Nat} {r : Role} (hr : w.role? id = some r) {l : List Permission}
    (hl : rolePermissions w.encode id = .ok (some l)) :
    ∃ A B, l = A ++ (solShown r ++ B) ∧ (∀ p ∈ A, isSol p = false) ∧ ∀ p ∈ B, isSol p = false := by
  have hm := (hw.role?_iff.mp hr).1
  have hrw := hw.roles r hm
  have hsz := (hw.actsSize_lt hm).2
  have hg : gather (encActs 0 r.actions) readers = .ok l := by
    rcases getRole_wallet hw id with ⟨hn, _⟩ | ⟨r', v, k1, k2, _, _, _, _, k7⟩
    · rw [hr] at hn; cases hn
    · rw [hr] at k1
      cases k1
      simp only [rolePermissions, withRole, k2, ok_bind, k7, bind_ok_iff] at hl
      obtain ⟨x, hx, hl⟩ := hl
      cases hl
      exact hx
  have e : readers = readers.take 3 ++ ((readers.drop 3).take 2 ++ readers.drop 5) := rfl
  rw [e] at hg
  obtain ⟨A, X, hA, hX, rfl⟩ := gather_split _ _ _ _ hg
  obtain ⟨S, B, hS, hB, rfl⟩ := gather_split _ _ _ _ hX
  refine ⟨A, B, ?_, noSol_gather _ _ _ ?_ hA, noSol_gather _ _ _ ?_ hB⟩
  · have : S = solShown r := by
      have hS : gather (encActs 0 r.actions) [single P.solLimit [] (fun d => .sol (rd d 0 8) none),
        single P.solRecurringLimit [] (fun d => .sol (rd d 0 8) (some ⟨rd d 8 8, rd d 16 8, rd d 24 8⟩))] = .ok S := hS
      simp only [gather, single_enc hrw.acts hrw.nonempty hsz _ (show repeatable P.solLimit = true → ([] : Bytes).length = keyLen P.solLimit by decide),
        single_enc hrw.acts hrw.nonempty hsz _ (show repeatable P.solRecurringLimit = true → ([] : Bytes).length = keyLen P.solRecurringLimit by decide),
        ok_bind] at hS
      cases hS
      simp [solShown, Role.limit?, payload?, Option.map_map, Function.comp_def]
    rw [this]
  · intro f hf
    simp only [readers, List.take, List.mem_cons, List.not_mem_nil, or_false] at hf
    rcases hf with rfl | rfl | rfl <;>
      first | exact noSol_single _ _ _ (fun _ => rfl) | exact noSol_every _ _ (fun _ => rfl)
  · intro f hf
    simp only [readers, List.drop, List.mem_cons, List.not_mem_nil, or_false] at hf
    rcases hf with rfl | rfl | rfl | rfl | rfl | rfl | rfl | rfl | rfl | rfl | rfl | rfl | rfl | rfl | rfl | rfl | rfl | rfl | rfl | rfl <;>
      first | exact noSol_single _ _ _ (fun _ => rfl) | exact noSol_every _ _ (fun _ => rfl)

private theorem solLimitOf_skip : ∀ (A X : List Permission), (∀ p ∈ A, isSol p = false) → solLimitOf (A ++ X) = solLimitOf X
  | [], _, _ => rfl
  | p :: A, X, h => by
    have h1 := h p (by simp)
    have h2 := solLimitOf_skip A X (fun q hq => h q (by simp [hq]))
    cases p <;> first | exact h2 | cases h1

private theorem recurringOf_skip : ∀ (A X : List Permission), (∀ p ∈ A, isSol p = false) → recurringSolLimitOf (A ++ X) = recurringSolLimitOf X
  | [], _, _ => rfl
  | p :: A, X, h => by
    have h1 := h p (by simp)
    have h2 := recurringOf_skip A X (fun q hq => h q (by simp [hq]))
    cases p <;> first | exact h2 | cases h1

private theorem spendLoop_iff (n : Nat) : ∀ l : List Permission, spendLoop n l = true ↔
    ∃ a rec, Permission.sol a rec ∈ l ∧ (n ≤ a ∨ ∃ c, rec = some c ∧ n ≤ c.current)
  | [] => by simp [spendLoop]
  | p :: ps => by
    have ih := spendLoop_iff n ps
    cases p
    case sol a rec =>
      simp only [spendLoop]
      by_cases h : n ≤ a
      · rw [if_pos h]
        exact ⟨fun _ => ⟨a, rec, by simp, .inl h⟩, fun _ => rfl⟩
      · rw [if_neg h]
        cases rec with
        | none =>
          rw [ih]
          constructor
          · rintro ⟨a', rec', h1, h2⟩
            exact ⟨a', rec', List.mem_cons_of_mem _ h1, h2⟩
          · rintro ⟨a', rec', h1, h2⟩
            simp only [List.mem_cons, Permission.sol.injEq] at h1
            rcases h1 with ⟨rfl, rfl⟩ | h1
            · rcases h2 with h2 | ⟨c, h2, _⟩
              · exact absurd h2 h
              · cases h2
            · exact ⟨a', rec', h1, h2⟩
        | some c =>
          dsimp only
          by_cases hc : n ≤ c.current
          · rw [if_pos hc]
            exact ⟨fun _ => ⟨a, some c, by simp, .inr ⟨c, rfl, hc⟩⟩, fun _ => rfl⟩
          · rw [if_neg hc, ih]
            constructor
            · rintro ⟨a', rec', h1, h2⟩
              exact ⟨a', rec', List.mem_cons_of_mem _ h1, h2⟩
            · rintro ⟨a', rec', h1, h2⟩
              simp only [List.mem_cons, Permission.sol.injEq] at h1
              rcases h1 with ⟨rfl, rfl⟩ | h1
              · rcases h2 with h2 | ⟨c', h2, h3⟩
                · exact absurd h2 h
                · cases h2; exact absurd h3 hc
              · exact ⟨a', rec', h1, h2⟩
    all_goals
      simp only [spendLoop]
      rw [ih]
      simp

private theorem sol_mem {A B : List Permission} (hA : ∀ p ∈ A, isSol p = false) (hB : ∀ p ∈ B, isSol p = false) (r : Role) (a : Nat)
    (rec : Option Recurring) : Permission.sol a rec ∈ A ++ (solShown r ++ B) ↔ Permission.sol a rec ∈ solShown r := by
  simp only [List.mem_append]
  constructor
  · rintro (h | h | h)
    · exact absurd (hA _ h) (by simp [isSol])
    · exact h
    · exact absurd (hB _ h) (by simp [isSol])
  · exact fun h => .inr (.inl h)

section
variable {w : Wallet} (hw : w.WF) {id : Nat} {r : Role} (hr : w.role? id = some r) {l : List Permission}
  (hl : rolePermissions w.encode id = .ok (some l))
include hw hr hl

private theorem listed_iff (p : Permission) : p ∈ l ↔ ∃ a, Listed r.actions a ∧ dec a.ty a.data = some p := by
  obtain ⟨l', h1, h2⟩ := rolePermissions_wallet hw hr
  rw [hl] at h1
  cases h1
  exact h2 p

/-! ## Statements -/

/-- `has_all_permissions` is true exactly for roles that hold All. -/
theorem C85_all : hasAll l = true ↔ r.holds P.all := by
  have hL := listed_iff hw hr hl
  have e : hasAll l = true ↔ Permission.all ∈ l := by
    simp only [hasAll, List.any_eq_true]
    constructor
    · rintro ⟨p, hp, h⟩
      cases p <;> first | exact hp | cases h
    · exact fun h => ⟨_, h, rfl⟩
  rw [e, hL]
  constructor
  · rintro ⟨a, ha, hd⟩
    refine ⟨a, ha.mem, ?_⟩
    unfold dec at hd
    split at hd <;> first | assumption | cases hd
  · rintro ⟨a, ha, h⟩
    obtain ⟨b, hb⟩ : ∃ b, r.actions.find? (fun x => x.grants P.all []) = some b := by
      cases hf : r.actions.find? (fun x => x.grants P.all []) with
      | some b => exact ⟨b, rfl⟩
      | none =>
        have := List.find?_eq_none.mp hf a ha
        simp [Act.grants, h, repeatable] at this
    have h1 := (find_grants hb).2.1
    refine ⟨b, ?_, by rw [h1]; rfl⟩
    unfold Listed
    rw [if_neg (by rw [h1]; decide), if_neg (by rw [h1]; decide), if_neg (by rw [h1]; decide), h1]
    exact hb

/-- `can_manage_authority` is true exactly for roles that hold ManageAuthority. -/
theorem C85_manage_partial : canManage l = true ↔ r.holds P.manageAuthority := by
  have hL := listed_iff hw hr hl
  have e : canManage l = true ↔ Permission.manageAuthority ∈ l := by
    simp only [canManage, List.any_eq_true]
    constructor
    · rintro ⟨p, hp, h⟩
      cases p <;> first | exact hp | cases h
    · exact fun h => ⟨_, h, rfl⟩
  rw [e, hL]
  constructor
  · rintro ⟨a, ha, hd⟩
    refine ⟨a, ha.mem, ?_⟩
    unfold dec at hd
    split at hd <;> first | assumption | cases hd
  · rintro ⟨a, ha, h⟩
    obtain ⟨b, hb⟩ : ∃ b, r.actions.find? (fun x => x.grants P.manageAuthority []) = some b := by
      cases hf : r.actions.find? (fun x => x.grants P.manageAuthority []) with
      | some b => exact ⟨b, rfl⟩
      | none =>
        have := List.find?_eq_none.mp hf a ha
        simp [Act.grants, h, repeatable] at this
    have h1 := (find_grants hb).2.1
    refine ⟨b, ?_, by rw [h1]; rfl⟩
    unfold Listed
    rw [if_neg (by rw [h1]; decide), if_neg (by rw [h1]; decide), if_neg (by rw [h1]; decide), h1]
    exact hb

/-- `get_sol_limit` is what is left of the fixed limit; without one it is the full amount of the recurring limit; without either it is
nothing. -/
theorem C85_sol_limit :
    (∀ d, r.limit? P.solLimit [] = some d → solLimitOf l = some (rd d 0 8)) ∧
    (∀ d, r.limit? P.solLimit [] = none → r.limit? P.solRecurringLimit [] = some d → solLimitOf l = some (rd d 0 8)) ∧
    (r.limit? P.solLimit [] = none → r.limit? P.solRecurringLimit [] = none → solLimitOf l = none) := by
  obtain ⟨A, B, rfl, hA, hB⟩ := shown_sol hw hr hl
  rw [solLimitOf_skip _ _ hA]
  have hBn : solLimitOf B = none := by
    have := solLimitOf_skip B [] hB
    rw [List.append_nil] at this
    exact this
  refine ⟨fun d h => ?_, fun d h1 h2 => ?_, fun h1 h2 => ?_⟩
  · simp [solShown, h, solLimitOf]
  · simp [solShown, h1, h2, solLimitOf]
  · simp [solShown, h1, h2, hBn]

/-- `get_recurring_sol_limit` is the recurring limit of the role, if it has no fixed SOL limit. -/
theorem C85_recurring_partial (hn : r.limit? P.solLimit [] = none) :
    recurringSolLimitOf l = (r.limit? P.solRecurringLimit []).map fun d => ⟨rd d 8 8, rd d 16 8, rd d 24 8⟩ := by
  obtain ⟨A, B, rfl, hA, hB⟩ := shown_sol hw hr hl
  rw [recurringOf_skip _ _ hA]
  have hBn : recurringSolLimitOf B = none := by
    have := recurringOf_skip B [] hB
    rw [List.append_nil] at this
    exact this
  cases h : r.limit? P.solRecurringLimit [] with
  | none => simp [solShown, h, hn, hBn]
  | some d => simp [solShown, h, hn, recurringSolLimitOf]

/-- A role that also has a fixed limit: nothing is returned. -/
theorem C85_recurring_hidden {d : Bytes} (hf : r.limit? P.solLimit [] = some d) : recurringSolLimitOf l = none := by
  obtain ⟨A, B, rfl, hA, hB⟩ := shown_sol hw hr hl
  rw [recurringOf_skip _ _ hA]
  simp [solShown, hf, recurringSolLimitOf]

/-- When `can_spend_sol` says yes. -/
theorem C85_spend (n : Nat) : canSpendSol l n = true ↔ r.holds P.all ∨ (∃ d, r.limit? P.solLimit [] = some d ∧ n ≤ rd d 0 8) ∨
    ∃ d, r.limit? P.solRecurringLimit [] = some d ∧ (n ≤ rd d 0 8 ∨ n ≤ rd d 24 8) := by
  have hall := C85_all hw hr hl
  unfold canSpendSol
  by_cases h : hasAll l = true
  · rw [if_pos h]
    exact ⟨fun _ => .inl (hall.mp h), fun _ => rfl⟩
  · rw [if_neg h, spendLoop_iff]
    obtain ⟨A, B, rfl, hA, hB⟩ := shown_sol hw hr hl
    simp only [sol_mem hA hB]
    constructor
    · rintro ⟨a, rec, h1, h2⟩
      right
      simp only [solShown, List.mem_append, Option.mem_toList, Option.map_eq_some_iff, Permission.sol.injEq] at h1
      rcases h1 with ⟨d, hd, rfl, rfl⟩ | ⟨d, hd, rfl, rfl⟩
      · left
        rcases h2 with h2 | ⟨c, h2, _⟩
        · exact ⟨d, hd, h2⟩
        · cases h2
      · right
        refine ⟨d, hd, ?_⟩
        rcases h2 with h2 | ⟨c, h2, h3⟩
        · exact .inl h2
        · cases h2; exact .inr h3
    · rintro (h1 | ⟨d, hd, h1⟩ | ⟨d, hd, h1⟩)
      · exact absurd (hall.mpr h1) h
      · exact ⟨rd d 0 8, none, by simp [solShown, hd], .inl h1⟩
      · exact ⟨rd d 0 8, some ⟨rd d 8 8, rd d 16 8, rd d 24 8⟩, by simp [solShown, hd], h1.elim .inl fun h => .inr ⟨_, rfl, h⟩⟩

end

/-! ### No means no -/

private theorem charge_bound {l l' : SolRecurringLimit} {c : Charge} (h : l.charge c = .ok l') :
    c.amount ≤ max l.recurringAmount l.currentAmount ∧ l'.recurringAmount = l.recurringAmount ∧
      l'.currentAmount ≤ max l.recurringAmount l.currentAmount := by
  simp only [SolRecurringLimit.charge, SolRecurringLimit.run, bind_ok_iff] at h
  obtain ⟨x, hx, h⟩ := h
  unfold SolRecurringLimit.refill at hx
  split at hx
  · split at hx
    · cases hx
    · cases hx
      dsimp only at h
      split at h
      · cases h
      · cases h
        dsimp only at *
        exact ⟨by omega, rfl, by omega⟩
  · cases hx
    split at h
    · cases h
    · cases h
      dsimp only at *
      exact ⟨by omega, rfl, by omega⟩

private theorem play_bound : ∀ (cs : List Charge) (l l' : SolRecurringLimit), play SolRecurringLimit.charge l cs = (l', cs) →
    ∀ c ∈ cs, c.amount ≤ max l.recurringAmount l.currentAmount
  | [], _, _, _ => by simp
  | c :: cs, l, l', h => by
    simp only [play] at h
    split at h
    · rename_i s' hs
      have hb := charge_bound hs
      generalize hp : play SolRecurringLimit.charge s' cs = q at h
      obtain ⟨f, ok⟩ := q
      simp only [Prod.mk.injEq, List.cons.injEq, true_and] at h
      obtain ⟨rfl, rfl⟩ := h
      intro x hx
      rcases List.mem_cons.mp hx with rfl | hx
      · exact hb.1
      · have := play_bound _ _ _ hp x hx
        omega
    · exfalso
      have hlen : ∀ (is : List Charge) (s : SolRecurringLimit), (play SolRecurringLimit.charge s is).2.length ≤ is.length := by
        intro is
        induction is with
        | nil => intro s; simp [play]
        | cons i is ih =>
          intro s
          simp only [play]
          split
          · rename_i s' _
            have := ih s'
            simpa using this
          · have := ih s
            simp only [List.length_cons]
            omega
      have h1 := hlen cs l
      rw [h] at h1
      simp only [List.length_cons] at h1
      omega

/-- When `can_spend_sol` says no for `n`, a role without All and AllButManageAuthority signs nothing that costs the wallet address `n` or
more, unless its only SOL limits are limits for destinations. -/
theorem C85_no_means_no_partial {env : Env} {cpi : Cpi} {m m' : Mem} {swig wallet : Meta} {rest : List Meta} {ix : Bytes} {w : Wallet} {r : Role}
    (h : RestrictedSign env cpi m m' swig wallet rest ix w r) {l : List Permission} (hl : rolePermissions w.encode (rd ix 4 4) = .ok (some l))
    {n : Nat} (hn : 0 < n) (hno : canSpendSol l n = false)
    (hd : r.limit? P.solLimit [] = none → r.limit? P.solRecurringLimit [] = none → NoSolDest r.actions) :
    ∃ ixs m1, AfterCalls env cpi m (swig :: wallet :: rest) swig wallet ix w ixs m1 ∧
      (ConfigClash env m m1 swig ix w ∨ (m wallet.key).lamports < (m' wallet.key).lamports + n) := by
  have hs := C85_spend h.wf h.role hl n
  rw [hno] at hs
  have hs : ¬ _ := fun x => absurd (hs.mpr x) (by simp)
  cases hf : r.limit? P.solLimit [] with
  | some d =>
    obtain ⟨ixs, m1, h1, h2 | ⟨w', r', d', _, _, h3, h4⟩⟩ := C52_sol_limit h hf
    · exact ⟨ixs, m1, h1, .inl h2⟩
    · refine ⟨ixs, m1, h1, .inr ?_⟩
      have : ¬ n ≤ rd d 0 8 := fun g => hs (.inr (.inl ⟨d, hf, g⟩))
      omega
  | none =>
    cases hrec : r.limit? P.solRecurringLimit [] with
    | none =>
      have hx : ∀ a ∈ r.actions, a.ty ≠ P.solLimit ∧ a.ty ≠ P.solRecurringLimit ∧ a.ty ≠ P.solDestinationLimit ∧
          a.ty ≠ P.solRecurringDestinationLimit := by
        intro a ha
        have none_ty : ∀ ty, repeatable ty = false → r.limit? ty [] = none → a.ty ≠ ty := by
          intro ty hrep hnone e
          simp only [Role.limit?, payload?, Option.map_eq_none_iff] at hnone
          have := List.find?_eq_none.mp hnone a ha
          simp [Act.grants, e, hrep] at this
        exact ⟨none_ty _ rfl hf, none_ty _ rfl hrec, (hd hf hrec a ha).1, (hd hf hrec a ha).2⟩
      obtain ⟨ixs, m1, h1, h2⟩ := C52_no_limit h hx
      exact ⟨ixs, m1, h1, h2.imp id fun g => by omega⟩
    | some d =>
      obtain ⟨ixs, m1, h1, h2 | ⟨x, cls, hs', total, acc, as', o⟩⟩ := h.out
      · exact ⟨ixs, m1, h1, .inl h2⟩
      · refine ⟨ixs, m1, h1, .inr ?_⟩
        obtain ⟨d', e1, e2⟩ := (o.plays.payload h.acts).2.2 _ _ _ hrec
        have e3 := chargeList_solRec h.runtime.slot (payload?_len h.acts hrec (n := 32) rfl) e2
        have hlam := o.lamports
        by_cases ht : total = 0
        · omega
        · have hmem := amounts_mem (c := ⟨P.solRecurringLimit, [], total⟩) (ty := P.solRecurringLimit) (key := [])
            (cs := (if total = 0 then [] else solSeg x r.actions total) ++ acc.flatMap fun e => segOf x m1 r.actions e.1 e.2) (by
              rw [if_neg ht]
              refine List.mem_append_left _ (List.mem_append_left _ ?_)
              unfold eitherSeg
              rw [show payload? r.actions P.solLimit [] = none from hf, show payload? r.actions P.solRecurringLimit [] = some d from hrec]
              simp) rfl (fun _ => rfl)
          have hb := play_bound _ _ _ e3 ⟨total, env.slot⟩ (List.mem_map.mpr ⟨total, hmem, rfl⟩)
          have : ¬ (n ≤ rd d 0 8 ∨ n ≤ rd d 24 8) := fun g => hs (.inr (.inr ⟨d, hrec, g⟩))
          simp only [SolRecurringLimit.of] at hb
          omega

/-! ### Yes means yes, for fixed limits -/

private theorem sol_takes {acts : List Act} (hwf : ∀ a ∈ acts, a.WF) {d : Bytes} (hl : payload? acts P.solLimit [] = some d) {n slot : Nat}
    (hn : n ≤ rd d 0 8) : ∃ acts', SolTakes acts acts' n slot := by
  simp only [payload?, Option.map_eq_some_iff] at hl
  obtain ⟨a, ha, rfl⟩ := hl
  obtain ⟨hg, pre, post, e, hpre⟩ := List.find?_eq_some_iff_append.mp ha
  have hm : a ∈ acts := List.mem_of_find?_eq_some ha
  have hlen : a.data.length = 8 := by
    have hw : actionLen a.ty = some a.data.length := hwf a hm
    have hty := (of_decide_eq_true hg).1
    rw [hty] at hw
    have : actionLen P.solLimit = some 8 := rfl
    rw [this] at hw
    simpa using hw.symm
  have ea : (Action.solLimit (rd a.data 0 8)).toAct = a := by
    obtain ⟨ty, data⟩ := a
    have hty : ty = P.solLimit := (of_decide_eq_true hg).1
    subst hty
    simp only [Action.toAct]
    congr 1
    simp only at hlen
    have := natLE_rd (b := data) (i := 0) (k := 8) (by omega)
    rw [show sl data 0 (0 + 8) = data by simp [sl]; exact List.take_of_length_le (by omega)] at this
    exact this
  refine ⟨pre ++ (Action.solLimit (rd a.data 0 8 - n)).toAct :: post, .solLimit (rd a.data 0 8), .solLimit (rd a.data 0 8 - n), ⟨rd_lt _ _ 8, ?_, pre, post, ?_, rfl, ?_⟩, rfl, .inl rfl⟩
  · simp [Action.spend, hn]
  · rw [ea]; exact e
  · intro x hx
    have := hpre x hx
    have : ¬ x.grants P.solLimit [] := by simpa using this
    exact this

/-- When `can_spend_sol` says yes for `n` and the role is not limited otherwise — it is a role with a fixed SOL limit, without recurring
limit and without limits for destinations — a payment of `n` to any address is accepted. -/
theorem C85_yes_means_yes_partial {env : Env} {cpi : Cpi} {m : Mem} {metas : List Meta} {swig wallet payer : Key} {w : Wallet} {role : Nat}
    {signers : List Key} {r : Role} {a : Auth} {c : Caller} {pre post : List TxIx} {dst : Key} {n : Nat}
    (h : Asks env m metas swig wallet payer w role (solPayment wallet dst n) signers r a c pre post)
    (hsys : ∀ (m : Mem) (a b : Meta) (n : Nat), (m b.key).lamports + n < 2 ^ 64 →
      cpi m ⟨systemId, [a, b], natLE 4 2 ++ natLE 8 n⟩ = sysTransfer m a b n)
    (hfits : (m dst).lamports + n < 2 ^ 64) (hn : n ≠ 0) (hdst : dst ≠ wallet) (hwr : Writable metas wallet ∧ Writable metas dst)
    (hempty : (m wallet).data = []) (hrent : env.rent 0 + n ≤ (m wallet).lamports)
    (hlive : ∀ x ∈ metas, TokenOf m wallet x.key → (m x.key).lamports ≠ 0 ∧ (m x.key).data.getD 108 0 = 1)
    (hrec : r.limit? P.solRecurringLimit [] = none) (hnd : NoSolDest r.actions)
    {l : List Permission} (hl : rolePermissions w.encode role = .ok (some l)) (hyes : canSpendSol l n = true) :
    ∃ m', process env cpi m metas (Client.signV2 env swig wallet payer role (solPayment wallet dst n) signers c).data = .ok m' ∧
      (m' wallet).lamports + n = (m wallet).lamports ∧ (m' dst).lamports = (m dst).lamports + n := by
  have hw := h.ready.wf
  have hr := h.ready.role
  rcases (C85_spend hw hr hl n).mp hyes with ⟨x, hx, ht⟩ | ⟨d, hd, hle⟩ | ⟨d, hd, _⟩
  · exact absurd ht (h.restricted x hx).1
  · obtain ⟨acts', ht⟩ := sol_takes (slot := env.slot) (hw.roles r (role?_mem hr).1).acts hd hle
    obtain ⟨m', h1, h2, h3, _⟩ := C79_pay_sol h hsys hfits hn hdst hwr hempty hrent hlive (.inl ⟨ht, hnd⟩)
    exact ⟨m', h1, h2, h3⟩
  · rw [hrec] at hd; cases hd

/-! ### What a role is -/

/-- What identifies an authority: its key, for program execution the prefix of the instruction data. -/
def Auth.shown (a : Auth) : Bytes :=
  match a.cred with
  | .ed25519 pk => pk
  | .secp256k1 pk _ _ => pk
  | .secp256r1 pk _ _ => pk
  | .exec _ n _ buf => buf.take n.toNat

/-- Type, kind and identity of a role are those of the authority it stores. -/
theorem C85_authority {w : Wallet} (hw : w.WF) {id : Nat} {r : Role} (hr : w.role? id = some r) {a : Auth} (ha : r.Stores a) (hf : a.PrefixFits) :
    authorityType w.encode id = .ok (some a.ty) ∧ isSessionBased w.encode id = .ok (some a.session.isSome) ∧
      authorityIdentity w.encode id = .ok (some a.shown) := by
  rcases getRole_wallet hw id with ⟨hn, _⟩ | ⟨r', v, k1, k2, _, k4, k5, _, _⟩
  · rw [hr] at hn; cases hn
  · rw [hr] at k1
    cases k1
    obtain ⟨hwf, ht, he⟩ := ha
    have hc := hwf.cred
    simp only [authorityType, isSessionBased, authorityIdentity, withRole, k2, ok_bind, k4, k5, ← ht, ← he]
    obtain ⟨c, s⟩ := a
    refine ⟨trivial, ?_, ?_⟩
    · cases c <;> cases s <;> rfl
    · have key : identity (Auth.ty ⟨c, s⟩) (Auth.encode ⟨c, s⟩) = .ok (Auth.shown ⟨c, s⟩) := by
        cases c with
        | ed25519 pk =>
          have hl : pk.length = 32 := hc
          cases s <;> simp [identity, Auth.ty, Auth.encode, Cred.encode, Auth.shown, T.ed25519, T.ed25519Session, sl, hl, List.take_of_length_le]
        | secp256k1 pk pad n =>
          obtain ⟨h1, h2, _⟩ := hc
          cases s <;> simp [identity, Auth.ty, Auth.encode, Cred.encode, Auth.shown, T.ed25519, T.ed25519Session, T.programExec,
            T.programExecSession, sl, h1]
        | secp256r1 pk pad n =>
          obtain ⟨h1, h2, _⟩ := hc
          cases s <;> simp [identity, Auth.ty, Auth.encode, Cred.encode, Auth.shown, T.ed25519, T.ed25519Session, T.programExec,
            T.programExecSession, sl, h1]
        | exec p n pad buf =>
          obtain ⟨h1, h2, h3⟩ := hc
          have h40 := hf p n pad buf rfl
          have hb : ∀ tl : Bytes, identity 7 (p ++ [n] ++ pad ++ buf ++ tl) = .ok (buf.take n.toNat) := by
            intro tl
            have g : (p ++ [n] ++ pad ++ buf ++ tl).getD 32 0 = n := by simp [List.getD, h1]
            have hs : sl (p ++ [n] ++ pad ++ buf ++ tl) 40 80 = buf := by
              have e : (p ++ [n] ++ pad ++ buf ++ tl) = (p ++ [n] ++ pad) ++ (buf ++ tl) := by simp
              rw [e]
              unfold sl
              rw [List.drop_append, List.drop_of_length_le (by simp [h1, h2])]
              simp [h1, h2, h3]
            unfold identity
            rw [if_neg (by decide), if_pos (.inl rfl), g, hs, slice_ok (Nat.zero_le _) (by omega)]
            simp [sl]
          cases s with
          | none =>
            have := hb []
            simpa [Auth.ty, Auth.encode, Cred.encode, Auth.shown] using this
          | some s =>
            have := hb s.encode
            simpa [Auth.ty, Auth.encode, Cred.encode, Auth.shown, identity, T.programExec, T.programExecSession, T.ed25519, T.ed25519Session] using this
      rw [key]; rfl

private theorem nodup_bound : ∀ (n : Nat) (l : List Nat), l.Nodup → (∀ x ∈ l, x < n) → l.length ≤ n
  | 0, [], _, _ => by simp
  | 0, x :: l, _, h => absurd (h x (by simp)) (by omega)
  | n + 1, l, hd, h => by
    have h1 := nodup_bound n (l.erase n) (hd.erase n) (fun x hx => by
      have h2 := h x (List.mem_of_mem_erase hx)
      have h3 : x ≠ n := fun e => by
        rw [e] at hx
        exact (List.Nodup.not_mem_erase hd) hx
      omega)
    have := List.length_erase (a := n) (l := l)
    split at this <;> omega

/-- `get_role_count` is never less than the number of roles. -/
theorem C85_count_partial {w : Wallet} (hw : w.WF) : roleCount w.encode = .ok w.roleCounter ∧ w.roles.length ≤ w.roleCounter := by
  have hl := Wallet.encode_length hw
  refine ⟨?_, ?_⟩
  · unfold roleCount
    rw [if_neg (by omega), rolesEndOffset_encode hw]
    simp only [ok_bind, Wallet.encode_header hw]
    rfl
  · have := nodup_bound w.roleCounter (w.roles.map Role.id) hw.idsNodup (by
      intro x hx
      obtain ⟨r, hr, rfl⟩ := List.mem_map.mp hx
      exact hw.idsLt r hr)
    simpa using this

/-! ### The permissions of the current authority -/

private theorem currentOf_wallet {w : Wallet} (hw : w.WF) (hf : ∀ r ∈ w.roles, r.PrefixFits) (cred : Bytes) (id : Nat) :
    ∃ v l, getRole w.encode id = .ok v ∧ currentOf cred v = .ok l ∧ ∀ p, p ∈ l ↔ ∃ r a, w.role? id = some r ∧ r.Stores a ∧ a.Named cred ∧
      ((p = .all ∧ r.holds P.all) ∨ p ∈ solShown r) := by
  rcases getRole_wallet hw id with ⟨hn, hg⟩ | ⟨r, v, k1, k2, _, k4, k5, _, k7⟩
  · exact ⟨_, [], hg, rfl, by simp [hn]⟩
  · have hm := (hw.role?_iff.mp k1).1
    have hrw := hw.roles r hm
    have hsz := (hw.actsSize_lt hm).2
    obtain ⟨a, ha⟩ := hrw.stores
    have hmd := matchData_named ha (hf r hm a ha) cred
    by_cases hnm : a.Named cred
    · have hall := single_enc hrw.acts hrw.nonempty hsz (fun _ => Permission.all) (show repeatable P.all = true → ([] : Bytes).length = keyLen P.all by decide)
      have hs1 := single_enc hrw.acts hrw.nonempty hsz (fun d => Permission.sol (rd d 0 8) none)
        (show repeatable P.solLimit = true → ([] : Bytes).length = keyLen P.solLimit by decide)
      have hs2 := single_enc hrw.acts hrw.nonempty hsz (fun d => Permission.sol (rd d 0 8) (some ⟨rd d 8 8, rd d 16 8, rd d 24 8⟩))
        (show repeatable P.solRecurringLimit = true → ([] : Bytes).length = keyLen P.solRecurringLimit by decide)
      have hp : printed P.manageAuthority (encActs 0 r.actions) = .ok [] := by
        unfold printed
        rw [getAction_enc P.manageAuthority [] r.actions hrw.acts hrw.nonempty hsz (by decide)]
        rfl
      have hcur : currentOf cred (some v) = .ok (((r.actions.find? (fun a => a.grants P.all [])).map fun _ => Permission.all).toList ++
          (((r.actions.find? (fun a => a.grants P.solLimit [])).map fun a => Permission.sol (rd a.data 0 8) none).toList ++
            ((r.actions.find? (fun a => a.grants P.solRecurringLimit [])).map fun a =>
              Permission.sol (rd a.data 0 8) (some ⟨rd a.data 8 8, rd a.data 16 8, rd a.data 24 8⟩)).toList)) := by
        simp only [currentOf, k4, k5, hmd, ok_bind, hnm, decide_true, if_true, k7, currentReaders, gather, hall, hs1, hs2, hp, List.append_nil]
      refine ⟨_, _, k2, hcur, ?_⟩
      · intro p
        have hh : (∃ x, r.actions.find? (fun a => a.grants P.all []) = some x) ↔ r.holds P.all := by
          constructor
          · rintro ⟨x, hx⟩
            exact ⟨x, (find_grants hx).1, (find_grants hx).2.1⟩
          · rintro ⟨x, hx, ht⟩
            cases hq : r.actions.find? (fun a => a.grants P.all []) with
            | some b => exact ⟨b, rfl⟩
            | none =>
              have := List.find?_eq_none.mp hq x hx
              simp [Act.grants, ht, repeatable] at this
        have hsol : p ∈ solShown r ↔ (∃ d, r.actions.find? (fun a => a.grants P.solLimit []) = some d ∧ Permission.sol (rd d.data 0 8) none = p) ∨
            ∃ d, r.actions.find? (fun a => a.grants P.solRecurringLimit []) = some d ∧
              Permission.sol (rd d.data 0 8) (some ⟨rd d.data 8 8, rd d.data 16 8, rd d.data 24 8⟩) = p := by
          simp [solShown, Role.limit?, payload?]
        constructor
        · intro hx
          simp only [List.mem_append, Option.mem_toList, Option.map_eq_some_iff] at hx
          refine ⟨r, a, k1, ha, hnm, ?_⟩
          rcases hx with ⟨d, h1, rfl⟩ | h | h
          · exact .inl ⟨rfl, hh.mp ⟨d, h1⟩⟩
          · exact .inr (hsol.mpr (.inl h))
          · exact .inr (hsol.mpr (.inr h))
        · rintro ⟨r', a', g1, _, _, h⟩
          rw [k1] at g1
          cases g1
          simp only [List.mem_append, Option.mem_toList, Option.map_eq_some_iff]
          rcases h with ⟨rfl, h⟩ | h
          · obtain ⟨x, hx⟩ := hh.mpr h
            exact .inl ⟨x, hx, rfl⟩
          · exact .inr (hsol.mp h)
    · refine ⟨_, [], k2, ?_, ?_⟩
      · simp [currentOf, k4, k5, hmd, hnm]
      · intro p
        refine ⟨(fun h => by cases h), ?_⟩
        rintro ⟨r', a', g1, g2, g3, _⟩
        rw [k1] at g1
        cases g1
        have h1 := matchData_named g2 (hf r hm a' g2) cred
        rw [hmd] at h1
        simp only [Except.ok.injEq, decide_eq_decide] at h1
        exact absurd (h1.mpr g3) hnm

/-- `get_current_authority_permissions` lists, over all roles that the credential names, All and the two kinds of general SOL limits, and
nothing else that they hold. -/
theorem C85_current_partial {w : Wallet} (hw : w.WF) (hf : ∀ r ∈ w.roles, r.PrefixFits) (cred : Bytes) :
    ∃ l, currentAuthorityPermissions w.encode cred = .ok l ∧ ∀ p, p ∈ l ↔ ∃ r ∈ w.roles, ∃ a, r.Stores a ∧ a.Named cred ∧
      ((p = .all ∧ r.holds P.all) ∨ p ∈ solShown r) := by
  have key : ∀ n i, ∃ l, currentGo w.encode cred n i = .ok l ∧ ∀ p, p ∈ l ↔ ∃ id, i ≤ id ∧ id < i + n ∧ ∃ r a, w.role? id = some r ∧ r.Stores a ∧
      a.Named cred ∧ ((p = .all ∧ r.holds P.all) ∨ p ∈ solShown r) := by
    intro n
    induction n with
    | zero =>
      intro i
      exact ⟨[], rfl, fun p => ⟨fun h => (by cases h), by rintro ⟨id, h1, h2, _⟩; omega⟩⟩
    | succ n ih =>
      intro i
      obtain ⟨v, l1, h1, h2, h3⟩ := currentOf_wallet hw hf cred i
      obtain ⟨l2, h4, h5⟩ := ih (i + 1)
      refine ⟨l1 ++ l2, by simp [currentGo, h1, h2, h4], fun p => ?_⟩
      rw [List.mem_append, h3, h5]
      constructor
      · rintro (h | ⟨id, g1, g2, g3⟩)
        · exact ⟨i, by omega, by omega, h⟩
        · exact ⟨id, by omega, by omega, g3⟩
      · rintro ⟨id, g1, g2, g3⟩
        by_cases e : id = i
        · subst e; exact .inl g3
        · exact .inr ⟨id, by omega, by omega, g3⟩
  obtain ⟨l, h1, h2⟩ := key w.roleCounter 0
  refine ⟨l, by simp [currentAuthorityPermissions, (C85_count_partial hw).1, h1], fun p => ?_⟩
  rw [h2]
  constructor
  · rintro ⟨id, _, _, r, a, g1, g2⟩
    exact ⟨r, (hw.role?_iff.mp g1).1, a, g2⟩
  · rintro ⟨r, hr, a, g⟩
    exact ⟨r.id, by omega, by have := hw.idsLt r hr; omega, r, a, hw.role?_iff.mpr ⟨hr, rfl⟩, g⟩

/-! ## Answers that mislead -/

section
open Sample SampleSdk SampleClient

private theorem refused_of {α : Type} {x : R α} (h : ok x = false) : ∀ a, x ≠ .ok a := by
  rintro a rfl
  cases h

/-- "A role whose `can_manage_authority` is false cannot manage authorities" is false: the owner, with All, is told no, and adds a role. -/
theorem C85_manage_refuted : ∃ (env : Env) (cpi : Cpi) (w : Wallet) (l : List Permission) (m' : Mem), w.WF ∧
    rolePermissions w.encode 0 = .ok (some l) ∧ canManage l = false ∧
    process env cpi (mem w) (addAuthority env (K 1) (K 10) 0 1 (K 20) [.programAll] callerEd).accounts
      (addAuthority env (K 1) (K 10) 0 1 (K 20) [.programAll] callerEd).data = .ok m' := by
  obtain ⟨m', h⟩ := exists_of_ok (x := process env1 demoCpi (mem wallet2) (addAuthority env1 (K 1) (K 10) 0 1 (K 20) [.programAll] callerEd).accounts
      (addAuthority env1 (K 1) (K 10) 0 1 (K 20) [.programAll] callerEd).data) (by decide +kernel)
  exact ⟨env1, demoCpi, wallet2, [.all], m', wallet2_wf, by decide +kernel, by decide, h⟩

/-- A recurring limit of 500 per 100 slots of which 20 are left (the last reset was in this window); may call the System program. -/
def askRecurring : List Act := [(Action.solRecurringLimit 500 100 90 20).toAct, ⟨P.program, systemId⟩]

/-- May do everything but manage authorities. -/
def askButManage : List Act := [⟨P.allButManageAuthority, []⟩]

/-- May pay 500 lamports to `K 40`. -/
def askDestination : List Act := [(Action.solDestinationLimit (K 40) 500).toAct, ⟨P.program, systemId⟩]

/-- A limit of 500 lamports, without permission to call any program. -/
def askNoProgram : List Act := [(Action.solLimit 500).toAct]

/-- "What `can_spend_sol` allows can be spent" is false: of a recurring limit of 500 only 20 are left in the present window, the answer for
300 is yes, the payment of 300 is refused, that of 20 is accepted. -/
theorem C85_yes_refuted : ∃ (acts : List Act) (l : List Permission), (signWallet acts).WF ∧
    rolePermissions (signWallet acts).encode 1 = .ok (some l) ∧ canSpendSol l 300 = true ∧
    (∀ m', runSign acts [paySol 300] ≠ .ok m') ∧ ∃ m', runSign acts [paySol 20] = .ok m' :=
  ⟨askRecurring, [.sol 500 (some ⟨100, 90, 20⟩), .program systemId], by decide +kernel, by decide +kernel, by decide +kernel,
    refused_of (by decide +kernel), exists_of_ok (by decide +kernel)⟩

/-- It is also false because the question does not look at the programs the role may call: with a limit of 500 lamports and no program the
answer for 100 is yes, the payment of 100 is refused. -/
theorem C85_yes_program_refuted : ∃ (acts : List Act) (l : List Permission), (signWallet acts).WF ∧
    rolePermissions (signWallet acts).encode 1 = .ok (some l) ∧ canSpendSol l 100 = true ∧ ∀ m', runSign acts [paySol 100] ≠ .ok m' :=
  ⟨askNoProgram, [.sol 500 none], by decide +kernel, by decide +kernel, by decide +kernel, refused_of (by decide +kernel)⟩

/-- "What `can_spend_sol` denies cannot be spent" is false: a role with everything but management and a role with a limit for the
destination are told no for a single lamport, and pay 300. -/
theorem C85_no_refuted : ∃ (acts acts2 : List Act) (l l2 : List Permission) (m1 m2 : Mem), (signWallet acts).WF ∧ (signWallet acts2).WF ∧
    rolePermissions (signWallet acts).encode 1 = .ok (some l) ∧ canSpendSol l 1 = false ∧ runSign acts [paySol 300] = .ok m1 ∧
    rolePermissions (signWallet acts2).encode 1 = .ok (some l2) ∧ canSpendSol l2 1 = false ∧ runSign acts2 [paySol 300] = .ok m2 := by
  obtain ⟨m1, h1⟩ := exists_of_ok (x := runSign askButManage [paySol 300]) (by decide +kernel)
  obtain ⟨m2, h2⟩ := exists_of_ok (x := runSign askDestination [paySol 300]) (by decide +kernel)
  exact ⟨askButManage, askDestination, [.allButManageAuthority], [.solDestination (K 40) 500 none, .program systemId], m1, m2,
    by decide +kernel, by decide +kernel, by decide +kernel, by decide +kernel, h1, by decide +kernel, by decide +kernel, h2⟩

/-- "`get_recurring_sol_limit` returns the recurring limit of the role" is false: the role has one, and a fixed limit, and is told none. -/
theorem C85_recurring_refuted : ∃ (w : Wallet) (r : Role) (l : List Permission) (d : Bytes), w.WF ∧ w.role? 1 = some r ∧
    r.limit? P.solRecurringLimit [] = some d ∧ rolePermissions w.encode 1 = .ok (some l) ∧ recurringSolLimitOf l = none :=
  ⟨SampleSdk.wallet, member, _, _, SampleSdk.wallet_wf, by decide +kernel,
    (show Role.limit? member P.solRecurringLimit [] = some (Action.solRecurringLimit 50 100 1000 20).toAct.data by decide +kernel),
    (show rolePermissions SampleSdk.wallet.encode 1 = .ok (some
      [.sol 70 none, .sol 50 (some ⟨100, 1000, 20⟩), .token (K 5) 30 none, .token (K 6) 40 none, .program (K 30)]) by decide +kernel),
    by decide +kernel⟩

/-- "`get_role_count` is the number of roles" is false: of nine roles two have been removed, the answer is nine. -/
theorem C85_count_refuted : ∃ w : Wallet, w.WF ∧ w.roles.length = 7 ∧ roleCount w.encode = .ok 9 :=
  ⟨SampleSdk.wallet, SampleSdk.wallet_wf, by decide +kernel, by decide +kernel⟩

/-- "`get_balance` is what the wallet owns" is false: it is the balance of the configuration account; after a payment of 300 from the wallet
address it is what it was. -/
theorem C85_balance_refuted : ∃ (acts : List Act) (m' : Mem), (signWallet acts).WF ∧ runSign acts [paySol 300] = .ok m' ∧
    (m' signAddr.key).lamports + 300 = (signMem acts signAddr.key).lamports ∧
    balance m' signSwig.key = balance (signMem acts) signSwig.key ∧ balance m' signSwig.key ≠ (m' signAddr.key).lamports := by
  obtain ⟨m', h1, h2⟩ := exists_of_leads (x := runSign Sample.acts1 [paySol 300]) (p := fun m' => decide (
    (m' signAddr.key).lamports + 300 = (signMem Sample.acts1 signAddr.key).lamports ∧
    balance m' signSwig.key = balance (signMem Sample.acts1) signSwig.key ∧ balance m' signSwig.key ≠ (m' signAddr.key).lamports)) (by decide +kernel)
  exact ⟨Sample.acts1, m', by decide +kernel, h1, of_decide_eq_true h2⟩

/-- "`get_current_authority_permissions` lists the permissions of the authority" is false: for the key of the member only the SOL limits are
listed, for that of a manager nothing. -/
theorem C85_current_refuted : ∃ (w : Wallet) (cred : Bytes) (l l' : List Permission), w.WF ∧ lookupRoleId w.encode cred = .ok (some 1) ∧
    rolePermissions w.encode 1 = .ok (some l) ∧ currentAuthorityPermissions w.encode cred = .ok l' ∧ l.length = 5 ∧ l'.length = 2 :=
  ⟨SampleSdk.wallet, K 11, [.sol 70 none, .sol 50 (some ⟨100, 1000, 20⟩), .token (K 5) 30 none, .token (K 6) 40 none, .program (K 30)],
    [.sol 70 none, .sol 50 (some ⟨100, 1000, 20⟩)], SampleSdk.wallet_wf, by decide +kernel, by decide +kernel, by decide +kernel, rfl, rfl⟩

/-! ## The hypotheses are met -/

/-- The member has neither All nor ManageAuthority, 70 lamports are left of its fixed limit. -/
example : ∃ l, rolePermissions SampleSdk.wallet.encode 1 = .ok (some l) ∧ hasAll l = false ∧ canManage l = false ∧ solLimitOf l = some 70 ∧
    canSpendSol l 70 = true ∧ canSpendSol l 71 = false :=
  ⟨[.sol 70 none, .sol 50 (some ⟨100, 1000, 20⟩), .token (K 5) 30 none, .token (K 6) 40 none, .program (K 30)], by decide +kernel, rfl, rfl,
    rfl, by decide, by decide⟩

example : (¬ Role.holds member P.all) ∧ Role.limit? member P.solLimit [] = some (natLE 8 70) := by decide +kernel

/-- A role with a fixed limit of 500 is told no for 501; it has paid 300. -/
example : ∃ (l : List Permission) (m' : Mem), rolePermissions (signWallet Sample.acts1).encode 1 = .ok (some l) ∧ canSpendSol l 501 = false ∧
    RestrictedSign signEnv demoCpi (signMem Sample.acts1) m' signSwig signAddr signRest (signIx [paySol 300]) (signWallet Sample.acts1) ⟨1, 1, K 11, Sample.acts1⟩ ∧
    (m' (K 2)).lamports + 300 = (signMem Sample.acts1 (K 2)).lamports := by
  obtain ⟨m', h1, h2⟩ := runSign_exists Sample.acts1 [paySol 300] (fun m' => (m' (K 2)).lamports + 300 = (signMem Sample.acts1 (K 2)).lamports)
    (by decide +kernel) (by decide +kernel)
  exact ⟨[.sol 500 none, .token (K 50) 100 none, .program systemId, .program tokenId], m', by decide +kernel, by decide, h1, h2⟩

/-- The same for the recurring limit. -/
example : ∃ (l : List Permission) (m' : Mem), rolePermissions (signWallet askRecurring).encode 1 = .ok (some l) ∧ canSpendSol l 501 = false ∧
    RestrictedSign signEnv demoCpi (signMem askRecurring) m' signSwig signAddr signRest (signIx [paySol 20]) (signWallet askRecurring)
      ⟨1, 1, K 11, askRecurring⟩ ∧ (m' (K 2)).lamports + 20 = (signMem askRecurring (K 2)).lamports := by
  obtain ⟨m', h1, h2⟩ := runSign_exists askRecurring [paySol 20] (fun m' => (m' (K 2)).lamports + 20 = (signMem askRecurring (K 2)).lamports)
    (by decide +kernel) (by decide +kernel)
  exact ⟨[.sol 500 (some ⟨100, 90, 20⟩), .program systemId], m', by decide +kernel, by decide, h1, h2⟩

/-- A role with a fixed limit of 500 only, and the System program. -/
def askRole : Role := ⟨1, 1, K 10, [(Action.program systemId).toAct, (Action.solLimit 500).toAct]⟩

def askWallet : Wallet := ⟨255, K 70, 2, 255, zeros 3, 0, [role0, askRole], none⟩

theorem askWallet_wf : askWallet.WF where
  idLen := by decide
  padLen := by decide
  counter := by decide
  subCounter := by decide
  count := by decide
  roles := by
    intro r hr
    simp only [askWallet, List.mem_cons, List.not_mem_nil, or_false] at hr
    rcases hr with rfl | rfl
    · exact ⟨by decide, by decide, by decide, by decide, by decide⟩
    · exact ⟨by decide +kernel, by decide +kernel, by decide +kernel, by decide +kernel, by decide +kernel⟩
  idsNodup := by decide
  idsLt := by decide
  claimer := by simp [askWallet]
  size := by decide +kernel

/-- It is told yes for 200, and pays 200. -/
example : ∃ m', process env1 demoCpi (onLedger (mem askWallet) payL) payL.accounts payL.data = .ok m' ∧ (m' (K 40)).lamports = 200 := by
  obtain ⟨m', h1, _, h3⟩ := C85_yes_means_yes_partial (env := env1) (cpi := demoCpi) (m := onLedger (mem askWallet) payL) (metas := payL.accounts)
    (swig := K 1) (wallet := K 2) (payer := K 10) (w := askWallet) (role := 1) (signers := []) (r := askRole) (a := auth0) (c := callerEd)
    (pre := []) (post := []) (dst := K 40) (n := 200)
    { hash := hash1
      ready := ready_on askWallet_wf rfl rfl (by decide +kernel) (by decide +kernel) (by decide +kernel)
        ⟨cred_ed.1, by decide +kernel, by decide +kernel⟩ (by decide +kernel) (by simp [payL, Client.signV2, callerEd, byEd]) (by decide +kernel)
        (by decide +kernel)
      authorized := acts_ed
      restricted := by decide +kernel
      address := by decide +kernel
      system := by decide +kernel
      funds := by decide +kernel
      top := rfl
      flags := by unfold SameFlags; decide +kernel
      accounts := by decide +kernel
      data := by decide +kernel
      call := by decide +kernel
      mayCall := ⟨_, List.mem_cons_self, .inr (.inr ⟨rfl, rfl⟩)⟩
      foreign := by decide +kernel }
    demo_pays (by decide +kernel) (by decide) (by decide +kernel) ⟨by unfold Writable; decide +kernel, by unfold Writable; decide +kernel⟩
    (by decide +kernel) (by decide +kernel) (by decide +kernel) (by decide +kernel) (by unfold NoSolDest; decide +kernel)
    (l := [.sol 500 none, .program systemId]) (by decide +kernel) (by decide)
  exact ⟨m', h1, h3⟩

/-- The authority of the Secp256k1 role. -/
example : authorityType SampleSdk.wallet.encode 2 = .ok (some 3) ∧ isSessionBased SampleSdk.wallet.encode 2 = .ok (some false) ∧
    authorityIdentity SampleSdk.wallet.encode 2 = .ok (some pk1) := by decide +kernel

end

end Verif
