import Verif.Spec.Cli
import Verif.Proofs.Cli
import Verif.Props.Sdk
import Verif.Props.SdkLookup

/-!
# Permissions and keys given to the command line tool

Properties C89 to C92.  Vocabulary: Spec/Cli.lean.
-/

namespace Verif
open Sdk Cli

/-! ## Lemmas -/

theorem Cli.okBind {α β : Type} (a : α) (f : α → Except Fail β) : (Except.ok a >>= f) = f a := rfl

theorem Cli.errBind {α β : Type} (e : Fail) (f : α → Except Fail β) : ((Except.error e : Except Fail α) >>= f) = .error e := rfl

theorem Cli.bindOk {α β ε : Type} {x : Except ε α} {f : α → Except ε β} {b : β} : (x >>= f) = .ok b ↔ ∃ a, x = .ok a ∧ f a = .ok b := by
  cases x with
  | ok a => exact ⟨fun h => ⟨a, rfl, h⟩, fun ⟨a', h1, h2⟩ => by cases h1; exact h2⟩
  | error e => exact ⟨fun h => (by cases h), fun ⟨a', h1, _⟩ => (by cases h1)⟩

theorem Cli.str_iff {v : Value} {name : String} {t : Cli.Text} : (v.at name).asStr = some t ↔ v.Text name t := by
  unfold Value.at Value.Text
  cases h : v.get name with
  | none => simp [Value.asStr]
  | some x => cases x <;> simp [Value.asStr]

theorem Cli.num_iff {v : Value} {name : String} {n : Nat} : (v.at name).asU64 = some n ↔ v.Number name n := by
  unfold Value.at Value.Number
  cases h : v.get name with
  | none => simp [Value.asU64]
  | some x => cases x <;> simp [Value.asU64]

theorem Cli.optional_num {v : Value} {name : String} {o : Option Nat} (h : v.Optional name o) : (v.at name).asU64 = o := by
  cases o with
  | none =>
    have h : v.get name = none := h
    simp [Value.at, h, Value.asU64]
  | some n => exact num_iff.mpr h

theorem Cli.key_iff {t : Cli.Text} {k : Key} : addressOf t = .ok k ↔ IsAddress t k := by
  unfold addressOf IsAddress
  constructor
  · intro h
    split at h
    · rename_i k' hk
      cases h
      exact ⟨pubkey_length hk, encode58_pubkey hk⟩
    · cases h
  · rintro ⟨hk, rfl⟩
    rw [pubkey_encode58 hk]

theorem Cli.text_iff {v : Value} {name : String} {t : Cli.Text} : textOf v name = .ok t ↔ v.Text name t := by
  rw [← str_iff]
  unfold textOf
  cases h : (v.at name).asStr with
  | none => simp
  | some x => simp

theorem Cli.address_iff {v : Value} {name : String} {k : Key} : (∃ t, textOf v name = .ok t ∧ addressOf t = .ok k) ↔ v.Address name k := by
  simp only [text_iff, key_iff, Value.Address]

theorem Cli.recurs_of {v : Value} {w : Option Nat} (h : v.Recurs w) : recurringOf v = w.map Recurring.new := by
  cases w with
  | none =>
    have h : v.get "recurring" = none := h
    simp [recurringOf, h]
  | some w =>
    obtain ⟨r, h1, h2⟩ := h
    simp [recurringOf, h1, num_iff.mpr h2]

theorem Cli.amount_of {v : Value} {n : Nat} (h : v.Number "amount" n) : amountOf v = n := by
  simp [amountOf, num_iff.mpr h]

theorem Cli.parse_typed {v : Value} {ty : Cli.Text} (h : v.Text "type" ty) : parsePermission v = parseAs v ty := by
  simp only [parsePermission, str_iff.mpr h]

/-! ## C89: permissions written in JSON -/

section
variable {v : Value} {p : Permission}

/-- A document has a member if it is an object that names it; of several members of one name the last one counts. -/
theorem C89_members {name : String} {x : Value} : v.get name = some x ↔
    ∃ before after, v = .obj (before ++ (name.toList, x) :: after) ∧ ∀ p ∈ after, p.1 ≠ name.toList := by
  constructor
  · intro h
    cases v with
    | obj fs =>
      simp only [Value.get, Option.map_eq_some_iff] at h
      obtain ⟨⟨n, y⟩, h1, rfl⟩ := h
      obtain ⟨h2, as, bs, h3, h4⟩ := List.find?_eq_some_iff_append.mp h1
      have h2 : n = name.toList := of_decide_eq_true h2
      subst h2
      refine ⟨bs.reverse, as.reverse, ?_, fun p hp => ?_⟩
      · rw [← List.reverse_reverse fs, h3]; simp
      · have := h4 p (List.mem_reverse.mp hp)
        simpa using this
    | _ => cases h
  · rintro ⟨before, after, rfl, h⟩
    simp only [Value.get, Option.map_eq_some_iff]
    refine ⟨(name.toList, x), List.find?_eq_some_iff_append.mpr ⟨by simp, after.reverse, before.reverse, by simp, fun p hp => ?_⟩, rfl⟩
    simpa using h p (List.mem_reverse.mp hp)

/-- Two amounts: the last one counts. -/
example : (Value.obj [("amount".toList, .num (some 1)), ("type".toList, .str "sol".toList), ("amount".toList, .num (some 2))]).get "amount" =
    some (.num (some 2)) :=
  C89_members.mpr ⟨[_, _], [], rfl, fun _ h => nomatch h⟩

/-- A document that names a permission completely is read as that permission, unless it names a sub-account. -/
theorem C89_says_partial (h : Says v p) (hs : ∀ k, p ≠ .subAccount k) : parsePermission v = .ok p := by
  cases h with
  | all ht => rw [parse_typed ht]; rfl
  | programCurated ht => rw [parse_typed ht]; rfl
  | allBut ht => rw [parse_typed ht]; rfl
  | manage ht => rw [parse_typed ht]; rfl
  | programAll ht => rw [parse_typed ht]; rfl
  | sol n w ht hn hw =>
    rw [parse_typed ht]
    show Except.ok (Permission.sol (amountOf v) (recurringOf v)) = _
    rw [amount_of hn, recurs_of hw]
  | program k ht hk =>
    rw [parse_typed ht]
    obtain ⟨t, h1, h2⟩ := address_iff.mpr hk
    show (textOf v "programId" >>= fun p => addressOf p >>= fun p => Except.ok (Permission.program p)) = _
    rw [h1, okBind, h2, okBind]
  | scope k t num limit window s e ht hk htt hnum hl hw hst he =>
    rw [parse_typed ht]
    obtain ⟨t1, h1, h2⟩ := address_iff.mpr hk
    obtain ⟨t2, h3, h4⟩ := address_iff.mpr htt
    show (textOf v "programId" >>= fun p => textOf v "targetAccount" >>= fun t => addressOf p >>= fun p => addressOf t >>= fun t =>
      Except.ok (Permission.programScope p t ((v.at "numericType").asU64.getD 0) (v.at "limit").asU64 (v.at "window").asU64
        (v.at "balanceFieldStart").asU64 (v.at "balanceFieldEnd").asU64)) = _
    rw [h1, okBind, h3, okBind, h2, okBind, h4, okBind, num_iff.mpr hnum, optional_num hl, optional_num hw, optional_num hst,
      optional_num he]
    rfl
  | subAccount k => exact absurd rfl (hs k)
  | solDestination d n w ht hd hn hw =>
    rw [parse_typed ht]
    obtain ⟨t1, h1, h2⟩ := address_iff.mpr hd
    show (textOf v "destination" >>= fun d => addressOf d >>= fun d => Except.ok (Permission.solDestination d (amountOf v) (recurringOf v))) = _
    rw [h1, okBind, h2, okBind, amount_of hn, recurs_of hw]
  | tokenDestination m d n w ht hm hd hn hw =>
    rw [parse_typed ht]
    obtain ⟨t1, h1, h2⟩ := address_iff.mpr hm
    obtain ⟨t2, h3, h4⟩ := address_iff.mpr hd
    show (textOf v "mint" >>= fun m => textOf v "destination" >>= fun d => addressOf m >>= fun m => addressOf d >>= fun d =>
      Except.ok (Permission.tokenDestination m d (amountOf v) (recurringOf v))) = _
    rw [h1, okBind, h3, okBind, h2, okBind, h4, okBind, amount_of hn, recurs_of hw]

/-- A document accepted names the permission granted, if what has to be a number in it is one. -/
theorem C89_accepted_partial (hr : Readable v) (h : parsePermission v = .ok p) : Says v p := by
  unfold parsePermission at h
  split at h
  · cases h
  rename_i ty hty
  rw [str_iff] at hty
  unfold parseAs at h
  by_cases e : ty = "all".toList
  · rw [if_pos e] at h
    subst e; cases h; exact .all hty
  rw [if_neg e] at h
  by_cases e : ty = "programCurated".toList
  · rw [if_pos e] at h
    subst e; cases h; exact .programCurated hty
  rw [if_neg e] at h
  by_cases e : ty = "sol".toList
  · rw [if_pos e] at h
    subst e; cases h
    obtain ⟨⟨n, hn⟩, w, hw⟩ := hr.amount (.inl hty)
    rw [amount_of hn, recurs_of hw]
    exact .sol n w hty hn hw
  rw [if_neg e] at h
  by_cases e : ty = "allButManageAuthority".toList
  · rw [if_pos e] at h
    subst e; cases h; exact .allBut hty
  rw [if_neg e] at h
  by_cases e : ty = "manageAuthority".toList
  · rw [if_pos e] at h
    subst e; cases h; exact .manage hty
  rw [if_neg e] at h
  by_cases e : ty = "program".toList
  · rw [if_pos e] at h
    subst e
    obtain ⟨t, h1, h⟩ := bindOk.mp h
    obtain ⟨k, h2, h⟩ := bindOk.mp h
    cases h
    exact .program k hty (address_iff.mp ⟨t, h1, h2⟩)
  rw [if_neg e] at h
  by_cases e : ty = "programAll".toList
  · rw [if_pos e] at h
    subst e; cases h; exact .programAll hty
  rw [if_neg e] at h
  by_cases e : ty = "programScope".toList
  · rw [if_pos e] at h
    subst e
    obtain ⟨t, h1, h⟩ := bindOk.mp h
    obtain ⟨t', h2, h⟩ := bindOk.mp h
    obtain ⟨k, h3, h⟩ := bindOk.mp h
    obtain ⟨k', h4, h⟩ := bindOk.mp h
    cases h
    obtain ⟨⟨n, hn⟩, ⟨l, hl⟩, ⟨w, hw⟩, ⟨s, hs⟩, e, he⟩ := hr.scope hty
    rw [num_iff.mpr hn, optional_num hl, optional_num hw, optional_num hs, optional_num he]
    exact .scope k k' n l w s e hty (address_iff.mp ⟨t, h1, h3⟩) (address_iff.mp ⟨t', h2, h4⟩) hn hl hw hs he
  rw [if_neg e] at h
  by_cases e : ty = "subAccount".toList
  · rw [if_pos e] at h
    subst e; exact absurd hty hr.sub
  rw [if_neg e] at h
  by_cases e : ty = "solDestination".toList
  · rw [if_pos e] at h
    subst e
    obtain ⟨t, h1, h⟩ := bindOk.mp h
    obtain ⟨k, h2, h⟩ := bindOk.mp h
    cases h
    obtain ⟨⟨n, hn⟩, w, hw⟩ := hr.amount (.inr (.inl hty))
    rw [amount_of hn, recurs_of hw]
    exact .solDestination k n w hty (address_iff.mp ⟨t, h1, h2⟩) hn hw
  rw [if_neg e] at h
  by_cases e : ty = "tokenDestination".toList
  · rw [if_pos e] at h
    subst e
    obtain ⟨t, h1, h⟩ := bindOk.mp h
    obtain ⟨t', h2, h⟩ := bindOk.mp h
    obtain ⟨k, h3, h⟩ := bindOk.mp h
    obtain ⟨k', h4, h⟩ := bindOk.mp h
    cases h
    obtain ⟨⟨n, hn⟩, w, hw⟩ := hr.amount (.inr (.inr hty))
    rw [amount_of hn, recurs_of hw]
    exact .tokenDestination k k' n w hty (address_iff.mp ⟨t, h1, h3⟩) (address_iff.mp ⟨t', h2, h4⟩) hn hw
  rw [if_neg e] at h
  cases h

/-- An amount that is missing or is not a whole number of 64 bits (a text, a fraction, a negative or too large number) grants a limit of one
billion lamports or tokens, whatever the document says. -/
theorem C89_amount_refuted (ht : v.Text "type" "sol".toList) (ha : ¬ ∃ n, v.Number "amount" n) :
    ∃ rec, parsePermission v = .ok (.sol 1000000000 rec) := by
  rw [parse_typed ht]
  refine ⟨recurringOf v, ?_⟩
  show Except.ok (Permission.sol (amountOf v) (recurringOf v)) = _
  have : (v.at "amount").asU64 = none := by
    cases h : (v.at "amount").asU64 with
    | none => rfl
    | some n => exact absurd ⟨n, num_iff.mp h⟩ ha
  simp [amountOf, this]

/-- A `recurring` member that is null, or that has no readable window, makes the limit one that comes back every 86400 slots. -/
theorem C89_recurring_refuted {r : Value} {n : Nat} (ht : v.Text "type" "sol".toList) (ha : v.Number "amount" n)
    (hr : v.get "recurring" = some r) (hw : ¬ ∃ w, r.Number "window" w) :
    parsePermission v = .ok (.sol n (some (Recurring.new 86400))) := by
  rw [parse_typed ht]
  show Except.ok (Permission.sol (amountOf v) (recurringOf v)) = _
  have : (r.at "window").asU64 = none := by
    cases h : (r.at "window").asU64 with
    | none => rfl
    | some n => exact absurd ⟨n, num_iff.mp h⟩ hw
  simp [amount_of ha, recurringOf, hr, this]

/-- A program scope whose limit is written but is not a whole number of 64 bits has no limit at all: it allows any amount at any slot. -/
theorem C89_scope_refuted (ht : v.Text "type" "programScope".toList) (hl : ¬ ∃ n, v.Number "limit" n) (h : parsePermission v = .ok p) :
    ∀ n slot, p.toAction.spend n slot = some p.toAction := by
  rw [parse_typed ht] at h
  have h : (textOf v "programId" >>= fun p => textOf v "targetAccount" >>= fun t => addressOf p >>= fun p => addressOf t >>= fun t =>
      Except.ok (Permission.programScope p t ((v.at "numericType").asU64.getD 0) (v.at "limit").asU64 (v.at "window").asU64
        (v.at "balanceFieldStart").asU64 (v.at "balanceFieldEnd").asU64)) = .ok p := h
  obtain ⟨t, h1, h⟩ := bindOk.mp h
  obtain ⟨t', h2, h⟩ := bindOk.mp h
  obtain ⟨k, h3, h⟩ := bindOk.mp h
  obtain ⟨k', h4, h⟩ := bindOk.mp h
  cases h
  have : (v.at "limit").asU64 = none := by
    cases h : (v.at "limit").asU64 with
    | none => rfl
    | some n => exact absurd ⟨n, num_iff.mp h⟩ hl
  rw [this]
  exact fun n slot => C81_scope_without_limit _ _ _ _ _ _ n slot

/-- A sub-account cannot be named: its address is never what is granted, and a text that does not have 32 bytes, as almost every address,
ends the program with a panic. -/
theorem C89_sub_account_refuted {k : Key} (h : Says v (.subAccount k)) :
    parsePermission v ≠ .ok (.subAccount k) ∧ ((encode58 k).length ≠ 32 → parsePermission v = .error .panic) := by
  cases h with
  | subAccount _ ht hk =>
    obtain ⟨t, h1, h2⟩ := hk
    have e : parsePermission v = bytes32 t >>= fun k => Except.ok (.subAccount k) := by
      rw [parse_typed ht]
      show (textOf v "subAccount" >>= fun s => bytes32 s >>= fun k => Except.ok (Permission.subAccount k)) = _
      rw [text_iff.mpr h1, okBind]
    have hp : pubkey t = some k := by rw [h2.2]; exact pubkey_encode58 h2.1
    rw [e]
    unfold bytes32
    constructor
    · split
      · rw [okBind]
        intro hc
        cases hc
        exact pubkey_not_text hp rfl
      · rw [errBind]
        intro hc; cases hc
    · intro hlen
      rw [if_neg, errBind]
      rw [utf8_base58 (decode58_some (pubkey_some hp).2.1).1, h2.2]
      exact hlen

/-- Nothing is granted by a document without a type or with a type that is not one of the eleven: there is none for token and stake
limits, for replacing authorities, for closing a wallet and for sub-accounts of version 2. -/
theorem C89_kinds (h : parsePermission v = .ok p) : ∃ ty, v.Text "type" ty ∧ ty ∈ ["all", "programCurated", "sol", "allButManageAuthority",
    "manageAuthority", "program", "programAll", "programScope", "subAccount", "solDestination", "tokenDestination"].map String.toList := by
  unfold parsePermission at h
  split at h
  · cases h
  rename_i ty hty
  refine ⟨ty, str_iff.mp hty, ?_⟩
  unfold parseAs at h
  simp only [List.map_cons, List.map_nil, List.mem_cons]
  by_cases e : ty = "all".toList
  · rw [if_pos e] at h
    simp only [e, true_or]
  rw [if_neg e] at h
  by_cases e : ty = "programCurated".toList
  · rw [if_pos e] at h
    simp only [e, true_or, or_true]
  rw [if_neg e] at h
  by_cases e : ty = "sol".toList
  · rw [if_pos e] at h
    simp only [e, true_or, or_true]
  rw [if_neg e] at h
  by_cases e : ty = "allButManageAuthority".toList
  · rw [if_pos e] at h
    simp only [e, true_or, or_true]
  rw [if_neg e] at h
  by_cases e : ty = "manageAuthority".toList
  · rw [if_pos e] at h
    simp only [e, true_or, or_true]
  rw [if_neg e] at h
  by_cases e : ty = "program".toList
  · rw [if_pos e] at h
    simp only [e, true_or, or_true]
  rw [if_neg e] at h
  by_cases e : ty = "programAll".toList
  · rw [if_pos e] at h
    simp only [e, true_or, or_true]
  rw [if_neg e] at h
  by_cases e : ty = "programScope".toList
  · rw [if_pos e] at h
    simp only [e, true_or, or_true]
  rw [if_neg e] at h
  by_cases e : ty = "subAccount".toList
  · rw [if_pos e] at h
    simp only [e, true_or, or_true]
  rw [if_neg e] at h
  by_cases e : ty = "solDestination".toList
  · rw [if_pos e] at h
    simp only [e, true_or, or_true]
  rw [if_neg e] at h
  by_cases e : ty = "tokenDestination".toList
  · rw [if_pos e] at h
    simp only [e, true_or, or_true]
  rw [if_neg e] at h
  cases h

end

/-! ## C90: several permissions, several members -/

theorem Cli.splitCommas_clean : ∀ {t p : Cli.Text}, p ∈ splitCommas t → ',' ∉ p := by
  intro t
  induction t with
  | nil => intro p h; simp [splitCommas] at h; simp [h]
  | cons c t ih =>
    intro p h
    simp only [splitCommas] at h
    split at h
    · rcases List.mem_cons.mp h with rfl | h
      · simp
      · exact ih h
    · rename_i hc
      split at h
      · rename_i e
        simp only [List.mem_singleton] at h
        subst h
        simp only [List.mem_singleton]
        exact fun e => hc e.symm
      · rename_i q qs e
        rcases List.mem_cons.mp h with rfl | h
        · have := ih (p := q) (by rw [e]; simp)
          simp only [List.mem_cons, not_or]
          exact ⟨fun e => hc e.symm, this⟩
        · exact ih (p := p) (by rw [e]; simp [h])

theorem Cli.mapM_mem {α β ε : Type} {f : α → Except ε β} : ∀ {l : List α} {ys : List β}, l.mapM f = .ok ys → ∀ y ∈ ys, ∃ x ∈ l, f x = .ok y := by
  intro l
  induction l with
  | nil => intro ys h y hy; rw [List.mapM_nil] at h; cases h; cases hy
  | cons x xs ih =>
    intro ys h y hy
    rw [List.mapM_cons] at h
    obtain ⟨z, h1, h⟩ := bindOk.mp h
    obtain ⟨zs, h2, h⟩ := bindOk.mp h
    cases h
    rcases List.mem_cons.mp hy with rfl | hy
    · exact ⟨x, by simp, h1⟩
    · obtain ⟨x', hx, hf⟩ := ih h2 y hy
      exact ⟨x', by simp [hx], hf⟩

theorem Cli.lone {fs : List (Cli.Text × Value)} (hl : fs.length ≤ 1) {ty : Cli.Text} (ht : (Value.obj fs).Text "type" ty) (name : String)
    (hn : name.toList ≠ "type".toList) : (Value.obj fs).get name = none := by
  cases fs with
  | nil => rfl
  | cons f fs =>
    cases fs with
    | cons => simp at hl
    | nil =>
      have ht : (([f].reverse.find? fun p => decide (p.1 = "type".toList)).map (·.2)) = some (.str ty) := ht
      show ([f].reverse.find? fun p => decide (p.1 = name.toList)).map (·.2) = none
      simp only [List.reverse_cons, List.reverse_nil, List.nil_append] at ht ⊢
      by_cases e : f.1 = "type".toList
      · rw [List.find?_cons_of_neg (by simpa [e] using Ne.symm hn)]; rfl
      · rw [List.find?_cons_of_neg (by simpa using e)] at ht; cases ht

/-- Permissions on the command line are split at every comma, also within a document: only the five permissions without members and a SOL limit
of exactly one billion lamports can be granted or added from the command line, whatever is written there. -/
theorem C90_refuted {fromStr : Cli.Text → Option Value} (hj : Separates fromStr) {args : List Cli.Text} {ps : List Permission}
    (h : permissionsArg fromStr args = .ok ps) :
    ∀ p ∈ ps, p ∈ [Permission.all, .programCurated, .allButManageAuthority, .manageAuthority, .programAll, .sol 1000000000 none] := by
  intro p hp
  unfold permissionsArg at h
  split at h
  · cases h
  obtain ⟨t, ht, hf⟩ := mapM_mem h p hp
  split at hf
  · rename_i v hv
    obtain ⟨a, _, ha⟩ := List.mem_flatMap.mp ht
    have hc := splitCommas_clean ha
    obtain ⟨ty, hty, _⟩ := C89_kinds hf
    obtain ⟨fs, rfl⟩ : ∃ fs, v = .obj fs := by
      cases v with
      | obj fs => exact ⟨fs, rfl⟩
      | _ => cases hty
    have hl := lone (hj t fs hv hc) hty
    have notext : ∀ name : String, name.toList ≠ "type".toList → textOf (.obj fs) name = .error .refused := by
      intro name hn
      simp [textOf, Value.at, hl name hn, Value.asStr]
    rw [parse_typed hty] at hf
    unfold parseAs at hf
    by_cases e : ty = "all".toList
    · rw [if_pos e] at hf
      cases hf; simp
    rw [if_neg e] at hf
    by_cases e : ty = "programCurated".toList
    · rw [if_pos e] at hf
      cases hf; simp
    rw [if_neg e] at hf
    by_cases e : ty = "sol".toList
    · rw [if_pos e] at hf
      cases hf
      have e1 : amountOf (.obj fs) = 1000000000 := by simp [amountOf, Value.at, hl "amount" (by decide), Value.asU64]
      have e2 : recurringOf (.obj fs) = none := by simp [recurringOf, hl "recurring" (by decide)]
      rw [e1, e2]; simp
    rw [if_neg e] at hf
    by_cases e : ty = "allButManageAuthority".toList
    · rw [if_pos e] at hf
      cases hf; simp
    rw [if_neg e] at hf
    by_cases e : ty = "manageAuthority".toList
    · rw [if_pos e] at hf
      cases hf; simp
    rw [if_neg e] at hf
    by_cases e : ty = "program".toList
    · rw [if_pos e] at hf
      rw [notext "programId" (by decide), errBind] at hf; cases hf
    rw [if_neg e] at hf
    by_cases e : ty = "programAll".toList
    · rw [if_pos e] at hf
      cases hf; simp
    rw [if_neg e] at hf
    by_cases e : ty = "programScope".toList
    · rw [if_pos e] at hf
      rw [notext "programId" (by decide), errBind] at hf; cases hf
    rw [if_neg e] at hf
    by_cases e : ty = "subAccount".toList
    · rw [if_pos e] at hf
      rw [notext "subAccount" (by decide), errBind] at hf; cases hf
    rw [if_neg e] at hf
    by_cases e : ty = "solDestination".toList
    · rw [if_pos e] at hf
      rw [notext "destination" (by decide), errBind] at hf; cases hf
    rw [if_neg e] at hf
    by_cases e : ty = "tokenDestination".toList
    · rw [if_pos e] at hf
      rw [notext "mint" (by decide), errBind] at hf; cases hf
    rw [if_neg e] at hf
    cases hf
  · cases hf

/-- Documents without members other than the type are granted one by one, in order. -/
theorem C90_plain_partial {fromStr : Cli.Text → Option Value} {args : List Cli.Text} {vs : List Value} {ps : List Permission}
    (hc : ∀ a ∈ args, ',' ∉ a) (hne : args ≠ []) (hv : args.map fromStr = vs.map some) (hs : All2 Says vs ps)
    (hsub : ∀ p ∈ ps, ∀ k, p ≠ .subAccount k) : permissionsArg fromStr args = .ok ps := by
  have hsplit : ∀ a : Cli.Text, ',' ∉ a → splitCommas a = [a] := by
    intro a
    induction a with
    | nil => intro _; rfl
    | cons c t ih =>
      intro h
      simp only [List.mem_cons, not_or] at h
      simp only [splitCommas, if_neg (Ne.symm h.1), ih h.2]
  have hflat : args.flatMap splitCommas = args := by
    clear hv hne
    induction args with
    | nil => rfl
    | cons a t ih => rw [List.flatMap_cons, hsplit a (hc a (by simp)), ih fun a h => hc a (by simp [h])]; rfl
  unfold permissionsArg
  rw [hflat, if_neg (by simpa using hne)]
  clear hflat hsplit hc hne
  induction hs generalizing args with
  | nil =>
    cases args with
    | nil => rfl
    | cons => simp at hv
  | @cons v p vs ps h1 h2 ih =>
    cases args with
    | nil => simp at hv
    | cons a t =>
      simp only [List.map_cons, List.cons.injEq] at hv
      rw [List.mapM_cons, hv.1]
      simp only [C89_says_partial h1 (hsub p (by simp))]
      rw [okBind, ih hv.2 (fun p hp => hsub p (by simp [hp])), okBind]
      rfl

/-! ## Examples -/

section Examples
open Sample

private def doc (l : List (String × Value)) : Value := .obj (l.map fun p => (p.1.toList, p.2))

/-- A recurring SOL limit for one destination. -/
private def doc1 : Value := doc [("type", .str "solDestination".toList), ("destination", .str (encode58 (K 7))), ("amount", .num (some 500)),
  ("recurring", doc [("window", .num (some 1000))])]

private theorem doc1_says : Says doc1 (.solDestination (K 7) 500 (some (Recurring.new 1000))) :=
  .solDestination (K 7) 500 (some 1000) rfl ⟨_, rfl, by decide, rfl⟩ rfl ⟨_, rfl, rfl⟩

/-- C89_says_partial -/
example : parsePermission doc1 = .ok (.solDestination (K 7) 500 (some (Recurring.new 1000))) := C89_says_partial doc1_says (by intro k h; cases h)

/-- C89_accepted_partial -/
example : Readable doc1 ∧ ∃ p, parsePermission doc1 = .ok p := by
  refine ⟨⟨fun _ => ⟨⟨500, rfl⟩, some 1000, _, rfl, rfl⟩, fun h => ?_, fun h => ?_⟩, _, C89_says_partial doc1_says (by intro k h; cases h)⟩
  · exact absurd (Value.str.inj (Option.some.inj h)) (by decide)
  · exact absurd (Value.str.inj (Option.some.inj h)) (by decide)

/-- C89_amount_refuted: an amount in quotes. -/
example : ∃ rec, parsePermission (doc [("type", .str "sol".toList), ("amount", .str "5".toList)]) = .ok (.sol 1000000000 rec) :=
  C89_amount_refuted rfl (by rintro ⟨n, h⟩; cases h)

/-- C89_recurring_refuted: `"recurring": null`. -/
example : parsePermission (doc [("type", .str "sol".toList), ("amount", .num (some 5)), ("recurring", .null)]) =
    .ok (.sol 5 (some (Recurring.new 86400))) := C89_recurring_refuted rfl rfl rfl (by rintro ⟨n, h⟩; cases h)

/-- C89_scope_refuted: a limit in quotes. -/
private def doc2 : Value := doc [("type", .str "programScope".toList), ("programId", .str (encode58 (K 7))),
  ("targetAccount", .str (encode58 (K 8))), ("limit", .str "5".toList)]

private theorem doc2_reads : parsePermission doc2 = .ok (.programScope (K 7) (K 8) 0 none none none none) := by
  have h7 : addressOf (encode58 (K 7)) = .ok (K 7) := key_iff.mpr ⟨by decide, rfl⟩
  have h8 : addressOf (encode58 (K 8)) = .ok (K 8) := key_iff.mpr ⟨by decide, rfl⟩
  show (addressOf (encode58 (K 7)) >>= fun p => addressOf (encode58 (K 8)) >>= fun t =>
      Except.ok (Permission.programScope p t 0 none none none none)) = _
  rw [h7, okBind, h8, okBind]

example : ∃ p, parsePermission doc2 = .ok p ∧ ∀ n slot, p.toAction.spend n slot = some p.toAction :=
  ⟨_, doc2_reads, C89_scope_refuted (v := doc2) rfl (by rintro ⟨n, h⟩; cases h) doc2_reads⟩

/-- C89_sub_account_refuted: an address. -/
example : parsePermission (doc [("type", .str "subAccount".toList), ("subAccount", .str (encode58 (K 7)))]) = .error .panic :=
  (C89_sub_account_refuted (v := doc [("type", .str "subAccount".toList), ("subAccount", .str (encode58 (K 7)))]) (k := K 7) (.subAccount _ rfl ⟨_, rfl, by decide, rfl⟩)).2 (by decide +kernel)

/-- C90_plain_partial: two documents, and a reader of documents that has no objects of several members. -/
private def reader (t : Cli.Text) : Option Value :=
  if t = "{\"type\":\"all\"}".toList then some (doc [("type", .str "all".toList)])
  else if t = "{\"type\":\"sol\"}".toList then some (doc [("type", .str "sol".toList)])
  else if t = "{\"type\":\"sol\",\"amount\":5}".toList then some (doc [("type", .str "sol".toList), ("amount", .num (some 5))])
  else none

private theorem reader_separates : Separates reader := by
  intro t fs h hc
  unfold reader at h
  split at h
  · cases h; decide
  split at h
  · cases h; decide
  split at h
  · rename_i e
    subst e
    exact absurd (by decide) hc
  · cases h

example : permissionsArg reader ["{\"type\":\"all\"}".toList] = .ok [.all] :=
  C90_plain_partial (vs := [doc [("type", .str "all".toList)]]) (by decide) (by decide) (by rfl) (.cons (.all rfl) .nil) (by simp)

/-- C90_refuted: both documents are accepted; the amount is one billion. -/
example : ∃ ps, permissionsArg reader ["{\"type\":\"all\"},{\"type\":\"sol\"}".toList] = .ok ps ∧ ps.length = 2 ∧
    ∀ p ∈ ps, p ∈ [Permission.all, .programCurated, .allButManageAuthority, .manageAuthority, .programAll, .sol 1000000000 none] :=
  ⟨_, rfl, rfl, C90_refuted reader_separates (args := ["{\"type\":\"all\"},{\"type\":\"sol\"}".toList]) rfl⟩

/-- A document with an amount, which `reader` accepts in one piece, is refused: it is cut in two. -/
example : (reader "{\"type\":\"sol\",\"amount\":5}".toList).isSome = true ∧
    permissionsArg reader ["{\"type\":\"sol\",\"amount\":5}".toList] = .error .refused := ⟨rfl, rfl⟩

end Examples

end Verif
