import Verif.Proofs.Compact
import Verif.Spec.Sample

/-!
# Properties C33 - C36, C65: inner instructions in compact form

The specification of what a compact instruction means is `Denotes` in Verif/Spec/Compact.lean.
-/

namespace Verif

/-! ## C33: encoding and decoding -/

/-- Decoding what was encoded gives exactly the instructions the compact instructions describe, in order, whatever follows
them in the payload. -/
theorem C33_round_trip {metas : List Meta} {signer : Key} {restricted : List Key} {cs : List CompactIx} {is : List Inner}
    (hn : cs.length ≤ 255) (hf : ∀ c ∈ cs, c.accounts.length ≤ 254 ∧ c.data.length < 2 ^ 16)
    (hd : All2 (Denotes metas signer restricted) cs is) (rest : Bytes) :
    decodeIxs metas signer restricted (compactBytes cs ++ rest) = .ok is :=
  (decodeIxs_iff is).mpr ⟨cs, rest, hn, hf, rfl, hd⟩

theorem denotes_exists {metas : List Meta} {signer : Key} {restricted : List Key} {c : CompactIx}
    (hp : c.program.toNat < metas.length) (ha : ∀ x ∈ c.accounts, x.toNat < metas.length) :
    ∃ i, Denotes metas signer restricted c i := by
  have hacc : ∀ xs : List UInt8, (∀ x ∈ xs, x.toNat < metas.length) → ∃ as, All2 (Passes metas signer restricted) xs as := by
    intro xs
    induction xs with
    | nil => intro _; exact ⟨[], .nil⟩
    | cons x xs ih =>
      intro h
      obtain ⟨as, has⟩ := ih fun y hy => h y (by simp [hy])
      have hx := h x (by simp)
      exact ⟨_ :: as, .cons (passes_innerMeta (List.getElem?_eq_getElem hx)) has⟩
  obtain ⟨as, has⟩ := hacc c.accounts ha
  refine ⟨⟨metas[c.program.toNat].key, c.accounts.map (·.toNat), as, c.data, as.any fun a => a.signer && a.key == signer⟩,
    ⟨_, List.getElem?_eq_getElem hp, rfl⟩, rfl, has, rfl, ?_⟩
  simp [and_comm]

theorem denotes_all {metas : List Meta} {signer : Key} {restricted : List Key} : ∀ {cs : List CompactIx},
    (∀ c ∈ cs, c.program.toNat < metas.length ∧ ∀ x ∈ c.accounts, x.toNat < metas.length) →
    ∃ is, All2 (Denotes metas signer restricted) cs is := by
  intro cs
  induction cs with
  | nil => intro _; exact ⟨[], .nil⟩
  | cons c cs ih =>
    intro h
    obtain ⟨is, his⟩ := ih fun d hd => h d (by simp [hd])
    obtain ⟨i, hi⟩ := denotes_exists (signer := signer) (restricted := restricted) (h c (by simp)).1 (h c (by simp)).2
    exact ⟨i :: is, .cons hi his⟩

/-- With all indices within the outer account list the decoding succeeds, and each result is what its compact instruction
describes. -/
theorem C33_decodes {metas : List Meta} {signer : Key} {restricted : List Key} {cs : List CompactIx} (hn : cs.length ≤ 255)
    (hf : ∀ c ∈ cs, c.accounts.length ≤ 254 ∧ c.data.length < 2 ^ 16)
    (hi : ∀ c ∈ cs, c.program.toNat < metas.length ∧ ∀ x ∈ c.accounts, x.toNat < metas.length) :
    ∃ is, decodeIxs metas signer restricted (compactBytes cs) = .ok is ∧ All2 (Denotes metas signer restricted) cs is := by
  obtain ⟨is, his⟩ := denotes_all (signer := signer) (restricted := restricted) hi
  have := C33_round_trip hn hf his []
  rw [List.append_nil] at this
  exact ⟨is, this, his⟩

/-! ## C36: no misreading -/

/-- Every payload that decodes is the encoding of compact instructions, read left to right, followed by unread bytes; their
indices are all within the account list, and the result is what they describe.  Everything else is refused. -/
theorem C36_no_misreading {metas : List Meta} {signer : Key} {restricted : List Key} {b : Bytes} {is : List Inner}
    (h : decodeIxs metas signer restricted b = .ok is) :
    ∃ (cs : List CompactIx) (rest : Bytes), b = compactBytes cs ++ rest ∧ All2 (Denotes metas signer restricted) cs is ∧
      (∀ c ∈ cs, c.program.toNat < metas.length ∧ ∀ x ∈ c.accounts, x.toNat < metas.length) ∧
      ∀ c ∈ cs, c.accounts.length ≤ 254 ∧ c.data.length < 2 ^ 16 := by
  obtain ⟨cs, y, h1, h2, h3, h4⟩ := (decodeIxs_iff is).mp h
  refine ⟨cs, y, h3, h4, ?_, h2⟩
  have hacc : ∀ (xs : List UInt8) (as : List Meta), All2 (Passes metas signer restricted) xs as →
      ∀ x ∈ xs, x.toNat < metas.length := by
    intro xs as h
    induction h with
    | nil => simp
    | cons hp _ ih =>
      intro x hx
      rcases List.mem_cons.mp hx with rfl | hx
      · obtain ⟨o, ho, _⟩ := hp
        exact (List.getElem?_eq_some_iff.mp ho).1
      · exact ih x hx
  clear h h1 h2 h3
  induction h4 with
  | nil => simp
  | cons hd _ ih =>
    intro c hc
    rcases List.mem_cons.mp hc with rfl | hc
    · obtain ⟨o, ho, _⟩ := hd.program
      exact ⟨(List.getElem?_eq_some_iff.mp ho).1, hacc _ _ hd.accounts⟩
    · exact ih c hc

/-- A payload has at most one reading: the compact instructions found in it are unique. -/
theorem C36_unambiguous {cs cs' : List CompactIx} {rest rest' : Bytes} (hn : cs.length ≤ 255) (hn' : cs'.length ≤ 255)
    (hf : ∀ c ∈ cs, c.accounts.length ≤ 254 ∧ c.data.length < 2 ^ 16)
    (hf' : ∀ c ∈ cs', c.accounts.length ≤ 254 ∧ c.data.length < 2 ^ 16)
    (h : compactBytes cs ++ rest = compactBytes cs' ++ rest') : cs = cs' ∧ rest = rest' := by
  have hb : ∀ (c c' : CompactIx) (x x' : Bytes), (c.accounts.length ≤ 254 ∧ c.data.length < 2 ^ 16) →
      (c'.accounts.length ≤ 254 ∧ c'.data.length < 2 ^ 16) → c.bytes ++ x = c'.bytes ++ x' → c = c' ∧ x = x' := by
    intro c c' x x' f f' h
    simp only [CompactIx.bytes, List.append_assoc, List.cons_append, List.nil_append, List.cons.injEq] at h
    obtain ⟨e1, e2, h⟩ := h
    have el : c.accounts.length = c'.accounts.length := by
      have := congrArg UInt8.toNat e2
      simp at this
      omega
    obtain ⟨e3, h⟩ := List.append_inj h el
    obtain ⟨e4, h⟩ := List.append_inj h (by simp)
    have ed := natLE_inj (k := 2) (by simpa using f.2) (by simpa using f'.2) e4
    obtain ⟨e5, h⟩ := List.append_inj h ed
    refine ⟨?_, h⟩
    cases c; cases c'; simp_all
  have hall : ∀ (cs cs' : List CompactIx) (x x' : Bytes), cs.length = cs'.length →
      (∀ c ∈ cs, c.accounts.length ≤ 254 ∧ c.data.length < 2 ^ 16) →
      (∀ c ∈ cs', c.accounts.length ≤ 254 ∧ c.data.length < 2 ^ 16) →
      cs.flatMap CompactIx.bytes ++ x = cs'.flatMap CompactIx.bytes ++ x' → cs = cs' ∧ x = x' := by
    intro cs
    induction cs with
    | nil =>
      intro cs' x x' hl _ _ h
      cases cs' with
      | nil => exact ⟨rfl, by simpa using h⟩
      | cons _ _ => simp at hl
    | cons c cs ih =>
      intro cs' x x' hl f f' h
      cases cs' with
      | nil => simp at hl
      | cons c' cs' =>
        simp only [List.flatMap_cons, List.append_assoc] at h
        obtain ⟨rfl, h2⟩ := hb _ _ _ _ (f c (by simp)) (f' c' (by simp)) h
        obtain ⟨rfl, h3⟩ := ih cs' x x' (by simpa using hl) (fun d hd => f d (by simp [hd])) (fun d hd => f' d (by simp [hd])) h2
        exact ⟨rfl, h3⟩
  simp only [compactBytes, List.cons_append, List.cons.injEq] at h
  refine hall cs cs' rest rest' ?_ hf hf' h.2
  have := congrArg UInt8.toNat h.1
  simp at this
  omega

/-! ## C35: signatures -/

/-- An account of a decoded instruction is marked as signer only if it is the wallet's own signing address, or signed the outer
transaction, and is not restricted; it is writable only if it is writable in the outer transaction; and `usesSigner` tells
exactly whether the signing address signs. -/
theorem C35_no_forged_signature {metas : List Meta} {signer : Key} {restricted : List Key} {b : Bytes} {is : List Inner}
    (h : decodeIxs metas signer restricted b = .ok is) :
    ∀ i ∈ is, (∀ a ∈ i.accounts, ∃ o ∈ metas, o.key = a.key ∧ a.writable = o.writable ∧
        (a.signer = true ↔ (a.key = signer ∨ o.signer = true) ∧ a.key ∉ restricted)) ∧
      (i.usesSigner = true ↔ ∃ a ∈ i.accounts, a.key = signer ∧ a.signer = true) := by
  obtain ⟨cs, y, h1, h2, h3, h4⟩ := (decodeIxs_iff is).mp h
  have hacc : ∀ (xs : List UInt8) (as : List Meta), All2 (Passes metas signer restricted) xs as →
      ∀ a ∈ as, ∃ o ∈ metas, o.key = a.key ∧ a.writable = o.writable ∧
        (a.signer = true ↔ (a.key = signer ∨ o.signer = true) ∧ a.key ∉ restricted) := by
    intro xs as h
    induction h with
    | nil => simp
    | cons hp _ ih =>
      intro a ha
      rcases List.mem_cons.mp ha with rfl | ha
      · obtain ⟨o, ho, e1, e2, e3⟩ := hp
        exact ⟨o, List.mem_of_getElem? ho, e1.symm, e2, by rw [e1]; exact e3⟩
      · exact ih a ha
  clear h h1 h2 h3
  induction h4 with
  | nil => simp
  | cons hd _ ih =>
    intro i hi
    rcases List.mem_cons.mp hi with rfl | hi
    · exact ⟨hacc _ _ hd.accounts, hd.usesSigner⟩
    · exact ih i hi

section
open Sample

/-- Two instructions on a list of five outer accounts, for all four theorems. -/
def compactSample : List CompactIx := [⟨3, [1, 2], [7, 8]⟩, ⟨4, [0, 1, 0], []⟩]

def compactMetas : List Meta :=
  [⟨K 1, false, true⟩, ⟨K 2, false, true⟩, ⟨K 3, true, false⟩, ⟨systemId, false, false⟩, ⟨tokenId, false, false⟩]

example : compactSample.length ≤ 255 ∧ (∀ c ∈ compactSample, c.accounts.length ≤ 254 ∧ c.data.length < 2 ^ 16) ∧
    (∀ c ∈ compactSample, c.program.toNat < compactMetas.length ∧ ∀ x ∈ c.accounts, x.toNat < compactMetas.length) := by
  decide

example : decodeIxs compactMetas (K 2) [K 1] (compactBytes compactSample ++ [9]) = .ok
    [⟨systemId, [1, 2], [⟨K 2, true, true⟩, ⟨K 3, true, false⟩], [7, 8], true⟩,
     ⟨tokenId, [0, 1, 0], [⟨K 1, false, true⟩, ⟨K 2, true, true⟩, ⟨K 1, false, true⟩], [], true⟩] := by decide
end

/-! ## C34: compaction on the client -/

/-- A compact instruction stands for an instruction, relative to an outer account list: its indices name the accounts with the
original keys. -/
structure StandsFor (outer : List Meta) (ix : FullIx) (c : CompactIx) : Prop where
  program : (outer[c.program.toNat]?).map (·.key) = some ix.program
  accounts : All2 (fun (a : Meta) (x : UInt8) => (outer[x.toNat]?).map (·.key) = some a.key) ix.accounts c.accounts
  data : c.data = ix.data

/-- The account at index `i` has key `k` and satisfies `G`. -/
def At (G : Meta → Prop) (accounts : List Meta) (i : Nat) (k : Key) : Prop := ∃ o, accounts[i]? = some o ∧ o.key = k ∧ G o

theorem At.prefix {G : Meta → Prop} {a b : List Meta} (h : a <+: b) {i : Nat} {k : Key} (hx : At G a i k) : At G b i k := by
  obtain ⟨o, h1, h2⟩ := hx
  obtain ⟨t, rfl⟩ := h
  exact ⟨o, by rw [List.getElem?_append_left (List.getElem?_eq_some_iff.mp h1).1, h1], h2⟩

theorem At.lt {G : Meta → Prop} {a : List Meta} {i : Nat} {k : Key} (hx : At G a i k) : i < a.length := by
  obtain ⟨o, h1, _⟩ := hx
  exact (List.getElem?_eq_some_iff.mp h1).1

theorem At.last {G : Meta → Prop} {a : List Meta} {o : Meta} (ho : G o) : At G (a ++ [o]) a.length o.key :=
  ⟨o, by simp, rfl, ho⟩

theorem find_cons {h : KeyMap} {k k' : Key} {i j : Nat} (hf : KeyMap.find ((k', j) :: h) k = some i) :
    (k' = k ∧ j = i) ∨ h.find k = some i := by
  simp only [KeyMap.find, List.find?_cons] at hf
  split at hf
  · rename_i he
    simp only [Option.map_some, Option.some.injEq] at hf
    simp only [beq_iff_eq] at he
    exact .inl ⟨he, hf⟩
  · exact .inr hf

theorem find_ofMetas {G : Meta → Prop} : ∀ (as pre : List Meta) (h : KeyMap) (k : Key) (i : Nat), (∀ a ∈ as, G a) →
    (∀ k i, h.find k = some i → At G (pre ++ as) i k) →
    (KeyMap.ofMetas pre.length as h).find k = some i → At G (pre ++ as) i k := by
  intro as
  induction as with
  | nil => intro pre h k i _ hinv hf; exact hinv k i hf
  | cons a as ih =>
    intro pre h k i hG hinv hf
    have := ih (pre ++ [a]) ((a.key, pre.length) :: h) k i (fun b hb => hG b (by simp [hb]))
    simp only [List.append_assoc, List.cons_append, List.nil_append, List.length_append, List.length_cons, List.length_nil,
      Nat.zero_add] at this
    refine this ?_ hf
    intro k i hk
    rcases find_cons hk with ⟨rfl, rfl⟩ | hk
    · exact ⟨a, by simp, rfl, hG a (by simp)⟩
    · exact hinv k i hk

theorem ofNat_toNat {i : Nat} (h : i < 256) : (UInt8.ofNat i).toNat = i := by simp; omega

/-- An account as the client passes it on: the signer flag of its own addresses is cleared. -/
def strip (own : List Key) (a : Meta) : Meta := if own.contains a.key then { a with signer := false } else a

theorem strip_key (own : List Key) (a : Meta) : (strip own a).key = a.key := by unfold strip; split <;> rfl

theorem compactAccounts_prop {G : Meta → Prop} (own : List Key) (F : List Meta) (hF : F.length ≤ 256) :
    ∀ (as accounts : List Meta) (h : KeyMap) (is : List UInt8) (accounts' : List Meta) (h' : KeyMap),
    (∀ a ∈ as, G (strip own a)) → (∀ k i, h.find k = some i → At G accounts i k) →
    compactAccounts own as accounts h = (is, accounts', h') → accounts' <+: F →
    (∀ k i, h'.find k = some i → At G accounts' i k) ∧ accounts <+: accounts' ∧
      All2 (fun (a : Meta) (x : UInt8) => At G F x.toNat a.key) as is := by
  intro as
  induction as with
  | nil =>
    intro accounts h is accounts' h' _ hinv he hp
    cases he
    exact ⟨hinv, List.prefix_refl _, .nil⟩
  | cons a as ih =>
    intro accounts h is accounts' h' hG hinv he hp
    have hG' : ∀ a ∈ as, G (strip own a) := fun b hb => hG b (by simp [hb])
    simp only [compactAccounts] at he
    change (match h.find (strip own a).key with
      | some i => _ | none => _) = _ at he
    rw [strip_key] at he
    split at he
    · rename_i i hi
      obtain ⟨k1, k2, k3⟩ := ih accounts h _ accounts' h' hG' hinv (by cases he; rfl) hp
      cases he
      refine ⟨k1, k2, .cons ?_ k3⟩
      have := (hinv _ _ hi).prefix (k2.trans hp)
      rw [ofNat_toNat (by have := this.lt; omega)]
      exact this
    · have hinv' : ∀ k i, KeyMap.find ((a.key, accounts.length) :: h) k = some i → At G (accounts ++ [strip own a]) i k := by
        intro k i hf
        rcases find_cons hf with ⟨rfl, rfl⟩ | hf
        · have := At.last (a := accounts) (hG a (by simp))
          rwa [strip_key] at this
        · exact (hinv k i hf).prefix (List.prefix_append _ _)
      obtain ⟨k1, k2, k3⟩ := ih (accounts ++ [strip own a]) ((a.key, accounts.length) :: h) _ accounts' h' hG' hinv'
        (by rw [← strip_key own a]; cases he; rfl) hp
      cases he
      refine ⟨k1, (List.prefix_append _ _).trans k2, .cons ?_ k3⟩
      have := (At.last (a := accounts) (hG a (by simp))).prefix (k2.trans hp)
      rw [strip_key] at this
      rw [ofNat_toNat (by have := this.lt; omega)]
      exact this

theorem compactAccounts_prefix (own : List Key) : ∀ (as accounts : List Meta) (h : KeyMap),
    accounts <+: (compactAccounts own as accounts h).2.1 := by
  intro as
  induction as with
  | nil => intro accounts h; exact List.prefix_refl _
  | cons a as ih =>
    intro accounts h
    simp only [compactAccounts]
    split
    · exact ih _ _
    · exact (List.prefix_append _ _).trans (ih _ _)

theorem compactLoop_prefix (own : List Key) : ∀ (ixs : List FullIx) (accounts : List Meta) (h : KeyMap),
    accounts <+: (compactLoop own ixs accounts h).2 := by
  intro ixs
  induction ixs with
  | nil => intro accounts h; exact List.prefix_refl _
  | cons ix ixs ih =>
    intro accounts h
    simp only [compactLoop]
    exact (List.prefix_append _ _).trans ((compactAccounts_prefix own _ _ _).trans (ih _ _))

/-- What the loop produces: program, accounts (with `G`), data. -/
structure Compacted (G : Meta → Prop) (outer : List Meta) (ix : FullIx) (c : CompactIx) : Prop where
  program : At (fun _ => True) outer c.program.toNat ix.program
  accounts : All2 (fun (a : Meta) (x : UInt8) => At G outer x.toNat a.key) ix.accounts c.accounts
  data : c.data = ix.data

theorem compactLoop_prop {G : Meta → Prop} (own : List Key) (F : List Meta) (hF : F.length ≤ 256) :
    ∀ (ixs : List FullIx) (accounts : List Meta) (h : KeyMap), (∀ ix ∈ ixs, ∀ a ∈ ix.accounts, G (strip own a)) →
    (∀ k i, h.find k = some i → At G accounts i k) →
    (compactLoop own ixs accounts h).2 <+: F → All2 (Compacted G F) ixs (compactLoop own ixs accounts h).1 := by
  intro ixs
  induction ixs with
  | nil => intro accounts h _ _ _; exact .nil
  | cons ix ixs ih =>
    intro accounts h hG hinv hp
    simp only [compactLoop] at hp ⊢
    generalize hca : compactAccounts own ix.accounts (accounts ++ [⟨ix.program, false, false⟩]) h = r at hp ⊢
    obtain ⟨is, accounts', h'⟩ := r
    simp only at hp ⊢
    have hpre := compactLoop_prefix own ixs accounts' h'
    obtain ⟨k1, k2, k3⟩ := compactAccounts_prop own F hF _ _ _ _ _ _ (hG ix (by simp))
      (fun k i hf => (hinv k i hf).prefix (List.prefix_append _ _)) hca (hpre.trans hp)
    refine .cons ⟨?_, k3, rfl⟩ (ih _ _ (fun ix' h' => hG ix' (by simp [h'])) k1 hp)
    have := (At.last (G := fun _ => True) (a := accounts) (o := ⟨ix.program, false, false⟩) trivial).prefix
      (k2.trans (hpre.trans hp))
    simp only
    rw [ofNat_toNat (by have := this.lt; omega)]
    exact this

theorem compactInstructions_prop {G : Meta → Prop} {own : List Key} {accounts outer : List Meta} {ixs : List FullIx}
    {cs : List CompactIx} (h : compactInstructions own accounts ixs = (outer, cs)) (hl : outer.length ≤ 256)
    (hG : ∀ ix ∈ ixs, ∀ a ∈ ix.accounts, G (strip own a)) (hG0 : ∀ a ∈ accounts, G a) :
    All2 (Compacted G outer) ixs cs ∧ accounts <+: outer := by
  simp only [compactInstructions] at h
  have e1 : (compactLoop own ixs accounts (KeyMap.ofMetas 0 accounts [])).2 = outer := congrArg Prod.fst h
  have e2 : (compactLoop own ixs accounts (KeyMap.ofMetas 0 accounts [])).1 = cs := congrArg Prod.snd h
  subst e1 e2
  refine ⟨compactLoop_prop own _ hl _ _ _ hG ?_ (List.prefix_refl _), compactLoop_prefix own _ _ _⟩
  intro k i hf
  exact find_ofMetas accounts [] [] k i hG0 (by simp [KeyMap.find]) hf

theorem All2.imp {α β : Type} {R S : α → β → Prop} (hi : ∀ a b, R a b → S a b) {as : List α} {bs : List β}
    (h : All2 R as bs) : All2 S as bs := by
  induction h with
  | nil => exact .nil
  | cons h _ ih => exact .cons (hi _ _ h) ih

theorem All2.imp_mem {α β : Type} {R S : α → β → Prop} {as : List α} {bs : List β}
    (h : All2 R as bs) (hi : ∀ a ∈ as, ∀ b, R a b → S a b) : All2 S as bs := by
  induction h with
  | nil => exact .nil
  | cons h _ ih => exact .cons (hi _ (by simp) _ h) (ih fun a ha => hi a (by simp [ha]))

/-- Compaction, as the client does it for signing with the wallet (`own` = its address) or with a sub-account, with at
most 256 outer accounts: every index refers, in the outer account list produced, to the account of the original
instruction, every program index to its program, and the data are kept. -/
theorem C34_compaction {own : List Key} {accounts outer : List Meta} {ixs : List FullIx} {cs : List CompactIx}
    (h : compactInstructions own accounts ixs = (outer, cs)) (hl : outer.length ≤ 256) :
    All2 (StandsFor outer) ixs cs ∧ accounts <+: outer := by
  obtain ⟨h1, h2⟩ := compactInstructions_prop (G := fun _ => True) h hl (fun _ _ _ _ => trivial) (fun _ _ => trivial)
  refine ⟨h1.imp ?_, h2⟩
  rintro ix c ⟨⟨o, o1, o2, _⟩, k2, k3⟩
  refine ⟨by simp [o1, o2], k2.imp ?_, k3⟩
  rintro a x ⟨o, o1, o2, _⟩
  simp [o1, o2]

theorem StandsFor.promoted {outer metas : List Meta} (hk : metas.map (·.key) = outer.map (·.key)) {ix : FullIx} {c : CompactIx}
    (h : StandsFor outer ix c) : StandsFor metas ix c := by
  have e : ∀ n : Nat, (metas[n]?).map (·.key) = (outer[n]?).map (·.key) := by
    intro n
    rw [← List.getElem?_map, ← List.getElem?_map, hk]
  exact ⟨by rw [e]; exact h.program, h.accounts.imp (fun a x hx => by rw [e]; exact hx), h.data⟩

theorem decodeIxs_stands {metas : List Meta} {ixs : List FullIx} {cs : List CompactIx} (hs : All2 (StandsFor metas) ixs cs)
    (hn : ixs.length ≤ 255) (hf : ∀ ix ∈ ixs, ix.accounts.length ≤ 254 ∧ ix.data.length < 2 ^ 16) (signer : Key)
    (restricted : List Key) :
    ∃ is, decodeIxs metas signer restricted (compactBytes cs) = .ok is ∧
      All2 (fun (ix : FullIx) (i : Inner) => i.program = ix.program ∧ i.accounts.map (·.key) = ix.accounts.map (·.key) ∧
        i.data = ix.data) ixs is := by
  have key : ∀ {ixs : List FullIx} {cs : List CompactIx}, All2 (StandsFor metas) ixs cs →
      (∀ ix ∈ ixs, ix.accounts.length ≤ 254 ∧ ix.data.length < 2 ^ 16) →
      cs.length = ixs.length ∧ (∀ c ∈ cs, c.accounts.length ≤ 254 ∧ c.data.length < 2 ^ 16) ∧
      ∃ is, All2 (Denotes metas signer restricted) cs is ∧
      All2 (fun (ix : FullIx) (i : Inner) => i.program = ix.program ∧ i.accounts.map (·.key) = ix.accounts.map (·.key) ∧
        i.data = ix.data) ixs is := by
    intro ixs cs hs
    induction hs with
    | nil => intro _; exact ⟨rfl, by simp, [], .nil, .nil⟩
    | @cons ix c ixs cs h1 _ ih =>
      intro hf
      obtain ⟨j1, j2, is, j3, j4⟩ := ih fun d hd => hf d (by simp [hd])
      obtain ⟨a1, a2, a3⟩ := h1
      have hacc : ∀ {as : List Meta} {xs : List UInt8},
          All2 (fun (a : Meta) (x : UInt8) => (metas[x.toNat]?).map (·.key) = some a.key) as xs →
          ∃ bs, All2 (Passes metas signer restricted) xs bs ∧ bs.map (·.key) = as.map (·.key) := by
        intro as xs h
        induction h with
        | nil => exact ⟨[], .nil, rfl⟩
        | cons hx _ ih =>
          obtain ⟨bs, b1, b2⟩ := ih
          rw [Option.map_eq_some_iff] at hx
          obtain ⟨o, o1, o2⟩ := hx
          exact ⟨_ :: bs, .cons (passes_innerMeta o1) b1, by simp [innerMeta, b2, o2]⟩
      obtain ⟨bs, b1, b2⟩ := hacc a2
      rw [Option.map_eq_some_iff] at a1
      obtain ⟨o, o1, o2⟩ := a1
      refine ⟨by simp [j1], ?_, _ :: is, .cons (b := ⟨ix.program, c.accounts.map (·.toNat), bs, c.data,
        bs.any fun a => a.signer && a.key == signer⟩) ⟨⟨o, o1, o2.symm⟩, rfl, b1, rfl, by simp [and_comm]⟩ j3,
        .cons ⟨rfl, b2, a3⟩ j4⟩
      intro d hd
      rcases List.mem_cons.mp hd with rfl | hd
      · have := hf ix (by simp)
        rw [a3, ← a2.length_eq]
        exact this
      · exact j2 d hd
  obtain ⟨j1, j2, is, j3, j4⟩ := key hs hf
  have := C33_round_trip (by omega) j2 j3 []
  rw [List.append_nil] at this
  exact ⟨is, this, j4⟩

/-- From the client to the inside of the program: what the program decodes are the original instructions, with the same
programs, keys and data. -/
theorem C34_end_to_end {own : List Key} {accounts outer : List Meta} {ixs : List FullIx} {cs : List CompactIx}
    (h : compactInstructions own accounts ixs = (outer, cs)) (hl : outer.length ≤ 256) (hn : ixs.length ≤ 255)
    (hf : ∀ ix ∈ ixs, ix.accounts.length ≤ 254 ∧ ix.data.length < 2 ^ 16) (signer : Key) (restricted : List Key) :
    ∃ is, decodeIxs outer signer restricted (compactBytes cs) = .ok is ∧
      All2 (fun (ix : FullIx) (i : Inner) => i.program = ix.program ∧ i.accounts.map (·.key) = ix.accounts.map (·.key) ∧
        i.data = ix.data) ixs is :=
  decodeIxs_stands (C34_compaction h hl).1 hn hf signer restricted

section
open Sample

/-- Two instructions sharing accounts, on a given account list. -/
def fullSample : List FullIx :=
  [⟨systemId, [⟨K 2, true, true⟩, ⟨K 40, false, true⟩], [2, 0, 0, 0]⟩, ⟨tokenId, [⟨K 40, false, true⟩, ⟨K 1, false, false⟩], [3]⟩]

def outerSample : List Meta := [⟨K 1, false, true⟩, ⟨K 2, false, true⟩]

example : compactInstructions [K 2] outerSample fullSample =
    ([⟨K 1, false, true⟩, ⟨K 2, false, true⟩, ⟨systemId, false, false⟩, ⟨K 40, false, true⟩, ⟨tokenId, false, false⟩],
     [⟨2, [1, 3], [2, 0, 0, 0]⟩, ⟨4, [3, 0], [3]⟩]) := by decide +kernel

/-! ## C65: privileges after compaction -/

/-- The full claim is false: an account that the first instruction uses read-only and the second one writes is passed to the
program read-only, so the second instruction is refused. -/
theorem C65_refuted : ∃ (ixs : List FullIx) (ix : FullIx) (a : Meta), ix ∈ ixs ∧ a ∈ ix.accounts ∧ a.writable = true ∧
    ∀ o ∈ (compactInstructions [K 2] outerSample ixs).1, o.key = a.key → o.writable = false :=
  ⟨[⟨tokenId, [⟨K 40, false, false⟩], [1]⟩, ⟨tokenId, [⟨K 40, false, true⟩], [2]⟩], ⟨tokenId, [⟨K 40, false, true⟩], [2]⟩,
    ⟨K 40, false, true⟩, by simp, by simp, rfl, by decide +kernel⟩
end

/-- What holds: if every key is used with the same flags wherever it occurs (`wr` and `sg` say which), every account of every
instruction is passed to the program with its write flag, and with its signer flag unless it is one of the wallet's own
addresses.  Missing for the full claim: keys used with different flags, see `C65_refuted`. -/
theorem C65_privileges_partial {own : List Key} {accounts outer : List Meta} {ixs : List FullIx} {cs : List CompactIx}
    (h : compactInstructions own accounts ixs = (outer, cs)) (hl : outer.length ≤ 256) (wr sg : Key → Bool)
    (hixs : ∀ ix ∈ ixs, ∀ a ∈ ix.accounts, a.writable = wr a.key ∧ a.signer = sg a.key)
    (hacc : ∀ a ∈ accounts, a.writable = wr a.key ∧ (a.key ∉ own → a.signer = sg a.key)) :
    All2 (fun (ix : FullIx) (c : CompactIx) => All2 (fun (a : Meta) (x : UInt8) =>
      ∃ o, outer[x.toNat]? = some o ∧ o.key = a.key ∧ o.writable = a.writable ∧ (a.key ∉ own → o.signer = a.signer))
      ix.accounts c.accounts) ixs cs := by
  obtain ⟨h1, _⟩ := compactInstructions_prop (G := fun a => a.writable = wr a.key ∧ (a.key ∉ own → a.signer = sg a.key)) h hl
    (by
      intro ix hix a ha
      have := hixs ix hix a ha
      rw [strip_key]
      unfold strip
      split
      · rename_i hc
        simp only [List.contains_iff_mem] at hc
        exact ⟨this.1, fun hn => absurd hc hn⟩
      · exact ⟨this.1, fun _ => this.2⟩) hacc
  refine h1.imp_mem ?_
  rintro ix hix c ⟨_, k2, _⟩
  refine k2.imp_mem ?_
  rintro a ha x ⟨o, o1, o2, o3, o4⟩
  have := hixs ix hix a ha
  refine ⟨o, o1, o2, by rw [o3, this.1, o2], fun hn => ?_⟩
  rw [o4 (by rwa [o2]), this.2, o2]

section
open Sample

example : (∀ ix ∈ fullSample.dropLast, ∀ a ∈ ix.accounts, a.writable = true ∧ a.signer = decide (a.key = K 2)) ∧
    ∀ a ∈ outerSample, a.writable = true ∧ (a.key ∉ [K 2] → a.signer = decide (a.key = K 2)) := by decide +kernel
end

end Verif
