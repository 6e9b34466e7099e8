import Verif.Proofs.Frame

/-! An instruction executed for one wallet takes no lamports out of the configuration accounts of other wallets, as long as called programs
assign no System account to anybody. -/

namespace Verif

/-- Nobody holds so much that adding three balances could wrap (the total supply is about 2^59 lamports). -/
def Supply (m : Mem) : Prop := ∀ k, (m k).lamports < 2 ^ 62

/-- A condition on data and balance of an account that survives a growing balance, and survives a rewrite of data with the discriminator
of a V2 sub-account. -/
structure Upward where
  holds : Bytes → Nat → Prop
  up : ∀ d a b, a ≤ b → holds d a → holds d b
  state : ∀ d d' a, d.getD 0 0 = 2 → holds d a → holds d' a

/-- The account `v` belongs to the wallet program and meets the condition. -/
def Keep (v : Key) (Q : Upward) (m : Mem) : Prop := (m v).owner = swigId ∧ Q.holds (m v).data (m v).lamports

/-- At least `lo` lamports, whatever the data. -/
def Upward.atLeast (lo : Nat) : Upward := ⟨fun _ a => lo ≤ a, fun _ _ _ h1 h2 => Nat.le_trans h2 h1, fun _ _ _ _ h => h⟩

section
variable {v : Key} {Q : Upward} {env : Env} {cpi : Cpi} {m m' : Mem}

theorem Keep.congr (h : Keep v Q m) (e : (m' v).data = (m v).data ∧ (m' v).lamports = (m v).lamports ∧ (m' v).owner = (m v).owner) :
    Keep v Q m' := by
  unfold Keep; rw [e.1, e.2.1, e.2.2]; exact h

theorem Keep.ne {k : Key} (h : Keep v Q m) (hk : (m k).owner = systemId) : v ≠ k := by
  rintro rfl; have := h.1; rw [hk] at this; revert this; decide

theorem Keep.setData {k : Key} (h : Keep v Q m) (hk : v ≠ k) (d : Bytes) : Keep v Q (m.setData k d) := by
  unfold Keep; rw [Mem.setData_other m d hk]; exact h

theorem Keep.setState {k : Key} (h : Keep v Q m) (d : Bytes) (hk : (m k).data.getD 0 0 = 2) : Keep v Q (m.setData k d) := by
  by_cases e : v = k
  · subst e
    exact ⟨by simpa using h.1, by simpa using Q.state _ d _ hk h.2⟩
  · exact h.setData e d

theorem Keep.setLamports {k : Key} (h : Keep v Q m) (hk : v ≠ k) (l : Nat) : Keep v Q (m.setLamports k l) := by
  refine h.congr ?_
  simp [Mem.setLamports, Mem.set, hk]

theorem Keep.raise {k : Key} {l : Nat} (h : Keep v Q m) (hl : k = v → (m v).lamports ≤ l) : Keep v Q (m.setLamports k l) := by
  by_cases hk : v = k
  · subst hk
    have := hl rfl
    exact ⟨by simpa using h.1, by simpa [Mem.setLamports, Mem.set] using Q.up _ _ _ this h.2⟩
  · exact h.setLamports hk l

theorem Keep.realloc {k : Key} {l : Nat} (h : Keep v Q m) (hk : v ≠ k) (e : realloc m k l = .ok m') : Keep v Q m' := by
  obtain ⟨_, rfl⟩ := realloc_ok e; exact h.setData hk _

theorem Keep.sysTransfer {src dst : Meta} {l : Nat} (h : Keep v Q m) (e : sysTransfer m src dst l = .ok m') : Keep v Q m' := by
  obtain ⟨_, h1, _, _, rfl⟩ := sysTransfer_ok e
  refine (h.setLamports (h.ne h1) _).raise ?_
  rintro rfl
  omega

theorem Keep.topUp {payer swig : Meta} {l : Nat} (h : Keep v Q m) (e : topUp env m payer swig l = .ok m') : Keep v Q m' := by
  unfold Verif.topUp at e
  dsimp only at e
  split at e
  · exact h.sysTransfer e
  · cases e; exact h

theorem Keep.fundWallet {payer wallet : Meta} (h : Keep v Q m) (e : fundWallet env m payer wallet = .ok m') : Keep v Q m' := by
  unfold Verif.fundWallet at e
  dsimp only at e
  split at e
  · exact h.sysTransfer e
  · cases e; exact h

theorem Keep.fundState {payer state : Meta} (h : Keep v Q m) (e : fundState env m payer state = .ok m') : Keep v Q m' := by
  unfold Verif.fundState at e
  split at e
  · exact h.sysTransfer e
  · cases e; exact h

theorem Keep.fundEmpty {payer sub : Meta} (h : Keep v Q m) (e : fundEmpty env m payer sub = .ok m') : Keep v Q m' := by
  exact h.fundWallet e

theorem Keep.signedTransfer {seeds : List Bytes} {src dst : Meta} {l : Nat} (h : Keep v Q m)
    (e : signedTransfer env m seeds src dst l = .ok m') : Keep v Q m' := by
  unfold Verif.signedTransfer at e
  split at e
  · cases e
  · exact h.sysTransfer e

theorem Keep.sysCreate {src dst : Meta} {l s : Nat} {o : Key} (h : Keep v Q m) (e : sysCreate m src dst l s o = .ok m') : Keep v Q m' := by
  unfold Verif.sysCreate at e
  split at e
  · cases e
  · split at e
    · cases e
    · rename_i hn
      split at e
      · cases e
      · have hk : v ≠ dst.key := h.ne (Classical.byContradiction fun hh => hn (.inr (.inr hh)))
        refine Keep.sysTransfer ?_ e
        unfold Keep; rw [Mem.set_other m _ hk]; exact h

theorem Keep.growFor {payer swig : Meta} {l : Nat} (h : Keep v Q m) (hk : v ≠ swig.key) (e : growFor env m payer swig l = .ok m') :
    Keep v Q m' := by
  unfold Verif.growFor at e
  split at e
  · obtain ⟨m1, h1, e⟩ := bind_ok_iff.mp e
    exact (h.realloc hk h1).topUp e
  · cases e; exact h

/-- Growing either moves no lamports at all or the payer is a System account. -/
theorem growFor_cases {payer swig : Meta} {l : Nat} (h : Keep v Q m) (hk : v ≠ swig.key) (e : growFor env m payer swig l = .ok m') :
    (∀ k, (m' k).lamports = (m k).lamports) ∨ payer.key ≠ v := by
  unfold Verif.growFor at e
  split at e
  · obtain ⟨m1, h1, e⟩ := bind_ok_iff.mp e
    have h2 := h.realloc hk h1
    obtain ⟨_, rfl⟩ := realloc_ok h1
    unfold Verif.topUp at e
    dsimp only at e
    split at e
    · right
      obtain ⟨_, h3, _⟩ := sysTransfer_ok e
      exact fun hh => h2.ne h3 hh.symm
    · cases e; left; intro k; simp
  · cases e; left; intro k; rfl

theorem Supply.two (hs : Supply m) {a b : Key} (_ : a ≠ b) : (m a).lamports + (m b).lamports < 2 ^ 64 := by
  have := hs a
  have := hs b
  omega

theorem Supply.three (hs : Supply m) {a b c : Key} (_ : a ≠ b) (_ : a ≠ c) (_ : b ≠ c) :
    (m a).lamports + (m b).lamports + (m c).lamports < 2 ^ 64 := by
  have := hs a
  have := hs b
  have := hs c
  omega

theorem Keep.shrinkBy {payer swig : Key} {l : Nat} (h : Keep v Q m) (hk : v ≠ swig)
    (hs : payer = v → (m v).lamports + (m swig).lamports < 2 ^ 64) (e : shrinkBy env m payer swig l = .ok m') : Keep v Q m' := by
  unfold Verif.shrinkBy at e
  split at e
  · obtain ⟨m1, h1, e⟩ := bind_ok_iff.mp e
    have h := h.realloc hk h1
    obtain ⟨_, rfl⟩ := realloc_ok h1
    dsimp only at e
    split at e
    · cases e
      refine (h.setLamports hk _).raise ?_
      rintro rfl
      have := hs rfl
      simp only [Mem.setLamports, Mem.setData, Mem.set, if_neg hk, if_pos] at *
      unfold add64
      rw [Nat.mod_eq_of_lt (by omega)]
      omega
    · cases e; exact h
  · cases e; exact h

/-! ## Management -/

theorem keep_add {swig payer sys : Meta} {rest : List Meta} {ix : Bytes} (hk : v ≠ swig.key) (h : Keep v Q m)
    (e : addAuthorityV1 env m (swig :: payer :: sys :: rest) ix = .ok m') : Keep v Q m' := by
  simp only [addAuthorityV1] at e
  obtain ⟨_, _, e⟩ := bind_ok_iff.mp e
  obtain ⟨_, _, e⟩ := bind_ok_iff.mp e
  obtain ⟨_, _, e⟩ := bind_ok_iff.mp e
  obtain ⟨_, _, e⟩ := bind_ok_iff.mp e
  obtain ⟨_, _, e⟩ := bind_ok_iff.mp e
  obtain ⟨_, _, e⟩ := bind_ok_iff.mp e
  obtain ⟨⟨_, _⟩, _, e⟩ := bind_ok_iff.mp e
  obtain ⟨_, _, e⟩ := bind_ok_iff.mp e
  obtain ⟨_, _, e⟩ := bind_ok_iff.mp e
  obtain ⟨_, _, e⟩ := bind_ok_iff.mp e
  obtain ⟨m1, h1, e⟩ := bind_ok_iff.mp e
  obtain ⟨m2, h2, e⟩ := bind_ok_iff.mp e
  obtain ⟨_, _, e⟩ := bind_ok_iff.mp e
  cases e
  exact (((h.setData hk _).realloc hk h1).topUp h2).setData hk _

theorem keep_remove {swig payer sys : Meta} {rest : List Meta} {ix : Bytes} (hk : v ≠ swig.key) (h : Keep v Q m)
    (hs : Supply m) (hr : ∀ a b, a ≤ b → env.rent a ≤ env.rent b) (hx : env.rent (m swig.key).data.length ≤ (m swig.key).lamports)
    (e : removeAuthorityV1 env m (swig :: payer :: sys :: rest) ix = .ok m') : Keep v Q m' := by
  simp only [removeAuthorityV1] at e
  obtain ⟨_, _, e⟩ := bind_ok_iff.mp e
  obtain ⟨_, _, e⟩ := bind_ok_iff.mp e
  obtain ⟨_, _, e⟩ := bind_ok_iff.mp e
  obtain ⟨_, _, e⟩ := bind_ok_iff.mp e
  obtain ⟨_, _, e⟩ := bind_ok_iff.mp e
  obtain ⟨_, _, e⟩ := bind_ok_iff.mp e
  obtain ⟨⟨_, _⟩, _, e⟩ := bind_ok_iff.mp e
  obtain ⟨_, _, e⟩ := bind_ok_iff.mp e
  obtain ⟨_, _, e⟩ := bind_ok_iff.mp e
  obtain ⟨_, _, e⟩ := bind_ok_iff.mp e
  obtain ⟨_, _, e⟩ := bind_ok_iff.mp e
  obtain ⟨⟨s, b, removed⟩, _, e⟩ := bind_ok_iff.mp e
  obtain ⟨m1, h1, e⟩ := bind_ok_iff.mp e
  obtain ⟨_, _, e⟩ := bind_ok_iff.mp e
  cases e
  refine Keep.setData (Keep.realloc ?_ hk h1) hk _
  refine ((h.setData hk _).setLamports hk _).raise ?_
  intro hp
  have h2 := hs.two hk
  have h3 := hr ((m swig.key).data.length - removed) _ (Nat.sub_le _ _)
  rw [hp]
  simp only [Mem.setLamports, Mem.setData, Mem.set, if_neg hk] at h2 h3 hx ⊢
  unfold add64 sub64
  generalize env.rent ((m swig.key).data.length) = a at *
  generalize env.rent ((m swig.key).data.length - removed) = b at *
  have e1 : (a + 2 ^ 64 - b) % 2 ^ 64 = a - b := by
    have : a + 2 ^ 64 - b = (a - b) + 2 ^ 64 := by omega
    rw [this, Nat.add_mod_right, Nat.mod_eq_of_lt (by omega)]
  rw [e1, Nat.mod_eq_of_lt (by omega)]
  omega

theorem keep_update {swig payer sys : Meta} {rest : List Meta} {ix : Bytes} (hk : v ≠ swig.key) (h : Keep v Q m)
    (hs : Supply m) (e : updateAuthorityV1 env m (swig :: payer :: sys :: rest) ix = .ok m') : Keep v Q m' := by
  simp only [updateAuthorityV1] at e
  obtain ⟨_, _, e⟩ := bind_ok_iff.mp e
  obtain ⟨_, _, e⟩ := bind_ok_iff.mp e
  obtain ⟨_, _, e⟩ := bind_ok_iff.mp e
  obtain ⟨_, _, e⟩ := bind_ok_iff.mp e
  obtain ⟨_, _, e⟩ := bind_ok_iff.mp e
  obtain ⟨⟨_, _⟩, _, e⟩ := bind_ok_iff.mp e
  obtain ⟨_, _, e⟩ := bind_ok_iff.mp e
  obtain ⟨_, _, e⟩ := bind_ok_iff.mp e
  obtain ⟨⟨_, _, _⟩, _, e⟩ := bind_ok_iff.mp e
  obtain ⟨m1, h1, e⟩ := bind_ok_iff.mp e
  obtain ⟨⟨_, _⟩, _, e⟩ := bind_ok_iff.mp e
  obtain ⟨m2, h2, e⟩ := bind_ok_iff.mp e
  obtain ⟨_, _, e⟩ := bind_ok_iff.mp e
  cases e
  refine Keep.setData (Keep.shrinkBy (((h.setData hk _).growFor hk h1).setData hk _) hk ?_ h2) hk _
  intro hp
  rcases growFor_cases (h.setData hk _) hk h1 with h3 | h3
  · have := hs.two hk
    have h4 := h3 v
    have h5 := h3 swig.key
    simp only [Mem.setData, Mem.set, if_neg hk, if_pos] at *
    omega
  · exact absurd hp h3

theorem keep_append {swig payer : Meta} {roleId : Nat} {acts : Bytes} (hk : v ≠ swig.key) (h : Keep v Q m)
    (e : appendActions env m swig payer roleId acts = .ok m') : Keep v Q m' := by
  simp only [appendActions] at e
  obtain ⟨_, _, e⟩ := bind_ok_iff.mp e
  obtain ⟨_, _, e⟩ := bind_ok_iff.mp e
  obtain ⟨⟨_, _, _⟩, _, e⟩ := bind_ok_iff.mp e
  obtain ⟨m1, h1, e⟩ := bind_ok_iff.mp e
  obtain ⟨⟨_, _⟩, _, e⟩ := bind_ok_iff.mp e
  cases e
  exact (h.growFor hk h1).setData hk _

theorem keep_claimer {swig payer sys : Meta} {rest : List Meta} {ix : Bytes} (hk : v ≠ swig.key) (h : Keep v Q m)
    (e : setRentClaimerV1 env m (swig :: payer :: sys :: rest) ix = .ok m') : Keep v Q m' := by
  simp only [setRentClaimerV1] at e
  obtain ⟨_, _, e⟩ := bind_ok_iff.mp e
  obtain ⟨_, _, e⟩ := bind_ok_iff.mp e
  obtain ⟨_, _, e⟩ := bind_ok_iff.mp e
  obtain ⟨_, _, e⟩ := bind_ok_iff.mp e
  obtain ⟨_, _, e⟩ := bind_ok_iff.mp e
  obtain ⟨_, _, e⟩ := bind_ok_iff.mp e
  obtain ⟨_, _, e⟩ := bind_ok_iff.mp e
  obtain ⟨_, _, e⟩ := bind_ok_iff.mp e
  obtain ⟨⟨_, _⟩, _, e⟩ := bind_ok_iff.mp e
  obtain ⟨_, _, e⟩ := bind_ok_iff.mp e
  obtain ⟨_, _, e⟩ := bind_ok_iff.mp e
  obtain ⟨_, _, e⟩ := bind_ok_iff.mp e
  obtain ⟨_, _, e⟩ := bind_ok_iff.mp e
  obtain ⟨_, _, e⟩ := bind_ok_iff.mp e
  obtain ⟨m1, h1, e⟩ := bind_ok_iff.mp e
  obtain ⟨m2, h2, e⟩ := bind_ok_iff.mp e
  obtain ⟨_, _, e⟩ := bind_ok_iff.mp e
  cases e
  exact (((h.setData hk _).realloc hk h1).topUp h2).setData hk _

theorem keep_session {swig payer sys : Meta} {rest : List Meta} {ix : Bytes} (hk : v ≠ swig.key) (h : Keep v Q m)
    (e : createSessionV1 env m (swig :: payer :: sys :: rest) ix = .ok m') : Keep v Q m' := by
  simp only [createSessionV1] at e
  obtain ⟨_, _, e⟩ := bind_ok_iff.mp e
  obtain ⟨_, _, e⟩ := bind_ok_iff.mp e
  obtain ⟨_, _, e⟩ := bind_ok_iff.mp e
  obtain ⟨_, _, e⟩ := bind_ok_iff.mp e
  obtain ⟨_, _, e⟩ := bind_ok_iff.mp e
  obtain ⟨_, _, e⟩ := bind_ok_iff.mp e
  cases e
  exact h.setData hk _

theorem keep_replace {swig : Meta} {rest : List Meta} {ix : Bytes} (hk : v ≠ swig.key) (h : Keep v Q m)
    (e : replaceAuthorityV1 env m (swig :: rest) ix = .ok m') : Keep v Q m' := by
  simp only [replaceAuthorityV1] at e
  obtain ⟨_, _, e⟩ := bind_ok_iff.mp e
  obtain ⟨_, _, e⟩ := bind_ok_iff.mp e
  obtain ⟨_, _, e⟩ := bind_ok_iff.mp e
  obtain ⟨⟨_, _⟩, _, e⟩ := bind_ok_iff.mp e
  obtain ⟨_, _, e⟩ := bind_ok_iff.mp e
  obtain ⟨_, _, e⟩ := bind_ok_iff.mp e
  obtain ⟨_, _, e⟩ := bind_ok_iff.mp e
  obtain ⟨_, _, e⟩ := bind_ok_iff.mp e
  cases e
  exact h.setData hk _

theorem keep_create {swig payer wallet sys : Meta} {rest : List Meta} {ix : Bytes} (h : Keep v Q m)
    (e : createV1 env m (swig :: payer :: wallet :: sys :: rest) ix = .ok m') : Keep v Q m' := by
  simp only [createV1] at e
  obtain ⟨⟨c, al⟩, h0, e⟩ := bind_ok_iff.mp e
  have hk : v ≠ swig.key := by
    unfold createChecks at h0
    obtain ⟨_, h0, _⟩ := bind_ok_iff.mp h0
    exact h.ne (require_ok_iff.mp h0)
  obtain ⟨m1, h1, e⟩ := bind_ok_iff.mp e
  obtain ⟨m2, h2, e⟩ := bind_ok_iff.mp e
  obtain ⟨_, _, e⟩ := bind_ok_iff.mp e
  cases e
  exact ((h.sysCreate h1).fundWallet h2).setData hk _

/-! ## Calls -/

variable (hc : ∀ a ix b, Keep v Q a → cpi a ix = .ok b → Keep v Q b)
  (ho : ∀ a ix b k, (a k).owner = systemId → cpi a ix = .ok b → (b k).owner = systemId)
include hc

theorem Keep.invokeSigned {outer : List Meta} {ix : CpiIx} {seeds : List Bytes} (h : Keep v Q m)
    (e : invokeSigned env cpi m outer ix seeds = .ok m') : Keep v Q m' := hc _ _ _ h (invokeSigned_cpi e)

include ho in
theorem Keep.execInner {metas : List Meta} {signer : Key} {seeds : List Bytes} {ix : Inner} (h : Keep v Q m) (hs : (m signer).owner = systemId)
    (e : execInner env cpi m metas signer seeds ix = .ok m') : Keep v Q m' ∧ (m' signer).owner = systemId := by
  rcases execInner_cases e with e | ⟨_, _, _, _, _, h1, _⟩
  · exact ⟨hc _ _ _ h (invokeSigned_cpi e), ho _ _ _ _ hs (invokeSigned_cpi e)⟩
  · exact absurd hs h1

include ho in
theorem Keep.execAll {metas : List Meta} {signer : Key} {seeds : List Bytes} : ∀ {ixs : List Inner} {m m' : Mem}, Keep v Q m →
    (m signer).owner = systemId → execAll env cpi metas signer seeds m ixs = .ok m' → Keep v Q m' := by
  intro ixs
  induction ixs with
  | nil => intro m m' h _ e; cases e; exact h
  | cons ix ixs ih =>
    intro m m' h hs e
    simp only [Verif.execAll] at e
    obtain ⟨m1, h1, e⟩ := bind_ok_iff.mp e
    obtain ⟨g1, g2⟩ := h.execInner hc ho hs h1
    exact ih g1 g2 e

theorem Keep.closeTokensGo {outer : List Meta} {program : Key} {v2 : Bool} {swig wallet dst : Key} {s1 s2 : List Bytes} :
    ∀ {l : List Meta} {m m' : Mem}, Keep v Q m →
    closeTokensGo env cpi outer program v2 swig wallet dst s1 s2 m l = .ok m' → Keep v Q m' := by
  intro l
  induction l with
  | nil => intro m m' h e; cases e; exact h
  | cons t l ih =>
    intro m m' h e
    simp only [Verif.closeTokensGo] at e
    obtain ⟨_, _, e⟩ := bind_ok_iff.mp e
    obtain ⟨m1, h1, e⟩ := bind_ok_iff.mp e
    exact ih (h.invokeSigned hc h1) e

theorem Keep.transferTokensGo {outer : List Meta} {swig wallet : Key} {seeds : List Bytes} : ∀ (n : Nat) {l : List Meta} {m m' : Mem},
    l.length ≤ n → Keep v Q m → transferTokensGo env cpi outer swig wallet seeds m l = .ok m' → Keep v Q m' := by
  intro n
  induction n with
  | zero =>
    intro l m m' hl h e
    cases l with
    | nil => unfold Verif.transferTokensGo at e; cases e; exact h
    | cons _ _ => simp at hl
  | succ n ih =>
    intro l m m' hl h e
    match l, hl, e with
    | [], _, e => unfold Verif.transferTokensGo at e; cases e; exact h
    | [_], _, e => unfold Verif.transferTokensGo at e; cases e; exact h
    | [_, _], _, e => unfold Verif.transferTokensGo at e; cases e; exact h
    | a :: b :: c :: l, hl, e =>
      unfold Verif.transferTokensGo at e
      obtain ⟨m1, h1, e⟩ := bind_ok_iff.mp e
      refine ih (by simp at hl; omega) ?_ e
      unfold transferOne at h1
      split at h1
      · exact h.invokeSigned hc h1
      · cases h1; exact h

theorem keep_closeToken {swig wallet dst token : Meta} {rest : List Meta} {ix : Bytes} (hk : v ≠ swig.key) (h : Keep v Q m)
    (e : closeTokenV1 env cpi m (swig :: wallet :: dst :: token :: rest) ix = .ok m') : Keep v Q m' := by
  simp only [closeTokenV1] at e
  obtain ⟨_, _, e⟩ := bind_ok_iff.mp e
  obtain ⟨_, _, e⟩ := bind_ok_iff.mp e
  obtain ⟨_, _, e⟩ := bind_ok_iff.mp e
  obtain ⟨_, _, e⟩ := bind_ok_iff.mp e
  obtain ⟨⟨_, _⟩, _, e⟩ := bind_ok_iff.mp e
  obtain ⟨_, _, e⟩ := bind_ok_iff.mp e
  obtain ⟨_, _, e⟩ := bind_ok_iff.mp e
  obtain ⟨⟨_, _⟩, _, e⟩ := bind_ok_iff.mp e
  obtain ⟨_, _, e⟩ := bind_ok_iff.mp e
  obtain ⟨_, _, e⟩ := bind_ok_iff.mp e
  obtain ⟨_, _, e⟩ := bind_ok_iff.mp e
  obtain ⟨_, _, e⟩ := bind_ok_iff.mp e
  obtain ⟨_, _, e⟩ := bind_ok_iff.mp e
  obtain ⟨_, _, e⟩ := bind_ok_iff.mp e
  exact Keep.closeTokensGo hc (h.setData hk _) e

theorem keep_transferAssets {swig wallet payer sys : Meta} {rest : List Meta} {ix : Bytes} (hk : v ≠ swig.key) (h : Keep v Q m)
    (hs : Supply m) (e : transferAssetsV1 env cpi m (swig :: wallet :: payer :: sys :: rest) ix = .ok m') : Keep v Q m' := by
  simp only [transferAssetsV1] at e
  obtain ⟨_, _, e⟩ := bind_ok_iff.mp e
  obtain ⟨_, _, e⟩ := bind_ok_iff.mp e
  obtain ⟨_, _, e⟩ := bind_ok_iff.mp e
  obtain ⟨_, _, e⟩ := bind_ok_iff.mp e
  obtain ⟨_, _, e⟩ := bind_ok_iff.mp e
  obtain ⟨⟨_, _⟩, _, e⟩ := bind_ok_iff.mp e
  obtain ⟨_, _, e⟩ := bind_ok_iff.mp e
  obtain ⟨_, _, e⟩ := bind_ok_iff.mp e
  refine Keep.transferTokensGo hc _ (Nat.le_refl _) ?_ e
  unfold transferSol
  dsimp only
  split
  · refine ((h.setData hk _).setLamports hk _).raise ?_
    rintro hp
    have := hs.two hk
    rw [hp]
    simp only [Mem.setLamports, Mem.setData, Mem.set, if_neg hk, if_pos] at *
    unfold add64
    rw [Nat.mod_eq_of_lt (by omega)]
    omega
  · exact h.setData hk _

omit hc in
theorem keep_closeSwig {swig wallet dst sys : Meta} {rest : List Meta} {ix : Bytes} (hk : v ≠ swig.key) (h : Keep v Q m)
    (hs : Supply m) (e : closeSwigV1 env m (swig :: wallet :: dst :: sys :: rest) ix = .ok m') : Keep v Q m' := by
  simp only [closeSwigV1] at e
  obtain ⟨_, hso, e⟩ := bind_ok_iff.mp e
  have hso := require_ok_iff.mp hso
  obtain ⟨_, _, e⟩ := bind_ok_iff.mp e
  obtain ⟨_, _, e⟩ := bind_ok_iff.mp e
  obtain ⟨_, _, e⟩ := bind_ok_iff.mp e
  obtain ⟨_, _, e⟩ := bind_ok_iff.mp e
  obtain ⟨⟨_, _⟩, _, e⟩ := bind_ok_iff.mp e
  obtain ⟨_, _, e⟩ := bind_ok_iff.mp e
  obtain ⟨⟨_, _⟩, _, e⟩ := bind_ok_iff.mp e
  obtain ⟨_, _, e⟩ := bind_ok_iff.mp e
  obtain ⟨_, _, e⟩ := bind_ok_iff.mp e
  obtain ⟨_, _, e⟩ := bind_ok_iff.mp e
  obtain ⟨_, _, e⟩ := bind_ok_iff.mp e
  obtain ⟨_, _, e⟩ := bind_ok_iff.mp e
  obtain ⟨m1, h1, e⟩ := bind_ok_iff.mp e
  obtain ⟨m2, h2, e⟩ := bind_ok_iff.mp e
  cases e
  refine Keep.setData (Keep.realloc ?_ hk h2) hk _
  unfold drainWallet at h1
  split at h1
  · have g := (h.setData hk _).signedTransfer h1
    unfold closeLamports
    refine (g.setLamports hk _).raise ?_
    intro hp
    rw [hp]
    unfold signedTransfer at h1
    split at h1
    · cases h1
    obtain ⟨_, h3, _, _, rfl⟩ := sysTransfer_ok h1
    have hw : v ≠ wallet.key := (h.setData hk _).ne h3
    have hsw : swig.key ≠ wallet.key := by
      intro hh
      simp only [Mem.setData, ← hh, Mem.set, if_true] at h3
      rw [hso] at h3
      revert h3; decide
    have hs3 := hs.three hk hw hsw
    simp only [Mem.setLamports, Mem.setData, Mem.set, hp, if_neg hk, if_neg hw, if_neg hsw.symm, if_true] at *
    unfold add64
    rw [Nat.mod_eq_of_lt (by omega)]
    omega
  · cases h1
    unfold closeLamports
    refine ((h.setData hk _).setLamports hk _).raise ?_
    intro hp
    rw [hp]
    have hs2 := hs.two hk
    simp only [Mem.setLamports, Mem.setData, Mem.set, if_neg hk, if_true] at *
    unfold add64
    rw [Nat.mod_eq_of_lt (by omega)]
    omega

omit hc in
theorem keep_migrate {swig auth payer wallet sys : Meta} {rest : List Meta} {ix : Bytes} (hk : v ≠ swig.key) (h : Keep v Q m)
    (e : migrateV1 env m (swig :: auth :: payer :: wallet :: sys :: rest) ix = .ok m') : Keep v Q m' := by
  simp only [migrateV1] at e
  obtain ⟨_, _, e⟩ := bind_ok_iff.mp e
  obtain ⟨_, _, e⟩ := bind_ok_iff.mp e
  obtain ⟨_, _, e⟩ := bind_ok_iff.mp e
  obtain ⟨_, _, e⟩ := bind_ok_iff.mp e
  obtain ⟨_, _, e⟩ := bind_ok_iff.mp e
  obtain ⟨⟨_, _⟩, _, e⟩ := bind_ok_iff.mp e
  obtain ⟨_, _, e⟩ := bind_ok_iff.mp e
  obtain ⟨_, _, e⟩ := bind_ok_iff.mp e
  obtain ⟨_, _, e⟩ := bind_ok_iff.mp e
  obtain ⟨_, _, e⟩ := bind_ok_iff.mp e
  obtain ⟨_, _, e⟩ := bind_ok_iff.mp e
  obtain ⟨_, _, e⟩ := bind_ok_iff.mp e
  exact (h.setData hk _).fundWallet e

/-! ## Sub-accounts -/

omit hc in
theorem keep_createSubV1 {swig payer sub sys : Meta} {rest : List Meta} {ix : Bytes} (hk : v ≠ swig.key) (h : Keep v Q m)
    (e : createSubV1 env m (swig :: payer :: sub :: sys :: rest) ix = .ok m') : Keep v Q m' := by
  simp only [createSubV1] at e
  obtain ⟨_, _, e⟩ := bind_ok_iff.mp e
  obtain ⟨_, _, e⟩ := bind_ok_iff.mp e
  obtain ⟨_, _, e⟩ := bind_ok_iff.mp e
  obtain ⟨_, _, e⟩ := bind_ok_iff.mp e
  obtain ⟨⟨_, _⟩, _, e⟩ := bind_ok_iff.mp e
  obtain ⟨_, _, e⟩ := bind_ok_iff.mp e
  obtain ⟨_, _, e⟩ := bind_ok_iff.mp e
  obtain ⟨_, _, e⟩ := bind_ok_iff.mp e
  obtain ⟨m1, h1, e⟩ := bind_ok_iff.mp e
  cases e
  exact ((h.setData hk _).fundWallet h1).setData hk _

omit hc in
theorem Keep.checkRent {k : Key} {a : Mem} (h : Keep v Q m) (e : checkRent env m k = .ok a) : Keep v Q a := by
  unfold Verif.checkRent at e
  split at e
  · cases e
  · cases e; exact h

include ho in
theorem keep_subSignV1 {swig sub sys : Meta} {rest : List Meta} {ix : Bytes} (hk : v ≠ swig.key) (h : Keep v Q m)
    (e : subSignV1 env cpi m (swig :: sub :: sys :: rest) ix = .ok m') : Keep v Q m' := by
  simp only [subSignV1] at e
  obtain ⟨_, _, e⟩ := bind_ok_iff.mp e
  obtain ⟨_, _, e⟩ := bind_ok_iff.mp e
  obtain ⟨_, hs, e⟩ := bind_ok_iff.mp e
  have hs := require_ok_iff.mp hs
  obtain ⟨_, _, e⟩ := bind_ok_iff.mp e
  obtain ⟨_, _, e⟩ := bind_ok_iff.mp e
  obtain ⟨⟨_, _⟩, _, e⟩ := bind_ok_iff.mp e
  obtain ⟨_, _, e⟩ := bind_ok_iff.mp e
  obtain ⟨_, _, e⟩ := bind_ok_iff.mp e
  obtain ⟨_, _, e⟩ := bind_ok_iff.mp e
  obtain ⟨_, _, e⟩ := bind_ok_iff.mp e
  obtain ⟨m1, h1, e⟩ := bind_ok_iff.mp e
  exact Keep.checkRent (Keep.execAll hc ho (h.setData hk _) (by simpa using hs) h1) e

omit hc in
theorem keep_toggleSubV1 {swig payer sub : Meta} {rest : List Meta} {ix : Bytes} (hk : v ≠ swig.key) (h : Keep v Q m)
    (e : toggleSubV1 env m (swig :: payer :: sub :: rest) ix = .ok m') : Keep v Q m' := by
  simp only [toggleSubV1] at e
  obtain ⟨_, _, e⟩ := bind_ok_iff.mp e
  obtain ⟨_, _, e⟩ := bind_ok_iff.mp e
  obtain ⟨_, _, e⟩ := bind_ok_iff.mp e
  obtain ⟨_, _, e⟩ := bind_ok_iff.mp e
  obtain ⟨_, _, e⟩ := bind_ok_iff.mp e
  obtain ⟨⟨_, _⟩, _, e⟩ := bind_ok_iff.mp e
  obtain ⟨_, _, e⟩ := bind_ok_iff.mp e
  obtain ⟨_, _, e⟩ := bind_ok_iff.mp e
  obtain ⟨_, _, e⟩ := bind_ok_iff.mp e
  cases e
  exact h.setData hk _

theorem Keep.withdrawTokenV1 {metas : List Meta} {sub wallet : Key} {n : Nat} {seeds : List Bytes} (h : Keep v Q m)
    (e : withdrawTokenV1 env cpi m metas sub wallet n seeds = .ok m') : Keep v Q m' := by
  unfold Verif.withdrawTokenV1 at e
  obtain ⟨_, _, e⟩ := bind_ok_iff.mp e
  obtain ⟨_, _, e⟩ := bind_ok_iff.mp e
  obtain ⟨_, _, e⟩ := bind_ok_iff.mp e
  obtain ⟨_, _, e⟩ := bind_ok_iff.mp e
  obtain ⟨_, _, e⟩ := bind_ok_iff.mp e
  obtain ⟨_, _, e⟩ := bind_ok_iff.mp e
  obtain ⟨_, _, e⟩ := bind_ok_iff.mp e
  exact h.invokeSigned hc e

omit hc in
theorem Keep.withdrawSol {sub wallet : Meta} {n : Nat} {seeds : List Bytes} (h : Keep v Q m)
    (e : withdrawSol env m sub wallet n seeds = .ok m') : Keep v Q m' := by
  unfold Verif.withdrawSol at e
  split at e
  · cases e
  · exact h.signedTransfer e

theorem keep_withdrawSubV1 {swig auth sub x3 wallet x5 : Meta} {rest : List Meta} {ix : Bytes} (hk : v ≠ swig.key) (h : Keep v Q m)
    (e : withdrawSubV1 env cpi m (swig :: auth :: sub :: x3 :: wallet :: x5 :: rest) ix = .ok m') : Keep v Q m' := by
  simp only [withdrawSubV1] at e
  obtain ⟨_, _, e⟩ := bind_ok_iff.mp e
  obtain ⟨_, _, e⟩ := bind_ok_iff.mp e
  obtain ⟨_, _, e⟩ := bind_ok_iff.mp e
  obtain ⟨_, _, e⟩ := bind_ok_iff.mp e
  obtain ⟨_, _, e⟩ := bind_ok_iff.mp e
  obtain ⟨⟨_, _⟩, _, e⟩ := bind_ok_iff.mp e
  obtain ⟨_, _, e⟩ := bind_ok_iff.mp e
  obtain ⟨⟨_, _⟩, _, e⟩ := bind_ok_iff.mp e
  obtain ⟨_, _, e⟩ := bind_ok_iff.mp e
  obtain ⟨⟨_, _⟩, _, e⟩ := bind_ok_iff.mp e
  split at e
  · exact Keep.withdrawTokenV1 hc (h.setData hk _) e
  · exact (h.setData hk _).withdrawSol e

omit hc in
theorem keep_createSubV2 {swig payer state sub sys : Meta} {rest : List Meta} {ix : Bytes} (hk : v ≠ swig.key) (h : Keep v Q m)
    (e : createSubV2 env m (swig :: payer :: state :: sub :: sys :: rest) ix = .ok m') : Keep v Q m' := by
  simp only [createSubV2] at e
  obtain ⟨_, _, e⟩ := bind_ok_iff.mp e
  obtain ⟨_, h0, e⟩ := bind_ok_iff.mp e
  have hs : v ≠ state.key := h.ne (require_ok_iff.mp h0)
  obtain ⟨_, _, e⟩ := bind_ok_iff.mp e
  obtain ⟨_, _, e⟩ := bind_ok_iff.mp e
  obtain ⟨_, _, e⟩ := bind_ok_iff.mp e
  obtain ⟨_, _, e⟩ := bind_ok_iff.mp e
  obtain ⟨⟨_, _, _⟩, _, e⟩ := bind_ok_iff.mp e
  obtain ⟨_, _, e⟩ := bind_ok_iff.mp e
  obtain ⟨_, _, e⟩ := bind_ok_iff.mp e
  obtain ⟨m1, h1, e⟩ := bind_ok_iff.mp e
  obtain ⟨m2, h2, e⟩ := bind_ok_iff.mp e
  obtain ⟨m3, h3, e⟩ := bind_ok_iff.mp e
  have g1 := (h.setData hk _).fundState h1
  have g2 : Keep v Q m2 := by
    unfold Keep; rw [sysAllocAssign_ok h2]; rw [Mem.set_other _ _ hs]; exact g1
  have g3 := (g2.setData hs _).fundEmpty h3
  unfold grantAll at e
  split at e
  · cases e; exact g3
  · exact keep_append hk g3 e

include ho in
theorem keep_subSignV2 {swig state sub sys : Meta} {rest : List Meta} {ix : Bytes} (hk : v ≠ swig.key) (h : Keep v Q m)
    (e : subSignV2 env cpi m (swig :: state :: sub :: sys :: rest) ix = .ok m') : Keep v Q m' := by
  simp only [subSignV2] at e
  obtain ⟨_, _, e⟩ := bind_ok_iff.mp e
  obtain ⟨_, _, e⟩ := bind_ok_iff.mp e
  obtain ⟨_, hs, e⟩ := bind_ok_iff.mp e
  have hs := require_ok_iff.mp hs
  obtain ⟨_, _, e⟩ := bind_ok_iff.mp e
  obtain ⟨⟨_, _⟩, _, e⟩ := bind_ok_iff.mp e
  obtain ⟨_, _, e⟩ := bind_ok_iff.mp e
  obtain ⟨_, _, e⟩ := bind_ok_iff.mp e
  obtain ⟨m1, h1, e⟩ := bind_ok_iff.mp e
  exact Keep.checkRent (Keep.execAll hc ho (h.setData hk _) (by simpa using hs) h1) e

theorem keep_withdrawSubV2 {swig auth state sub wallet x6 x7 : Meta} {rest : List Meta} {ix : Bytes} (hk : v ≠ swig.key) (h : Keep v Q m)
    (e : withdrawSubV2 env cpi m (swig :: auth :: state :: sub :: wallet :: x6 :: x7 :: rest) ix = .ok m') : Keep v Q m' := by
  simp only [withdrawSubV2] at e
  obtain ⟨_, _, e⟩ := bind_ok_iff.mp e
  obtain ⟨_, _, e⟩ := bind_ok_iff.mp e
  obtain ⟨_, _, e⟩ := bind_ok_iff.mp e
  obtain ⟨_, _, e⟩ := bind_ok_iff.mp e
  obtain ⟨⟨_, _⟩, _, e⟩ := bind_ok_iff.mp e
  obtain ⟨_, _, e⟩ := bind_ok_iff.mp e
  obtain ⟨_, _, e⟩ := bind_ok_iff.mp e
  unfold withdrawV2 at e
  split at e
  · obtain ⟨_, _, e⟩ := bind_ok_iff.mp e
    obtain ⟨_, _, e⟩ := bind_ok_iff.mp e
    obtain ⟨_, _, e⟩ := bind_ok_iff.mp e
    obtain ⟨_, _, e⟩ := bind_ok_iff.mp e
    exact Keep.invokeSigned hc (h.setData hk _) e
  · split at e
    · exact (h.setData hk _).withdrawSol e
    · cases e

omit hc in
theorem keep_toggleSubV2 {swig auth state : Meta} {rest : List Meta} {ix : Bytes} (hk : v ≠ swig.key)
    (h : Keep v Q m) (e : toggleSubV2 env m (swig :: auth :: state :: rest) ix = .ok m') : Keep v Q m' := by
  simp only [toggleSubV2] at e
  obtain ⟨_, _, e⟩ := bind_ok_iff.mp e
  obtain ⟨_, _, e⟩ := bind_ok_iff.mp e
  obtain ⟨_, _, e⟩ := bind_ok_iff.mp e
  obtain ⟨_, _, e⟩ := bind_ok_iff.mp e
  obtain ⟨⟨_, _⟩, _, e⟩ := bind_ok_iff.mp e
  obtain ⟨_, h1, e⟩ := bind_ok_iff.mp e
  cases e
  refine (h.setData hk _).setState _ ?_
  unfold toggleState at h1
  obtain ⟨s, h1, _⟩ := bind_ok_iff.mp h1
  exact (loadSubState_ok h1).2.1

/-! ## SignV2 -/

omit hc in
theorem Keep.write {l : ActLoc} {ty o : Nat} {acts : Bytes} {f : Bytes → R Bytes} (hk : v ≠ l.swig) (h : Keep v Q m)
    (e : l.write m ty acts f o = .ok m') : Keep v Q m' := by
  unfold ActLoc.write at e
  obtain ⟨_, _, e⟩ := bind_ok_iff.mp e
  cases e; exact h.setData hk _

omit hc in
theorem Keep.charge {l : ActLoc} {ty : Nat} {key : Bytes} {f : Bytes → R Bytes} (hk : v ≠ l.swig) (h : Keep v Q m)
    (e : l.charge m ty key f = .ok (some m')) : Keep v Q m' := by
  unfold ActLoc.charge at e
  obtain ⟨_, _, e⟩ := bind_ok_iff.mp e
  obtain ⟨o, _, e⟩ := bind_ok_iff.mp e
  cases o with
  | none => cases e
  | some o =>
    obtain ⟨m1, h1, e⟩ := bind_ok_iff.mp e
    cases e; exact h.write hk h1

variable {x : SignCtx}

omit hc in
theorem Keep.chargeEither {ty1 ty2 : Nat} {key : Bytes} {f1 f2 : Bytes → R Bytes} {b : Bool} (hk : v ≠ x.loc.swig) (h : Keep v Q m)
    (e : chargeEither x m ty1 ty2 key f1 f2 = .ok (m', b)) : Keep v Q m' := by
  unfold Verif.chargeEither at e
  obtain ⟨r, h1, e⟩ := bind_ok_iff.mp e
  cases r with
  | some m1 => cases e; exact h.charge hk h1
  | none =>
    obtain ⟨r, h2, e⟩ := bind_ok_iff.mp e
    cases r with
    | some m1 => cases e; exact h.charge hk h2
    | none => cases e; exact h

omit hc in
theorem Keep.chargeDests {one : Mem → Key → Nat → R (Mem × Bool)} (h1 : ∀ m d n m' b, Keep v Q m → one m d n = .ok (m', b) → Keep v Q m') :
    ∀ {ts : List (Key × Nat)} {m m' : Mem} {sum sum' : Nat}, Keep v Q m → chargeDests one m sum ts = .ok (m', sum') → Keep v Q m' := by
  intro ts
  induction ts with
  | nil => intro m m' sum sum' h e; cases e; exact h
  | cons t ts ih =>
    intro m m' sum sum' h e
    obtain ⟨d, n⟩ := t
    simp only [Verif.chargeDests] at e
    obtain ⟨_, _, e⟩ := bind_ok_iff.mp e
    obtain ⟨⟨m1, ok⟩, h2, e⟩ := bind_ok_iff.mp e
    obtain ⟨_, _, e⟩ := bind_ok_iff.mp e
    exact ih (h1 _ _ _ _ _ h h2) e

omit hc in
theorem Keep.settleDests {has : Bool} {one : Mem → Key → Nat → R (Mem × Bool)} {spent : Nat} {ts : List (Key × Nat)} {b : Bool}
    (h1 : ∀ m d n m' b, Keep v Q m → one m d n = .ok (m', b) → Keep v Q m') (h : Keep v Q m)
    (e : settleDests has one m spent ts = .ok (m', b)) : Keep v Q m' := by
  unfold Verif.settleDests at e
  split at e
  · obtain ⟨⟨m1, s⟩, h2, e⟩ := bind_ok_iff.mp e
    obtain ⟨_, _, e⟩ := bind_ok_iff.mp e
    cases e
    exact Keep.chargeDests h1 h h2
  · cases e; exact h

omit hc in
theorem Keep.settleSol {spent : Nat} (hk : v ≠ x.loc.swig) (h : Keep v Q m) (e : settleSol x m spent = .ok m') : Keep v Q m' := by
  unfold Verif.settleSol at e
  obtain ⟨⟨m1, _⟩, h1, e⟩ := bind_ok_iff.mp e
  obtain ⟨_, _, e⟩ := bind_ok_iff.mp e
  obtain ⟨_, _, e⟩ := bind_ok_iff.mp e
  obtain ⟨⟨m2, _⟩, h2, e⟩ := bind_ok_iff.mp e
  obtain ⟨_, _, e⟩ := bind_ok_iff.mp e
  cases e
  exact Keep.settleDests (fun _ _ _ _ _ g k => g.chargeEither hk k) (h.chargeEither hk h1) h2

omit hc in
theorem Keep.settleTokenSpent {src mint : Bytes} {spent : Nat} (hk : v ≠ x.loc.swig) (h : Keep v Q m)
    (e : settleTokenSpent x m src mint spent = .ok m') : Keep v Q m' := by
  unfold Verif.settleTokenSpent at e
  obtain ⟨⟨m1, _⟩, h1, e⟩ := bind_ok_iff.mp e
  obtain ⟨_, _, e⟩ := bind_ok_iff.mp e
  obtain ⟨_, _, e⟩ := bind_ok_iff.mp e
  obtain ⟨⟨m2, _⟩, h2, e⟩ := bind_ok_iff.mp e
  obtain ⟨_, _, e⟩ := bind_ok_iff.mp e
  cases e
  exact Keep.settleDests (fun _ _ _ _ _ g k => g.chargeEither hk k) (h.chargeEither hk h1) h2

omit hc in
theorem Keep.settleOne {a : Meta} {c : Class} {hh : Option Bytes} {total : Nat} (hk : v ≠ x.loc.swig) (h : Keep v Q m)
    (e : settleOne x m a c hh total = .ok m') : Keep v Q m' := by
  unfold Verif.settleOne at e
  split at e
  · unfold settleSwig at e
    obtain ⟨_, _, e⟩ := bind_ok_iff.mp e
    obtain ⟨_, _, e⟩ := bind_ok_iff.mp e
    split at e
    · cases e; exact h
    · exact h.settleSol hk e
  · unfold settleToken at e
    split at e
    · unfold settleClosed at e
      obtain ⟨_, _, e⟩ := bind_ok_iff.mp e
      obtain ⟨_, _, e⟩ := bind_ok_iff.mp e
      obtain ⟨_, _, e⟩ := bind_ok_iff.mp e
      cases e; exact h
    · obtain ⟨_, _, e⟩ := bind_ok_iff.mp e
      obtain ⟨_, _, e⟩ := bind_ok_iff.mp e
      obtain ⟨_, _, e⟩ := bind_ok_iff.mp e
      obtain ⟨_, _, e⟩ := bind_ok_iff.mp e
      split at e
      · cases e; exact h
      · exact h.settleTokenSpent hk e
  · unfold settleStake at e
    obtain ⟨_, _, e⟩ := bind_ok_iff.mp e
    split at e
    · cases e; exact h
    · unfold settleStakeSpent at e
      obtain ⟨_, _, e⟩ := bind_ok_iff.mp e
      split at e
      · cases e; exact h
      · obtain ⟨⟨m1, _⟩, h1, e⟩ := bind_ok_iff.mp e
        obtain ⟨_, _, e⟩ := bind_ok_iff.mp e
        cases e
        exact h.chargeEither hk h1
  · unfold settleScope at e
    obtain ⟨_, _, e⟩ := bind_ok_iff.mp e
    obtain ⟨_, _, e⟩ := bind_ok_iff.mp e
    obtain ⟨_, _, e⟩ := bind_ok_iff.mp e
    obtain ⟨_, _, e⟩ := bind_ok_iff.mp e
    split at e
    · cases e; exact h
    · unfold settleScopeSpent at e
      obtain ⟨r, h1, e⟩ := bind_ok_iff.mp e
      have := orErr_ok e
      subst this
      exact h.charge hk h1
  · cases e; exact h

omit hc in
theorem Keep.settleAll {total : Nat} (hk : v ≠ x.loc.swig) : ∀ {l : List (Meta × Class)} {hs : List (Option Bytes)} {m m' : Mem}, Keep v Q m →
    settleAll x total m l hs = .ok m' → Keep v Q m' := by
  intro l
  induction l with
  | nil => intro hs m m' h e; unfold Verif.settleAll at e; cases e; exact h
  | cons t l ih =>
    intro hs m m' h e
    obtain ⟨a, c⟩ := t
    cases hs with
    | nil => unfold Verif.settleAll at e; cases e; exact h
    | cons hh hs =>
      unfold Verif.settleAll at e
      obtain ⟨m1, h1, e⟩ := bind_ok_iff.mp e
      exact ih (h.settleOne hk h1) e

include ho in
theorem Keep.runIxs : ∀ {ixs : List Inner} {m m' : Mem} {l l' : List (Meta × Class)} {t t' : Nat}, Keep v Q m → (m x.wallet).owner = systemId →
    runIxs x cpi m l t ixs = .ok (m', l', t') → Keep v Q m' := by
  intro ixs
  induction ixs with
  | nil => intro m m' l l' t t' h _ e; cases e; exact h
  | cons ix ixs ih =>
    intro m m' l l' t t' h hs e
    simp only [Verif.runIxs] at e
    obtain ⟨_, _, e⟩ := bind_ok_iff.mp e
    obtain ⟨_, _, e⟩ := bind_ok_iff.mp e
    obtain ⟨m1, h1, e⟩ := bind_ok_iff.mp e
    obtain ⟨_, _, e⟩ := bind_ok_iff.mp e
    obtain ⟨g1, g2⟩ := h.execInner hc ho hs h1
    exact ih g1 g2 e

include ho in
theorem keep_sign {swig wallet x3 : Meta} {rest : List Meta} {cls : List Class} {ix : Bytes} (hk : v ≠ swig.key) (h : Keep v Q m)
    (hcls : classifyAll m (swig :: wallet :: x3 :: rest) = .ok cls) (e : signV2 env cpi m (swig :: wallet :: x3 :: rest) cls ix = .ok m') : Keep v Q m' := by
  simp only [signV2] at e
  obtain ⟨_, _, e⟩ := bind_ok_iff.mp e
  obtain ⟨_, _, e⟩ := bind_ok_iff.mp e
  obtain ⟨_, h0, e⟩ := bind_ok_iff.mp e
  have hs : (m wallet.key).owner = systemId := by
    have h0 := require_ok_iff.mp h0
    obtain ⟨c, cs, rfl, _, h3, h4⟩ := classifyAll_rest hcls
    cases cs with
    | nil => simp at h3
    | cons c1 cs =>
      simp at h0
      subst h0
      have h5 := (h4 (wallet, .wallet) (by simp)).1
      cases h5; assumption
  obtain ⟨_, _, e⟩ := bind_ok_iff.mp e
  obtain ⟨_, _, e⟩ := bind_ok_iff.mp e
  obtain ⟨⟨_, _⟩, _, e⟩ := bind_ok_iff.mp e
  obtain ⟨_, _, e⟩ := bind_ok_iff.mp e
  unfold signWith at e
  obtain ⟨_, _, e⟩ := bind_ok_iff.mp e
  split at e
  · exact Keep.execAll hc ho (h.setData hk _) (by simpa using hs) e
  · obtain ⟨_, _, e⟩ := bind_ok_iff.mp e
    obtain ⟨_, _, e⟩ := bind_ok_iff.mp e
    unfold signLimited at e
    obtain ⟨_, _, e⟩ := bind_ok_iff.mp e
    obtain ⟨⟨m1, acc, total⟩, h1, e⟩ := bind_ok_iff.mp e
    exact Keep.settleAll (by exact hk) (Keep.runIxs hc ho (h.setData hk _) (by simpa [signCtx] using hs) h1) e

/-! ## Every instruction -/


include ho in
theorem process_keep {metas : List Meta} {ix : Bytes} (hk : ¬ FirstIs metas v) (h : Keep v Q m)
    (hs : Supply m) (hr : ∀ a b, a ≤ b → env.rent a ≤ env.rent b)
    (hx : ∀ a rest, metas = a :: rest → env.rent (m a.key).data.length ≤ (m a.key).lamports)
    (e : process env cpi m metas ix = .ok m') : Keep v Q m' := by
  have hne : ∀ {a : Meta} {rest : List Meta}, metas = a :: rest → v ≠ a.key := fun h1 h2 => hk ⟨_, _, h1, h2.symm⟩
  unfold process at e
  obtain ⟨_, _, e⟩ := bind_ok_iff.mp e
  obtain ⟨cls, hcls, e⟩ := bind_ok_iff.mp e
  unfold dispatch at e
  split at e
  · cases e
  split at e
  · unfold addAuthorityV1 at e; split at e
    · exact keep_add (hne rfl) h e
    · cases e
  · unfold removeAuthorityV1 at e; split at e
    · exact keep_remove (hne rfl) h hs hr (hx _ _ rfl) e
    · cases e
  · unfold updateAuthorityV1 at e; split at e
    · exact keep_update (hne rfl) h hs e
    · cases e
  · cases e
  · unfold createSessionV1 at e; split at e
    · exact keep_session (hne rfl) h e
    · cases e
  · unfold createSubV1 at e; split at e
    · exact keep_createSubV1 (hne rfl) h e
    · cases e
  · unfold withdrawSubV1 at e; split at e
    · exact keep_withdrawSubV1 hc (hne rfl) h e
    · cases e
  · unfold subSignV1 at e; split at e
    · exact keep_subSignV1 hc ho (hne rfl) h e
    · cases e
  · unfold toggleSubV1 at e; split at e
    · exact keep_toggleSubV1 (hne rfl) h e
    · cases e
  · unfold signV2 at e; split at e
    · exact keep_sign hc ho (hne rfl) h hcls e
    · cases e
  · unfold migrateV1 at e; split at e
    · exact keep_migrate (hne rfl) h e
    · cases e
  · unfold transferAssetsV1 at e; split at e
    · exact keep_transferAssets hc (hne rfl) h hs e
    · cases e
  · unfold closeTokenV1 at e; split at e
    · exact keep_closeToken hc (hne rfl) h e
    · cases e
  · unfold closeSwigV1 at e; split at e
    · exact keep_closeSwig (hne rfl) h hs e
    · cases e
  · unfold replaceAuthorityV1 at e; split at e
    · exact keep_replace (hne rfl) h e
    · cases e
  · unfold setRentClaimerV1 at e; split at e
    · exact keep_claimer (hne rfl) h e
    · cases e
  · unfold createSubV2 at e; split at e
    · exact keep_createSubV2 (hne rfl) h e
    · cases e
  · unfold toggleSubV2 at e; split at e
    · exact keep_toggleSubV2 (hne rfl) h e
    · cases e
  · unfold subSignV2 at e; split at e
    · exact keep_subSignV2 hc ho (hne rfl) h e
    · cases e
  · unfold withdrawSubV2 at e; split at e
    · exact keep_withdrawSubV2 hc (hne rfl) h e
    · cases e
  · unfold createV1 at e; split at e
    · exact keep_create (sys := ‹_›) (rest := []) h e
    · cases e

end
end Verif
