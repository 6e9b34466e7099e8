import Verif.Proofs.FrameLamports
import Verif.Spec.Touch

/-! Which accounts an instruction changes: those passed writable, and a few the handlers write themselves. -/

namespace Verif

/-- The account `v` is as in `x`. -/
def Same (v : Key) (x : Acct) (m : Mem) : Prop := m v = x

/-- The account reference does not make `v` writable. -/
def Off (v : Key) (a : Meta) : Prop := a.writable = true → v ≠ a.key

section
variable {v : Key} {acc : Acct} {env : Env} {cpi : Cpi} {m m' : Mem}

theorem Same.setData {k : Key} (h : Same v acc m) (hk : v ≠ k) (d : Bytes) : Same v acc (m.setData k d) := by
  unfold Same; rw [Mem.setData_other m d hk]; exact h

theorem Same.setLamports {k : Key} (h : Same v acc m) (hk : v ≠ k) (l : Nat) : Same v acc (m.setLamports k l) := by
  unfold Same Mem.setLamports; rw [Mem.set_other m _ hk]; exact h

theorem Same.realloc {k : Key} {l : Nat} (h : Same v acc m) (hk : v ≠ k) (e : realloc m k l = .ok m') : Same v acc m' := by
  obtain ⟨_, rfl⟩ := realloc_ok e; exact h.setData hk _

theorem sysTransfer_writable {src dst : Meta} {l : Nat} (e : sysTransfer m src dst l = .ok m') : src.writable = true ∧ dst.writable = true := by
  unfold sysTransfer at e
  split at e
  · cases e
  · rename_i h
    cases hs : src.writable <;> cases hd : dst.writable <;> simp_all

theorem Same.sysTransfer {src dst : Meta} {l : Nat} (h : Same v acc m) (hs : Off v src) (hd : Off v dst)
    (e : sysTransfer m src dst l = .ok m') : Same v acc m' := by
  obtain ⟨h1, h2⟩ := sysTransfer_writable e
  obtain ⟨_, _, _, _, rfl⟩ := sysTransfer_ok e
  exact (h.setLamports (hs h1) _).setLamports (hd h2) _

theorem Same.topUp {payer swig : Meta} {l : Nat} (h : Same v acc m) (hs : Off v payer) (hd : Off v swig)
    (e : topUp env m payer swig l = .ok m') : Same v acc m' := by
  unfold Verif.topUp at e
  dsimp only at e
  split at e
  · exact h.sysTransfer hs hd e
  · cases e; exact h

theorem Same.fundWallet {payer wallet : Meta} (h : Same v acc m) (hs : Off v payer) (hd : Off v wallet)
    (e : fundWallet env m payer wallet = .ok m') : Same v acc m' := by
  unfold Verif.fundWallet at e
  dsimp only at e
  split at e
  · exact h.sysTransfer hs hd e
  · cases e; exact h

theorem Same.fundState {payer state : Meta} (h : Same v acc m) (hs : Off v payer) (hd : Off v state)
    (e : fundState env m payer state = .ok m') : Same v acc m' := by
  unfold Verif.fundState at e
  split at e
  · exact h.sysTransfer hs hd e
  · cases e; exact h

theorem Same.fundEmpty {payer sub : Meta} (h : Same v acc m) (hs : Off v payer) (hd : Off v sub)
    (e : fundEmpty env m payer sub = .ok m') : Same v acc m' := by
  exact h.fundWallet hs hd e

theorem Same.signedTransfer {seeds : List Bytes} {src dst : Meta} {l : Nat} (h : Same v acc m) (hs : Off v src) (hd : Off v dst)
    (e : signedTransfer env m seeds src dst l = .ok m') : Same v acc m' := by
  unfold Verif.signedTransfer at e
  split at e
  · cases e
  · exact h.sysTransfer (by exact hs) hd e

theorem Same.sysCreate {src dst : Meta} {l s : Nat} {o : Key} (h : Same v acc m) (hs : Off v src) (hd : Off v dst)
    (e : sysCreate m src dst l s o = .ok m') : Same v acc m' ∧ v ≠ dst.key := by
  unfold Verif.sysCreate at e
  split at e
  · cases e
  · rename_i hw
    have hk : v ≠ dst.key := hd (by simpa using hw)
    split at e
    · cases e
    · split at e
      · cases e
      · refine ⟨Same.sysTransfer ?_ hs hd e, hk⟩
        unfold Same; rw [Mem.set_other m _ hk]; exact h

theorem Same.growFor {payer swig : Meta} {l : Nat} (h : Same v acc m) (hk : v ≠ swig.key) (hs : Off v payer)
    (e : growFor env m payer swig l = .ok m') : Same v acc m' := by
  unfold Verif.growFor at e
  split at e
  · obtain ⟨m1, h1, e⟩ := bind_ok_iff.mp e
    exact (h.realloc hk h1).topUp hs (fun _ => hk) e
  · cases e; exact h

theorem Same.shrinkBy {payer swig : Key} {l : Nat} (h : Same v acc m) (hk : v ≠ swig) (hp : v ≠ payer)
    (e : shrinkBy env m payer swig l = .ok m') : Same v acc m' := by
  unfold Verif.shrinkBy at e
  split at e
  · obtain ⟨m1, h1, e⟩ := bind_ok_iff.mp e
    have h := h.realloc hk h1
    dsimp only at e
    split at e
    · cases e
      exact (h.setLamports hk _).setLamports hp _
    · cases e; exact h
  · cases e; exact h

/-! ## Management -/

theorem same_add {swig payer sys : Meta} {rest : List Meta} {ix : Bytes} (hk : v ≠ swig.key) (h : Same v acc m)
    (hw : ∀ a ∈ swig :: payer :: sys :: rest, Off v a)
    (e : addAuthorityV1 env m (swig :: payer :: sys :: rest) ix = .ok m') : Same v acc m' := by
  simp only [addAuthorityV1] at e
  obtain ⟨_, _, e⟩ := bind_ok_iff.mp e
  obtain ⟨_, _, e⟩ := bind_ok_iff.mp e
  obtain ⟨_, _, e⟩ := bind_ok_iff.mp e
  obtain ⟨_, _, e⟩ := bind_ok_iff.mp e
  obtain ⟨_, _, e⟩ := bind_ok_iff.mp e
  obtain ⟨_, _, e⟩ := bind_ok_iff.mp e
  obtain ⟨⟨_, _⟩, _, e⟩ := bind_ok_iff.mp e
  obtain ⟨_, _, e⟩ := bind_ok_iff.mp e
  obtain ⟨_, _, e⟩ := bind_ok_iff.mp e
  obtain ⟨_, _, e⟩ := bind_ok_iff.mp e
  obtain ⟨m1, h1, e⟩ := bind_ok_iff.mp e
  obtain ⟨m2, h2, e⟩ := bind_ok_iff.mp e
  obtain ⟨_, _, e⟩ := bind_ok_iff.mp e
  cases e
  exact (((h.setData hk _).realloc hk h1).topUp (hw _ (by simp)) (hw _ (by simp)) h2).setData hk _

theorem same_remove {swig payer sys : Meta} {rest : List Meta} {ix : Bytes} (hk : v ≠ swig.key) (h : Same v acc m)
    (hp : v ≠ payer.key)
    (_ : ∀ a ∈ swig :: payer :: sys :: rest, Off v a)
    (e : removeAuthorityV1 env m (swig :: payer :: sys :: rest) ix = .ok m') : Same v acc m' := by
  simp only [removeAuthorityV1] at e
  obtain ⟨_, _, e⟩ := bind_ok_iff.mp e
  obtain ⟨_, _, e⟩ := bind_ok_iff.mp e
  obtain ⟨_, _, e⟩ := bind_ok_iff.mp e
  obtain ⟨_, _, e⟩ := bind_ok_iff.mp e
  obtain ⟨_, _, e⟩ := bind_ok_iff.mp e
  obtain ⟨_, _, e⟩ := bind_ok_iff.mp e
  obtain ⟨⟨_, _⟩, _, e⟩ := bind_ok_iff.mp e
  obtain ⟨_, _, e⟩ := bind_ok_iff.mp e
  obtain ⟨_, _, e⟩ := bind_ok_iff.mp e
  obtain ⟨_, _, e⟩ := bind_ok_iff.mp e
  obtain ⟨_, _, e⟩ := bind_ok_iff.mp e
  obtain ⟨⟨s, b, removed⟩, _, e⟩ := bind_ok_iff.mp e
  obtain ⟨m1, h1, e⟩ := bind_ok_iff.mp e
  obtain ⟨_, _, e⟩ := bind_ok_iff.mp e
  cases e
  exact Same.setData (Same.realloc (((h.setData hk _).setLamports hk _).setLamports hp _) hk h1) hk _

theorem same_update {swig payer sys : Meta} {rest : List Meta} {ix : Bytes} (hk : v ≠ swig.key) (h : Same v acc m)
    (hp : v ≠ payer.key) (hw : ∀ a ∈ swig :: payer :: sys :: rest, Off v a)
    (e : updateAuthorityV1 env m (swig :: payer :: sys :: rest) ix = .ok m') : Same v acc m' := by
  simp only [updateAuthorityV1] at e
  obtain ⟨_, _, e⟩ := bind_ok_iff.mp e
  obtain ⟨_, _, e⟩ := bind_ok_iff.mp e
  obtain ⟨_, _, e⟩ := bind_ok_iff.mp e
  obtain ⟨_, _, e⟩ := bind_ok_iff.mp e
  obtain ⟨_, _, e⟩ := bind_ok_iff.mp e
  obtain ⟨⟨_, _⟩, _, e⟩ := bind_ok_iff.mp e
  obtain ⟨_, _, e⟩ := bind_ok_iff.mp e
  obtain ⟨_, _, e⟩ := bind_ok_iff.mp e
  obtain ⟨⟨_, _, _⟩, _, e⟩ := bind_ok_iff.mp e
  obtain ⟨m1, h1, e⟩ := bind_ok_iff.mp e
  obtain ⟨⟨_, _⟩, _, e⟩ := bind_ok_iff.mp e
  obtain ⟨m2, h2, e⟩ := bind_ok_iff.mp e
  obtain ⟨_, _, e⟩ := bind_ok_iff.mp e
  cases e
  exact Same.setData (Same.shrinkBy (((h.setData hk _).growFor hk (hw _ (by simp)) h1).setData hk _) hk hp h2) hk _

theorem same_append {swig payer : Meta} {roleId : Nat} {acts : Bytes} (hk : v ≠ swig.key) (h : Same v acc m) (hp : Off v payer)
    (e : appendActions env m swig payer roleId acts = .ok m') : Same v acc m' := by
  simp only [appendActions] at e
  obtain ⟨_, _, e⟩ := bind_ok_iff.mp e
  obtain ⟨_, _, e⟩ := bind_ok_iff.mp e
  obtain ⟨⟨_, _, _⟩, _, e⟩ := bind_ok_iff.mp e
  obtain ⟨m1, h1, e⟩ := bind_ok_iff.mp e
  obtain ⟨⟨_, _⟩, _, e⟩ := bind_ok_iff.mp e
  cases e
  exact (h.growFor hk hp h1).setData hk _

theorem same_claimer {swig payer sys : Meta} {rest : List Meta} {ix : Bytes} (hk : v ≠ swig.key) (h : Same v acc m)
    (hw : ∀ a ∈ swig :: payer :: sys :: rest, Off v a)
    (e : setRentClaimerV1 env m (swig :: payer :: sys :: rest) ix = .ok m') : Same v acc m' := by
  simp only [setRentClaimerV1] at e
  obtain ⟨_, _, e⟩ := bind_ok_iff.mp e
  obtain ⟨_, _, e⟩ := bind_ok_iff.mp e
  obtain ⟨_, _, e⟩ := bind_ok_iff.mp e
  obtain ⟨_, _, e⟩ := bind_ok_iff.mp e
  obtain ⟨_, _, e⟩ := bind_ok_iff.mp e
  obtain ⟨_, _, e⟩ := bind_ok_iff.mp e
  obtain ⟨_, _, e⟩ := bind_ok_iff.mp e
  obtain ⟨_, _, e⟩ := bind_ok_iff.mp e
  obtain ⟨⟨_, _⟩, _, e⟩ := bind_ok_iff.mp e
  obtain ⟨_, _, e⟩ := bind_ok_iff.mp e
  obtain ⟨_, _, e⟩ := bind_ok_iff.mp e
  obtain ⟨_, _, e⟩ := bind_ok_iff.mp e
  obtain ⟨_, _, e⟩ := bind_ok_iff.mp e
  obtain ⟨_, _, e⟩ := bind_ok_iff.mp e
  obtain ⟨m1, h1, e⟩ := bind_ok_iff.mp e
  obtain ⟨m2, h2, e⟩ := bind_ok_iff.mp e
  obtain ⟨_, _, e⟩ := bind_ok_iff.mp e
  cases e
  exact (((h.setData hk _).realloc hk h1).topUp (hw _ (by simp)) (hw _ (by simp)) h2).setData hk _

theorem same_session {swig payer sys : Meta} {rest : List Meta} {ix : Bytes} (hk : v ≠ swig.key) (h : Same v acc m)
    (_ : ∀ a ∈ swig :: payer :: sys :: rest, Off v a)
    (e : createSessionV1 env m (swig :: payer :: sys :: rest) ix = .ok m') : Same v acc m' := by
  simp only [createSessionV1] at e
  obtain ⟨_, _, e⟩ := bind_ok_iff.mp e
  obtain ⟨_, _, e⟩ := bind_ok_iff.mp e
  obtain ⟨_, _, e⟩ := bind_ok_iff.mp e
  obtain ⟨_, _, e⟩ := bind_ok_iff.mp e
  obtain ⟨_, _, e⟩ := bind_ok_iff.mp e
  obtain ⟨_, _, e⟩ := bind_ok_iff.mp e
  cases e
  exact h.setData hk _

theorem same_replace {swig : Meta} {rest : List Meta} {ix : Bytes} (hk : v ≠ swig.key) (h : Same v acc m)
    (_ : ∀ a ∈ swig :: rest, Off v a)
    (e : replaceAuthorityV1 env m (swig :: rest) ix = .ok m') : Same v acc m' := by
  simp only [replaceAuthorityV1] at e
  obtain ⟨_, _, e⟩ := bind_ok_iff.mp e
  obtain ⟨_, _, e⟩ := bind_ok_iff.mp e
  obtain ⟨_, _, e⟩ := bind_ok_iff.mp e
  obtain ⟨⟨_, _⟩, _, e⟩ := bind_ok_iff.mp e
  obtain ⟨_, _, e⟩ := bind_ok_iff.mp e
  obtain ⟨_, _, e⟩ := bind_ok_iff.mp e
  obtain ⟨_, _, e⟩ := bind_ok_iff.mp e
  obtain ⟨_, _, e⟩ := bind_ok_iff.mp e
  cases e
  exact h.setData hk _

theorem same_create {swig payer wallet sys : Meta} {rest : List Meta} {ix : Bytes} (h : Same v acc m)
    (hw : ∀ a ∈ swig :: payer :: wallet :: sys :: rest, Off v a)
    (e : createV1 env m (swig :: payer :: wallet :: sys :: rest) ix = .ok m') : Same v acc m' := by
  simp only [createV1] at e
  obtain ⟨⟨c, al⟩, h0, e⟩ := bind_ok_iff.mp e
  obtain ⟨m1, h1, e⟩ := bind_ok_iff.mp e
  obtain ⟨m2, h2, e⟩ := bind_ok_iff.mp e
  obtain ⟨_, _, e⟩ := bind_ok_iff.mp e
  cases e
  obtain ⟨h1, hk⟩ := h.sysCreate (hw payer (by simp)) (hw swig (by simp)) h1
  exact (h1.fundWallet (hw payer (by simp)) (hw wallet (by simp)) h2).setData hk _

/-! ## Calls -/

theorem innerAccountsGo_mem {metas : List Meta} {signer : Key} {restricted : List Key} {b : Bytes} : ∀ (n i c : Nat) {is : List Nat}
    {as : List Meta} {c' : Nat}, innerAccountsGo metas signer restricted b n i c = .ok (is, as, c') → ∀ a ∈ as, ∃ o ∈ metas, o.key = a.key := by
  intro n
  induction n with
  | zero => intro i c is as c' e a ha; cases e; cases ha
  | succ n ih =>
    intro i c is as c' e a ha
    unfold innerAccountsGo at e
    obtain ⟨⟨idx, c1⟩, _, e⟩ := bind_ok_iff.mp e
    obtain ⟨o, h1, e⟩ := bind_ok_iff.mp e
    dsimp only at e
    split at e
    · cases e
    · obtain ⟨⟨is', as', c2⟩, h2, e⟩ := bind_ok_iff.mp e
      cases e
      have ho : o ∈ metas := by
        unfold getOr at h1
        split at h1
        · rename_i x hx; cases h1; exact List.mem_of_getElem? hx
        · cases h1
      rcases List.mem_cons.mp ha with rfl | ha
      · exact ⟨o, ho, rfl⟩
      · exact ih _ _ h2 a ha

theorem decodeGo_mem {metas : List Meta} {signer : Key} {restricted : List Key} {b : Bytes} : ∀ (n c : Nat) {ixs : List Inner},
    decodeGo metas signer restricted b n c = .ok ixs → ∀ ix ∈ ixs, ∀ a ∈ ix.accounts, ∃ o ∈ metas, o.key = a.key := by
  intro n
  induction n with
  | zero => intro c ixs e ix hix; cases e; cases hix
  | succ n ih =>
    intro c ixs e ix hix
    unfold decodeGo at e
    obtain ⟨⟨ix1, c1⟩, h1, e⟩ := bind_ok_iff.mp e
    obtain ⟨rest, h2, e⟩ := bind_ok_iff.mp e
    cases e
    rcases List.mem_cons.mp hix with rfl | hix
    · unfold parseNext at h1
      obtain ⟨⟨_, _⟩, _, h1⟩ := bind_ok_iff.mp h1
      obtain ⟨_, _, h1⟩ := bind_ok_iff.mp h1
      obtain ⟨⟨_, _⟩, _, h1⟩ := bind_ok_iff.mp h1
      obtain ⟨⟨_, _, _⟩, h3, h1⟩ := bind_ok_iff.mp h1
      obtain ⟨⟨_, _⟩, _, h1⟩ := bind_ok_iff.mp h1
      obtain ⟨⟨_, _⟩, _, h1⟩ := bind_ok_iff.mp h1
      cases h1
      exact innerAccountsGo_mem _ _ _ h3
    · exact ih _ h2 ix hix

/-- The accounts of the inner instructions are accounts of the request. -/
theorem decodeIxs_mem {metas : List Meta} {signer : Key} {restricted : List Key} {b : Bytes} {ixs : List Inner}
    (e : decodeIxs metas signer restricted b = .ok ixs) : ∀ ix ∈ ixs, ∀ a ∈ ix.accounts, ∃ o ∈ metas, o.key = a.key := by
  unfold decodeIxs at e
  split at e
  · cases e
  · exact decodeGo_mem _ _ e

/-- `v` is not among the accounts of the request, or the signing address stays an account of the System program. -/
def Calm (cpi : Cpi) (v : Key) (metas : List Meta) (signer : Key) : Prop := (∀ a ∈ metas, v ≠ a.key) ∨ cpi.Leaves signer

variable (hc : cpi.Respects)
include hc

theorem Same.invokeSigned {outer : List Meta} {ix : CpiIx} {seeds : List Bytes} (hw : ∀ a ∈ outer, Off v a) (h : Same v acc m)
    (e : invokeSigned env cpi m outer ix seeds = .ok m') : Same v acc m' := by
  by_cases hv : m' v = m v
  · unfold Same; rw [hv]; exact h
  · obtain ⟨a, ha, hk, hwr⟩ := hc _ _ _ (invokeSigned_cpi e) v hv
    unfold Verif.invokeSigned at e
    split at e
    · cases e
    · split at e
      · rename_i hp
        obtain ⟨o, ho, h1, h2⟩ := (hp a ha).2 hwr
        exact absurd (hk.symm.trans h1.symm) (hw o ho h2)
      · cases e

theorem Same.execInner {metas : List Meta} {signer : Key} {seeds : List Bytes} {ix : Inner} (hw : ∀ a ∈ metas, Off v a)
    (hx : ∀ a ∈ ix.accounts, ∃ o ∈ metas, o.key = a.key) (hq : Calm cpi v metas signer) (h : Same v acc m)
    (hs : (∀ a ∈ metas, v ≠ a.key) ∨ (m signer).owner = systemId) (e : execInner env cpi m metas signer seeds ix = .ok m') :
    Same v acc m' ∧ ((∀ a ∈ metas, v ≠ a.key) ∨ (m' signer).owner = systemId) := by
  rcases execInner_cases e with e | ⟨a, d, rest, ha, hk, h1, rfl⟩
  · refine ⟨h.invokeSigned hc hw e, ?_⟩
    rcases hq with hq | hq
    · exact .inl hq
    · rcases hs with hs | hs
      · exact .inl hs
      · exact .inr (hq _ _ _ hs (invokeSigned_cpi e))
  · rcases hs with hs | hs
    · refine ⟨?_, .inl hs⟩
      obtain ⟨o1, m1, k1⟩ := hx a (by rw [ha]; simp)
      obtain ⟨o2, m2, k2⟩ := hx d (by rw [ha]; simp)
      have g1 := hs o1 m1
      have g2 := hs o2 m2
      rw [k1, hk] at g1
      rw [k2] at g2
      unfold directTransfer
      exact (h.setLamports g1 _).setLamports g2 _
    · exact absurd hs h1

theorem Same.execAll {metas : List Meta} {signer : Key} {seeds : List Bytes} (hw : ∀ a ∈ metas, Off v a) (hq : Calm cpi v metas signer) :
    ∀ {ixs : List Inner} {m m' : Mem}, (∀ ix ∈ ixs, ∀ a ∈ ix.accounts, ∃ o ∈ metas, o.key = a.key) → Same v acc m →
    ((∀ a ∈ metas, v ≠ a.key) ∨ (m signer).owner = systemId) → execAll env cpi metas signer seeds m ixs = .ok m' → Same v acc m' := by
  intro ixs
  induction ixs with
  | nil => intro m m' _ h _ e; cases e; exact h
  | cons ix ixs ih =>
    intro m m' hx h hs e
    simp only [Verif.execAll] at e
    obtain ⟨m1, h1, e⟩ := bind_ok_iff.mp e
    obtain ⟨g1, g2⟩ := h.execInner hc hw (hx ix (by simp)) hq hs h1
    exact ih (fun i hi => hx i (by simp [hi])) g1 g2 e

theorem Same.closeTokensGo {outer : List Meta} {program : Key} {v2 : Bool} {swig wallet dst : Key} {s1 s2 : List Bytes}
    (hw : ∀ a ∈ outer, Off v a) : ∀ {l : List Meta} {m m' : Mem}, Same v acc m →
    closeTokensGo env cpi outer program v2 swig wallet dst s1 s2 m l = .ok m' → Same v acc m' := by
  intro l
  induction l with
  | nil => intro m m' h e; cases e; exact h
  | cons t l ih =>
    intro m m' h e
    simp only [Verif.closeTokensGo] at e
    obtain ⟨_, _, e⟩ := bind_ok_iff.mp e
    obtain ⟨m1, h1, e⟩ := bind_ok_iff.mp e
    exact ih (h.invokeSigned hc hw h1) e

theorem Same.transferTokensGo {outer : List Meta} {swig wallet : Key} {seeds : List Bytes} (hw : ∀ a ∈ outer, Off v a) :
    ∀ (n : Nat) {l : List Meta} {m m' : Mem},
    l.length ≤ n → Same v acc m → transferTokensGo env cpi outer swig wallet seeds m l = .ok m' → Same v acc m' := by
  intro n
  induction n with
  | zero =>
    intro l m m' hl h e
    cases l with
    | nil => unfold Verif.transferTokensGo at e; cases e; exact h
    | cons _ _ => simp at hl
  | succ n ih =>
    intro l m m' hl h e
    match l, hl, e with
    | [], _, e => unfold Verif.transferTokensGo at e; cases e; exact h
    | [_], _, e => unfold Verif.transferTokensGo at e; cases e; exact h
    | [_, _], _, e => unfold Verif.transferTokensGo at e; cases e; exact h
    | a :: b :: c :: l, hl, e =>
      unfold Verif.transferTokensGo at e
      obtain ⟨m1, h1, e⟩ := bind_ok_iff.mp e
      refine ih (by simp at hl; omega) ?_ e
      unfold transferOne at h1
      split at h1
      · exact h.invokeSigned hc hw h1
      · cases h1; exact h

theorem same_closeToken {swig wallet dst token : Meta} {rest : List Meta} {ix : Bytes} (hk : v ≠ swig.key) (h : Same v acc m)
    (hw : ∀ a ∈ swig :: wallet :: dst :: token :: rest, Off v a)
    (e : closeTokenV1 env cpi m (swig :: wallet :: dst :: token :: rest) ix = .ok m') : Same v acc m' := by
  simp only [closeTokenV1] at e
  obtain ⟨_, _, e⟩ := bind_ok_iff.mp e
  obtain ⟨_, _, e⟩ := bind_ok_iff.mp e
  obtain ⟨_, _, e⟩ := bind_ok_iff.mp e
  obtain ⟨_, _, e⟩ := bind_ok_iff.mp e
  obtain ⟨⟨_, _⟩, _, e⟩ := bind_ok_iff.mp e
  obtain ⟨_, _, e⟩ := bind_ok_iff.mp e
  obtain ⟨_, _, e⟩ := bind_ok_iff.mp e
  obtain ⟨⟨_, _⟩, _, e⟩ := bind_ok_iff.mp e
  obtain ⟨_, _, e⟩ := bind_ok_iff.mp e
  obtain ⟨_, _, e⟩ := bind_ok_iff.mp e
  obtain ⟨_, _, e⟩ := bind_ok_iff.mp e
  obtain ⟨_, _, e⟩ := bind_ok_iff.mp e
  obtain ⟨_, _, e⟩ := bind_ok_iff.mp e
  obtain ⟨_, _, e⟩ := bind_ok_iff.mp e
  exact Same.closeTokensGo hc hw (h.setData hk _) e

theorem same_transferAssets {swig wallet payer sys : Meta} {rest : List Meta} {ix : Bytes} (hk : v ≠ swig.key) (h : Same v acc m)
    (hp : v ≠ wallet.key) (hw : ∀ a ∈ swig :: wallet :: payer :: sys :: rest, Off v a)
    (e : transferAssetsV1 env cpi m (swig :: wallet :: payer :: sys :: rest) ix = .ok m') : Same v acc m' := by
  simp only [transferAssetsV1] at e
  obtain ⟨_, _, e⟩ := bind_ok_iff.mp e
  obtain ⟨_, _, e⟩ := bind_ok_iff.mp e
  obtain ⟨_, _, e⟩ := bind_ok_iff.mp e
  obtain ⟨_, _, e⟩ := bind_ok_iff.mp e
  obtain ⟨_, _, e⟩ := bind_ok_iff.mp e
  obtain ⟨⟨_, _⟩, _, e⟩ := bind_ok_iff.mp e
  obtain ⟨_, _, e⟩ := bind_ok_iff.mp e
  obtain ⟨_, _, e⟩ := bind_ok_iff.mp e
  refine Same.transferTokensGo hc hw _ (Nat.le_refl _) ?_ e
  unfold transferSol
  dsimp only
  split
  · exact ((h.setData hk _).setLamports hk _).setLamports hp _
  · exact h.setData hk _

omit hc in
theorem same_closeSwig {swig wallet dst sys : Meta} {rest : List Meta} {ix : Bytes} (hk : v ≠ swig.key) (h : Same v acc m)
    (hp : v ≠ dst.key) (hw : ∀ a ∈ swig :: wallet :: dst :: sys :: rest, Off v a)
    (e : closeSwigV1 env m (swig :: wallet :: dst :: sys :: rest) ix = .ok m') : Same v acc m' := by
  simp only [closeSwigV1] at e
  obtain ⟨_, hso, e⟩ := bind_ok_iff.mp e
  have hso := require_ok_iff.mp hso
  obtain ⟨_, _, e⟩ := bind_ok_iff.mp e
  obtain ⟨_, _, e⟩ := bind_ok_iff.mp e
  obtain ⟨_, _, e⟩ := bind_ok_iff.mp e
  obtain ⟨_, _, e⟩ := bind_ok_iff.mp e
  obtain ⟨⟨_, _⟩, _, e⟩ := bind_ok_iff.mp e
  obtain ⟨_, _, e⟩ := bind_ok_iff.mp e
  obtain ⟨⟨_, _⟩, _, e⟩ := bind_ok_iff.mp e
  obtain ⟨_, _, e⟩ := bind_ok_iff.mp e
  obtain ⟨_, _, e⟩ := bind_ok_iff.mp e
  obtain ⟨_, _, e⟩ := bind_ok_iff.mp e
  obtain ⟨_, _, e⟩ := bind_ok_iff.mp e
  obtain ⟨_, _, e⟩ := bind_ok_iff.mp e
  obtain ⟨m1, h1, e⟩ := bind_ok_iff.mp e
  obtain ⟨m2, h2, e⟩ := bind_ok_iff.mp e
  cases e
  refine Same.setData (Same.realloc ?_ hk h2) hk _
  have g : Same v acc m1 := by
    unfold drainWallet at h1
    split at h1
    · exact (h.setData hk _).signedTransfer (hw wallet (by simp)) (hw dst (by simp)) h1
    · cases h1; exact h.setData hk _
  unfold closeLamports
  exact (g.setLamports hk _).setLamports hp _

omit hc in
theorem same_migrate {swig auth payer wallet sys : Meta} {rest : List Meta} {ix : Bytes} (hk : v ≠ swig.key) (h : Same v acc m)
    (hw : ∀ a ∈ swig :: auth :: payer :: wallet :: sys :: rest, Off v a)
    (e : migrateV1 env m (swig :: auth :: payer :: wallet :: sys :: rest) ix = .ok m') : Same v acc m' := by
  simp only [migrateV1] at e
  obtain ⟨_, _, e⟩ := bind_ok_iff.mp e
  obtain ⟨_, _, e⟩ := bind_ok_iff.mp e
  obtain ⟨_, _, e⟩ := bind_ok_iff.mp e
  obtain ⟨_, _, e⟩ := bind_ok_iff.mp e
  obtain ⟨_, _, e⟩ := bind_ok_iff.mp e
  obtain ⟨⟨_, _⟩, _, e⟩ := bind_ok_iff.mp e
  obtain ⟨_, _, e⟩ := bind_ok_iff.mp e
  obtain ⟨_, _, e⟩ := bind_ok_iff.mp e
  obtain ⟨_, _, e⟩ := bind_ok_iff.mp e
  obtain ⟨_, _, e⟩ := bind_ok_iff.mp e
  obtain ⟨_, _, e⟩ := bind_ok_iff.mp e
  obtain ⟨_, _, e⟩ := bind_ok_iff.mp e
  exact (h.setData hk _).fundWallet (hw payer (by simp)) (hw wallet (by simp)) e

/-! ## Sub-accounts -/

omit hc in
theorem same_createSubV1 {swig payer sub sys : Meta} {rest : List Meta} {ix : Bytes} (hk : v ≠ swig.key) (h : Same v acc m)
    (hw : ∀ a ∈ swig :: payer :: sub :: sys :: rest, Off v a)
    (e : createSubV1 env m (swig :: payer :: sub :: sys :: rest) ix = .ok m') : Same v acc m' := by
  simp only [createSubV1] at e
  obtain ⟨_, _, e⟩ := bind_ok_iff.mp e
  obtain ⟨_, _, e⟩ := bind_ok_iff.mp e
  obtain ⟨_, _, e⟩ := bind_ok_iff.mp e
  obtain ⟨_, _, e⟩ := bind_ok_iff.mp e
  obtain ⟨⟨_, _⟩, _, e⟩ := bind_ok_iff.mp e
  obtain ⟨_, _, e⟩ := bind_ok_iff.mp e
  obtain ⟨_, _, e⟩ := bind_ok_iff.mp e
  obtain ⟨_, _, e⟩ := bind_ok_iff.mp e
  obtain ⟨m1, h1, e⟩ := bind_ok_iff.mp e
  cases e
  exact ((h.setData hk _).fundWallet (hw payer (by simp)) (hw sub (by simp)) h1).setData hk _

omit hc in
theorem Same.checkRent {k : Key} {a : Mem} (h : Same v acc m) (e : checkRent env m k = .ok a) : Same v acc a := by
  unfold Verif.checkRent at e
  split at e
  · cases e
  · cases e; exact h

theorem same_subSignV1 {swig sub sys : Meta} {rest : List Meta} {ix : Bytes} (hk : v ≠ swig.key) (h : Same v acc m)
    (hw : ∀ a ∈ swig :: sub :: sys :: rest, Off v a) (hq : Calm cpi v (swig :: sub :: sys :: rest) sub.key)
    (e : subSignV1 env cpi m (swig :: sub :: sys :: rest) ix = .ok m') : Same v acc m' := by
  simp only [subSignV1] at e
  obtain ⟨_, _, e⟩ := bind_ok_iff.mp e
  obtain ⟨_, _, e⟩ := bind_ok_iff.mp e
  obtain ⟨_, hs, e⟩ := bind_ok_iff.mp e
  have hs := require_ok_iff.mp hs
  obtain ⟨_, _, e⟩ := bind_ok_iff.mp e
  obtain ⟨_, _, e⟩ := bind_ok_iff.mp e
  obtain ⟨⟨_, _⟩, _, e⟩ := bind_ok_iff.mp e
  obtain ⟨_, _, e⟩ := bind_ok_iff.mp e
  obtain ⟨_, _, e⟩ := bind_ok_iff.mp e
  obtain ⟨_, _, e⟩ := bind_ok_iff.mp e
  obtain ⟨_, hx, e⟩ := bind_ok_iff.mp e
  obtain ⟨m1, h1, e⟩ := bind_ok_iff.mp e
  exact Same.checkRent (Same.execAll hc hw hq (decodeIxs_mem hx) (h.setData hk _) (.inr (by simpa using hs)) h1) e

omit hc in
theorem same_toggleSubV1 {swig payer sub : Meta} {rest : List Meta} {ix : Bytes} (hk : v ≠ swig.key) (h : Same v acc m)
    (_ : ∀ a ∈ swig :: payer :: sub :: rest, Off v a)
    (e : toggleSubV1 env m (swig :: payer :: sub :: rest) ix = .ok m') : Same v acc m' := by
  simp only [toggleSubV1] at e
  obtain ⟨_, _, e⟩ := bind_ok_iff.mp e
  obtain ⟨_, _, e⟩ := bind_ok_iff.mp e
  obtain ⟨_, _, e⟩ := bind_ok_iff.mp e
  obtain ⟨_, _, e⟩ := bind_ok_iff.mp e
  obtain ⟨_, _, e⟩ := bind_ok_iff.mp e
  obtain ⟨⟨_, _⟩, _, e⟩ := bind_ok_iff.mp e
  obtain ⟨_, _, e⟩ := bind_ok_iff.mp e
  obtain ⟨_, _, e⟩ := bind_ok_iff.mp e
  obtain ⟨_, _, e⟩ := bind_ok_iff.mp e
  cases e
  exact h.setData hk _

theorem Same.withdrawTokenV1 {metas : List Meta} {sub wallet : Key} {n : Nat} {seeds : List Bytes} (hw : ∀ a ∈ metas, Off v a) (h : Same v acc m)
    (e : withdrawTokenV1 env cpi m metas sub wallet n seeds = .ok m') : Same v acc m' := by
  unfold Verif.withdrawTokenV1 at e
  obtain ⟨_, _, e⟩ := bind_ok_iff.mp e
  obtain ⟨_, _, e⟩ := bind_ok_iff.mp e
  obtain ⟨_, _, e⟩ := bind_ok_iff.mp e
  obtain ⟨_, _, e⟩ := bind_ok_iff.mp e
  obtain ⟨_, _, e⟩ := bind_ok_iff.mp e
  obtain ⟨_, _, e⟩ := bind_ok_iff.mp e
  obtain ⟨_, _, e⟩ := bind_ok_iff.mp e
  exact h.invokeSigned hc hw e

omit hc in
theorem Same.withdrawSol {sub wallet : Meta} {n : Nat} {seeds : List Bytes} (h : Same v acc m) (h1 : Off v sub) (h2 : Off v wallet)
    (e : withdrawSol env m sub wallet n seeds = .ok m') : Same v acc m' := by
  unfold Verif.withdrawSol at e
  split at e
  · cases e
  · exact h.signedTransfer h1 h2 e

theorem same_withdrawSubV1 {swig auth sub x3 wallet x5 : Meta} {rest : List Meta} {ix : Bytes} (hk : v ≠ swig.key) (h : Same v acc m)
    (hw : ∀ a ∈ swig :: auth :: sub :: x3 :: wallet :: x5 :: rest, Off v a)
    (e : withdrawSubV1 env cpi m (swig :: auth :: sub :: x3 :: wallet :: x5 :: rest) ix = .ok m') : Same v acc m' := by
  simp only [withdrawSubV1] at e
  obtain ⟨_, _, e⟩ := bind_ok_iff.mp e
  obtain ⟨_, _, e⟩ := bind_ok_iff.mp e
  obtain ⟨_, _, e⟩ := bind_ok_iff.mp e
  obtain ⟨_, _, e⟩ := bind_ok_iff.mp e
  obtain ⟨_, _, e⟩ := bind_ok_iff.mp e
  obtain ⟨⟨_, _⟩, _, e⟩ := bind_ok_iff.mp e
  obtain ⟨_, _, e⟩ := bind_ok_iff.mp e
  obtain ⟨⟨_, _⟩, _, e⟩ := bind_ok_iff.mp e
  obtain ⟨_, _, e⟩ := bind_ok_iff.mp e
  obtain ⟨⟨_, _⟩, _, e⟩ := bind_ok_iff.mp e
  split at e
  · exact Same.withdrawTokenV1 hc hw (h.setData hk _) e
  · exact (h.setData hk _).withdrawSol (hw sub (by simp)) (hw wallet (by simp)) e

omit hc in
theorem sysAllocAssign_writable {seeds : List Bytes} {acct : Meta} {space : Nat} {owner : Key}
    (e : sysAllocAssign env m seeds acct space owner = .ok m') : acct.writable = true := by
  unfold sysAllocAssign at e
  split at e
  · cases e
  · split at e
    · cases e
    · rename_i h
      cases hw : acct.writable <;> simp_all

omit hc in
theorem same_createSubV2 {swig payer state sub sys : Meta} {rest : List Meta} {ix : Bytes} (hk : v ≠ swig.key) (h : Same v acc m)
    (hw : ∀ a ∈ swig :: payer :: state :: sub :: sys :: rest, Off v a)
    (e : createSubV2 env m (swig :: payer :: state :: sub :: sys :: rest) ix = .ok m') : Same v acc m' := by
  simp only [createSubV2] at e
  obtain ⟨_, _, e⟩ := bind_ok_iff.mp e
  obtain ⟨_, h0, e⟩ := bind_ok_iff.mp e
  obtain ⟨_, _, e⟩ := bind_ok_iff.mp e
  obtain ⟨_, _, e⟩ := bind_ok_iff.mp e
  obtain ⟨_, _, e⟩ := bind_ok_iff.mp e
  obtain ⟨_, _, e⟩ := bind_ok_iff.mp e
  obtain ⟨⟨_, _, _⟩, _, e⟩ := bind_ok_iff.mp e
  obtain ⟨_, _, e⟩ := bind_ok_iff.mp e
  obtain ⟨_, _, e⟩ := bind_ok_iff.mp e
  obtain ⟨m1, h1, e⟩ := bind_ok_iff.mp e
  obtain ⟨m2, h2, e⟩ := bind_ok_iff.mp e
  obtain ⟨m3, h3, e⟩ := bind_ok_iff.mp e
  have g1 := (h.setData hk _).fundState (hw payer (by simp)) (hw state (by simp)) h1
  have hs : v ≠ state.key := hw state (by simp) (sysAllocAssign_writable h2)
  have g2 : Same v acc m2 := by
    unfold Same; rw [sysAllocAssign_ok h2]; rw [Mem.set_other _ _ hs]; exact g1
  have g3 := (g2.setData hs _).fundEmpty (hw payer (by simp)) (hw sub (by simp)) h3
  unfold grantAll at e
  split at e
  · cases e; exact g3
  · exact same_append hk g3 (hw payer (by simp)) e

theorem same_subSignV2 {swig state sub sys : Meta} {rest : List Meta} {ix : Bytes} (hk : v ≠ swig.key) (h : Same v acc m)
    (hw : ∀ a ∈ swig :: state :: sub :: sys :: rest, Off v a) (hq : Calm cpi v (swig :: state :: sub :: sys :: rest) sub.key)
    (e : subSignV2 env cpi m (swig :: state :: sub :: sys :: rest) ix = .ok m') : Same v acc m' := by
  simp only [subSignV2] at e
  obtain ⟨_, _, e⟩ := bind_ok_iff.mp e
  obtain ⟨_, _, e⟩ := bind_ok_iff.mp e
  obtain ⟨_, hs, e⟩ := bind_ok_iff.mp e
  have hs := require_ok_iff.mp hs
  obtain ⟨_, _, e⟩ := bind_ok_iff.mp e
  obtain ⟨⟨_, _⟩, _, e⟩ := bind_ok_iff.mp e
  obtain ⟨_, _, e⟩ := bind_ok_iff.mp e
  obtain ⟨_, hx, e⟩ := bind_ok_iff.mp e
  obtain ⟨m1, h1, e⟩ := bind_ok_iff.mp e
  exact Same.checkRent (Same.execAll hc hw hq (decodeIxs_mem hx) (h.setData hk _) (.inr (by simpa using hs)) h1) e

theorem same_withdrawSubV2 {swig auth state sub wallet x6 x7 : Meta} {rest : List Meta} {ix : Bytes} (hk : v ≠ swig.key) (h : Same v acc m)
    (hw : ∀ a ∈ swig :: auth :: state :: sub :: wallet :: x6 :: x7 :: rest, Off v a)
    (e : withdrawSubV2 env cpi m (swig :: auth :: state :: sub :: wallet :: x6 :: x7 :: rest) ix = .ok m') : Same v acc m' := by
  simp only [withdrawSubV2] at e
  obtain ⟨_, _, e⟩ := bind_ok_iff.mp e
  obtain ⟨_, _, e⟩ := bind_ok_iff.mp e
  obtain ⟨_, _, e⟩ := bind_ok_iff.mp e
  obtain ⟨_, _, e⟩ := bind_ok_iff.mp e
  obtain ⟨⟨_, _⟩, _, e⟩ := bind_ok_iff.mp e
  obtain ⟨_, _, e⟩ := bind_ok_iff.mp e
  obtain ⟨_, _, e⟩ := bind_ok_iff.mp e
  unfold withdrawV2 at e
  split at e
  · obtain ⟨_, _, e⟩ := bind_ok_iff.mp e
    obtain ⟨_, _, e⟩ := bind_ok_iff.mp e
    obtain ⟨_, _, e⟩ := bind_ok_iff.mp e
    obtain ⟨_, _, e⟩ := bind_ok_iff.mp e
    exact Same.invokeSigned hc hw (h.setData hk _) e
  · split at e
    · exact (h.setData hk _).withdrawSol (hw sub (by simp)) (hw wallet (by simp)) e
    · cases e

omit hc in
theorem same_toggleSubV2 {swig auth state : Meta} {rest : List Meta} {ix : Bytes} (hk : v ≠ swig.key)
    (h : Same v acc m) (hp : v ≠ state.key)
    (e : toggleSubV2 env m (swig :: auth :: state :: rest) ix = .ok m') : Same v acc m' := by
  simp only [toggleSubV2] at e
  obtain ⟨_, _, e⟩ := bind_ok_iff.mp e
  obtain ⟨_, _, e⟩ := bind_ok_iff.mp e
  obtain ⟨_, _, e⟩ := bind_ok_iff.mp e
  obtain ⟨_, _, e⟩ := bind_ok_iff.mp e
  obtain ⟨⟨_, _⟩, _, e⟩ := bind_ok_iff.mp e
  obtain ⟨_, h1, e⟩ := bind_ok_iff.mp e
  cases e
  exact (h.setData hk _).setData hp _

/-! ## SignV2 -/

omit hc in
theorem Same.write {l : ActLoc} {ty o : Nat} {acts : Bytes} {f : Bytes → R Bytes} (hk : v ≠ l.swig) (h : Same v acc m)
    (e : l.write m ty acts f o = .ok m') : Same v acc m' := by
  unfold ActLoc.write at e
  obtain ⟨_, _, e⟩ := bind_ok_iff.mp e
  cases e; exact h.setData hk _

omit hc in
theorem Same.charge {l : ActLoc} {ty : Nat} {key : Bytes} {f : Bytes → R Bytes} (hk : v ≠ l.swig) (h : Same v acc m)
    (e : l.charge m ty key f = .ok (some m')) : Same v acc m' := by
  unfold ActLoc.charge at e
  obtain ⟨_, _, e⟩ := bind_ok_iff.mp e
  obtain ⟨o, _, e⟩ := bind_ok_iff.mp e
  cases o with
  | none => cases e
  | some o =>
    obtain ⟨m1, h1, e⟩ := bind_ok_iff.mp e
    cases e; exact h.write hk h1

variable {x : SignCtx}

omit hc in
theorem Same.chargeEither {ty1 ty2 : Nat} {key : Bytes} {f1 f2 : Bytes → R Bytes} {b : Bool} (hk : v ≠ x.loc.swig) (h : Same v acc m)
    (e : chargeEither x m ty1 ty2 key f1 f2 = .ok (m', b)) : Same v acc m' := by
  unfold Verif.chargeEither at e
  obtain ⟨r, h1, e⟩ := bind_ok_iff.mp e
  cases r with
  | some m1 => cases e; exact h.charge hk h1
  | none =>
    obtain ⟨r, h2, e⟩ := bind_ok_iff.mp e
    cases r with
    | some m1 => cases e; exact h.charge hk h2
    | none => cases e; exact h

omit hc in
theorem Same.chargeDests {one : Mem → Key → Nat → R (Mem × Bool)} (h1 : ∀ m d n m' b, Same v acc m → one m d n = .ok (m', b) → Same v acc m') :
    ∀ {ts : List (Key × Nat)} {m m' : Mem} {sum sum' : Nat}, Same v acc m → chargeDests one m sum ts = .ok (m', sum') → Same v acc m' := by
  intro ts
  induction ts with
  | nil => intro m m' sum sum' h e; cases e; exact h
  | cons t ts ih =>
    intro m m' sum sum' h e
    obtain ⟨d, n⟩ := t
    simp only [Verif.chargeDests] at e
    obtain ⟨_, _, e⟩ := bind_ok_iff.mp e
    obtain ⟨⟨m1, ok⟩, h2, e⟩ := bind_ok_iff.mp e
    obtain ⟨_, _, e⟩ := bind_ok_iff.mp e
    exact ih (h1 _ _ _ _ _ h h2) e

omit hc in
theorem Same.settleDests {has : Bool} {one : Mem → Key → Nat → R (Mem × Bool)} {spent : Nat} {ts : List (Key × Nat)} {b : Bool}
    (h1 : ∀ m d n m' b, Same v acc m → one m d n = .ok (m', b) → Same v acc m') (h : Same v acc m)
    (e : settleDests has one m spent ts = .ok (m', b)) : Same v acc m' := by
  unfold Verif.settleDests at e
  split at e
  · obtain ⟨⟨m1, s⟩, h2, e⟩ := bind_ok_iff.mp e
    obtain ⟨_, _, e⟩ := bind_ok_iff.mp e
    cases e
    exact Same.chargeDests h1 h h2
  · cases e; exact h

omit hc in
theorem Same.settleSol {spent : Nat} (hk : v ≠ x.loc.swig) (h : Same v acc m) (e : settleSol x m spent = .ok m') : Same v acc m' := by
  unfold Verif.settleSol at e
  obtain ⟨⟨m1, _⟩, h1, e⟩ := bind_ok_iff.mp e
  obtain ⟨_, _, e⟩ := bind_ok_iff.mp e
  obtain ⟨_, _, e⟩ := bind_ok_iff.mp e
  obtain ⟨⟨m2, _⟩, h2, e⟩ := bind_ok_iff.mp e
  obtain ⟨_, _, e⟩ := bind_ok_iff.mp e
  cases e
  exact Same.settleDests (fun _ _ _ _ _ g k => g.chargeEither hk k) (h.chargeEither hk h1) h2

omit hc in
theorem Same.settleTokenSpent {src mint : Bytes} {spent : Nat} (hk : v ≠ x.loc.swig) (h : Same v acc m)
    (e : settleTokenSpent x m src mint spent = .ok m') : Same v acc m' := by
  unfold Verif.settleTokenSpent at e
  obtain ⟨⟨m1, _⟩, h1, e⟩ := bind_ok_iff.mp e
  obtain ⟨_, _, e⟩ := bind_ok_iff.mp e
  obtain ⟨_, _, e⟩ := bind_ok_iff.mp e
  obtain ⟨⟨m2, _⟩, h2, e⟩ := bind_ok_iff.mp e
  obtain ⟨_, _, e⟩ := bind_ok_iff.mp e
  cases e
  exact Same.settleDests (fun _ _ _ _ _ g k => g.chargeEither hk k) (h.chargeEither hk h1) h2

omit hc in
theorem Same.settleOne {a : Meta} {c : Class} {hh : Option Bytes} {total : Nat} (hk : v ≠ x.loc.swig) (h : Same v acc m)
    (e : settleOne x m a c hh total = .ok m') : Same v acc m' := by
  unfold Verif.settleOne at e
  split at e
  · unfold settleSwig at e
    obtain ⟨_, _, e⟩ := bind_ok_iff.mp e
    obtain ⟨_, _, e⟩ := bind_ok_iff.mp e
    split at e
    · cases e; exact h
    · exact h.settleSol hk e
  · unfold settleToken at e
    split at e
    · unfold settleClosed at e
      obtain ⟨_, _, e⟩ := bind_ok_iff.mp e
      obtain ⟨_, _, e⟩ := bind_ok_iff.mp e
      obtain ⟨_, _, e⟩ := bind_ok_iff.mp e
      cases e; exact h
    · obtain ⟨_, _, e⟩ := bind_ok_iff.mp e
      obtain ⟨_, _, e⟩ := bind_ok_iff.mp e
      obtain ⟨_, _, e⟩ := bind_ok_iff.mp e
      obtain ⟨_, _, e⟩ := bind_ok_iff.mp e
      split at e
      · cases e; exact h
      · exact h.settleTokenSpent hk e
  · unfold settleStake at e
    obtain ⟨_, _, e⟩ := bind_ok_iff.mp e
    split at e
    · cases e; exact h
    · unfold settleStakeSpent at e
      obtain ⟨_, _, e⟩ := bind_ok_iff.mp e
      split at e
      · cases e; exact h
      · obtain ⟨⟨m1, _⟩, h1, e⟩ := bind_ok_iff.mp e
        obtain ⟨_, _, e⟩ := bind_ok_iff.mp e
        cases e
        exact h.chargeEither hk h1
  · unfold settleScope at e
    obtain ⟨_, _, e⟩ := bind_ok_iff.mp e
    obtain ⟨_, _, e⟩ := bind_ok_iff.mp e
    obtain ⟨_, _, e⟩ := bind_ok_iff.mp e
    obtain ⟨_, _, e⟩ := bind_ok_iff.mp e
    split at e
    · cases e; exact h
    · unfold settleScopeSpent at e
      obtain ⟨r, h1, e⟩ := bind_ok_iff.mp e
      have := orErr_ok e
      subst this
      exact h.charge hk h1
  · cases e; exact h

omit hc in
theorem Same.settleAll {total : Nat} (hk : v ≠ x.loc.swig) : ∀ {l : List (Meta × Class)} {hs : List (Option Bytes)} {m m' : Mem}, Same v acc m →
    settleAll x total m l hs = .ok m' → Same v acc m' := by
  intro l
  induction l with
  | nil => intro hs m m' h e; unfold Verif.settleAll at e; cases e; exact h
  | cons t l ih =>
    intro hs m m' h e
    obtain ⟨a, c⟩ := t
    cases hs with
    | nil => unfold Verif.settleAll at e; cases e; exact h
    | cons hh hs =>
      unfold Verif.settleAll at e
      obtain ⟨m1, h1, e⟩ := bind_ok_iff.mp e
      exact ih (h.settleOne hk h1) e

theorem Same.runIxs (hw : ∀ a ∈ x.metas, Off v a) (hq : Calm cpi v x.metas x.wallet) : ∀ {ixs : List Inner} {m m' : Mem}
    {l l' : List (Meta × Class)} {t t' : Nat}, (∀ ix ∈ ixs, ∀ a ∈ ix.accounts, ∃ o ∈ x.metas, o.key = a.key) → Same v acc m →
    ((∀ a ∈ x.metas, v ≠ a.key) ∨ (m x.wallet).owner = systemId) → runIxs x cpi m l t ixs = .ok (m', l', t') → Same v acc m' := by
  intro ixs
  induction ixs with
  | nil => intro m m' l l' t t' _ h _ e; cases e; exact h
  | cons ix ixs ih =>
    intro m m' l l' t t' hx h hs e
    simp only [Verif.runIxs] at e
    obtain ⟨_, _, e⟩ := bind_ok_iff.mp e
    obtain ⟨_, _, e⟩ := bind_ok_iff.mp e
    obtain ⟨m1, h1, e⟩ := bind_ok_iff.mp e
    obtain ⟨_, _, e⟩ := bind_ok_iff.mp e
    obtain ⟨g1, g2⟩ := h.execInner hc hw (hx ix (by simp)) hq hs h1
    exact ih (fun i hi => hx i (by simp [hi])) g1 g2 e

theorem same_sign {swig wallet x3 : Meta} {rest : List Meta} {cls : List Class} {ix : Bytes} (hk : v ≠ swig.key) (h : Same v acc m)
    (hq : Calm cpi v (swig :: wallet :: x3 :: rest) wallet.key)
    (hcls : classifyAll m (swig :: wallet :: x3 :: rest) = .ok cls) (hw : ∀ a ∈ swig :: wallet :: x3 :: rest, Off v a)
    (e : signV2 env cpi m (swig :: wallet :: x3 :: rest) cls ix = .ok m') : Same v acc m' := by
  simp only [signV2] at e
  obtain ⟨_, _, e⟩ := bind_ok_iff.mp e
  obtain ⟨_, _, e⟩ := bind_ok_iff.mp e
  obtain ⟨_, h0, e⟩ := bind_ok_iff.mp e
  have hs : (m wallet.key).owner = systemId := by
    have h0 := require_ok_iff.mp h0
    obtain ⟨c, cs, rfl, _, h3, h4⟩ := classifyAll_rest hcls
    cases cs with
    | nil => simp at h3
    | cons c1 cs =>
      simp at h0
      subst h0
      have h5 := (h4 (wallet, .wallet) (by simp)).1
      cases h5; assumption
  obtain ⟨_, _, e⟩ := bind_ok_iff.mp e
  obtain ⟨_, _, e⟩ := bind_ok_iff.mp e
  obtain ⟨⟨_, _⟩, _, e⟩ := bind_ok_iff.mp e
  obtain ⟨_, hx, e⟩ := bind_ok_iff.mp e
  unfold signWith at e
  obtain ⟨_, _, e⟩ := bind_ok_iff.mp e
  split at e
  · exact Same.execAll hc hw hq (decodeIxs_mem hx) (h.setData hk _) (.inr (by simpa using hs)) e
  · obtain ⟨_, _, e⟩ := bind_ok_iff.mp e
    obtain ⟨_, _, e⟩ := bind_ok_iff.mp e
    unfold signLimited at e
    obtain ⟨_, _, e⟩ := bind_ok_iff.mp e
    obtain ⟨⟨m1, acc, total⟩, h1, e⟩ := bind_ok_iff.mp e
    exact Same.settleAll (by exact hk) (Same.runIxs hc hw hq (decodeIxs_mem hx) (h.setData hk _) (.inr (by simpa [signCtx] using hs)) h1) e

/-! ## Every instruction -/

/-- An account that is neither passed writable nor written by the handler itself stays the same. -/
theorem process_same {metas : List Meta} {ix : Bytes} (hw : ∀ a ∈ metas, Off v a)
    (ho : ∀ i ∈ ownWrites (rd ix 0 2), ∀ a, metas[i]? = some a → v ≠ a.key)
    (hq : ∀ s, metas[1]? = some s ∨ metas[2]? = some s → Calm cpi v metas s.key)
    (h : Same v acc m) (e : process env cpi m metas ix = .ok m') : Same v acc m' := by
  unfold process at e
  obtain ⟨_, _, e⟩ := bind_ok_iff.mp e
  obtain ⟨cls, hcls, e⟩ := bind_ok_iff.mp e
  unfold dispatch at e
  split at e
  · cases e
  generalize hn : rd ix 0 2 = n at e ho
  split at e
  · unfold addAuthorityV1 at e; split at e
    · exact same_add (ho 0 (by decide) _ rfl) h hw e
    · cases e
  · unfold removeAuthorityV1 at e; split at e
    · exact same_remove (ho 0 (by decide) _ rfl) h (ho 1 (by decide) _ rfl) hw e
    · cases e
  · unfold updateAuthorityV1 at e; split at e
    · exact same_update (ho 0 (by decide) _ rfl) h (ho 1 (by decide) _ rfl) hw e
    · cases e
  · cases e
  · unfold createSessionV1 at e; split at e
    · exact same_session (ho 0 (by decide) _ rfl) h hw e
    · cases e
  · unfold createSubV1 at e; split at e
    · exact same_createSubV1 (ho 0 (by decide) _ rfl) h hw e
    · cases e
  · unfold withdrawSubV1 at e; split at e
    · exact same_withdrawSubV1 hc (ho 0 (by decide) _ rfl) h hw e
    · cases e
  · unfold subSignV1 at e; split at e
    · exact same_subSignV1 hc (ho 0 (by decide) _ rfl) h hw (hq _ (.inl rfl)) e
    · cases e
  · unfold toggleSubV1 at e; split at e
    · exact same_toggleSubV1 (ho 0 (by decide) _ rfl) h hw e
    · cases e
  · unfold signV2 at e; split at e
    · exact same_sign hc (ho 0 (by decide) _ rfl) h (hq _ (.inl rfl)) hcls hw e
    · cases e
  · unfold migrateV1 at e; split at e
    · exact same_migrate (ho 0 (by decide) _ rfl) h hw e
    · cases e
  · unfold transferAssetsV1 at e; split at e
    · exact same_transferAssets hc (ho 0 (by decide) _ rfl) h (ho 1 (by decide) _ rfl) hw e
    · cases e
  · unfold closeTokenV1 at e; split at e
    · exact same_closeToken hc (ho 0 (by decide) _ rfl) h hw e
    · cases e
  · unfold closeSwigV1 at e; split at e
    · exact same_closeSwig (ho 0 (by decide) _ rfl) h (ho 2 (by decide) _ rfl) hw e
    · cases e
  · unfold replaceAuthorityV1 at e; split at e
    · exact same_replace (ho 0 (by decide) _ rfl) h hw e
    · cases e
  · unfold setRentClaimerV1 at e; split at e
    · exact same_claimer (ho 0 (by decide) _ rfl) h hw e
    · cases e
  · unfold createSubV2 at e; split at e
    · exact same_createSubV2 (ho 0 (by decide) _ rfl) h hw e
    · cases e
  · unfold toggleSubV2 at e; split at e
    · exact same_toggleSubV2 (ho 0 (by decide) _ rfl) h (ho 2 (by decide) _ rfl) e
    · cases e
  · unfold subSignV2 at e; split at e
    · exact same_subSignV2 hc (ho 0 (by decide) _ rfl) h hw (hq _ (.inr rfl)) e
    · cases e
  · unfold withdrawSubV2 at e; split at e
    · exact same_withdrawSubV2 hc (ho 0 (by decide) _ rfl) h hw e
    · cases e
  · unfold createV1 at e; split at e
    · exact same_create h hw e
    · cases e

end
end Verif
