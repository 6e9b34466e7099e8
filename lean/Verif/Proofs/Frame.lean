import Verif.Proofs.Sub
import Verif.Proofs.SignV2

/-! An instruction executed for one wallet leaves the other configuration accounts alone: their data and owner, not their lamports. -/

namespace Verif

/-- The account `v` belongs to the wallet program and its data satisfy `I`. -/
def Has (v : Key) (I : Bytes → Prop) (m : Mem) : Prop := (m v).owner = swigId ∧ I (m v).data

section
variable {v : Key} {I : Bytes → Prop} {env : Env} {cpi : Cpi} {m m' : Mem}

theorem Has.congr (h : Has v I m) (e : (m' v).data = (m v).data ∧ (m' v).owner = (m v).owner) : Has v I m' := by
  unfold Has; rw [e.1, e.2]; exact h

theorem Has.ne {k : Key} (h : Has v I m) (hk : (m k).owner = systemId) : v ≠ k := by
  rintro rfl; have := h.1; rw [hk] at this; revert this; decide

theorem Has.setData {k : Key} (h : Has v I m) (hk : v ≠ k) (d : Bytes) : Has v I (m.setData k d) := by
  unfold Has; rw [Mem.setData_other m d hk]; exact h

theorem Has.setLamports (h : Has v I m) (k : Key) (n : Nat) : Has v I (m.setLamports k n) := by
  refine h.congr ⟨?_, ?_⟩ <;> simp

theorem Has.realloc {k : Key} {n : Nat} (h : Has v I m) (hk : v ≠ k) (e : realloc m k n = .ok m') : Has v I m' := by
  obtain ⟨_, rfl⟩ := realloc_ok e; exact h.setData hk _

theorem Has.sysTransfer {src dst : Meta} {n : Nat} (h : Has v I m) (e : sysTransfer m src dst n = .ok m') : Has v I m' :=
  h.congr (sysTransfer_data e v)

theorem Has.topUp {payer swig : Meta} {n : Nat} (h : Has v I m) (e : topUp env m payer swig n = .ok m') : Has v I m' :=
  h.congr ⟨(topUp_data e v).1, (topUp_data e v).2⟩

theorem Has.fundWallet {payer wallet : Meta} (h : Has v I m) (e : fundWallet env m payer wallet = .ok m') : Has v I m' :=
  h.congr (fundWallet_data e v)

theorem Has.fundState {payer state : Meta} (h : Has v I m) (e : fundState env m payer state = .ok m') : Has v I m' :=
  h.congr (fundState_data e v)

theorem Has.fundEmpty {payer sub : Meta} (h : Has v I m) (e : fundEmpty env m payer sub = .ok m') : Has v I m' := by
  exact h.fundWallet e

theorem Has.signedTransfer {seeds : List Bytes} {src dst : Meta} {n : Nat} (h : Has v I m)
    (e : signedTransfer env m seeds src dst n = .ok m') : Has v I m' := by
  unfold Verif.signedTransfer at e
  split at e
  · cases e
  · exact h.sysTransfer e

theorem Has.sysCreate {src dst : Meta} {l s : Nat} {o : Key} (h : Has v I m) (e : sysCreate m src dst l s o = .ok m') : Has v I m' := by
  unfold Verif.sysCreate at e
  split at e
  · cases e
  · split at e
    · cases e
    · rename_i hn
      split at e
      · cases e
      · have hk : v ≠ dst.key := h.ne (Classical.byContradiction fun hh => hn (.inr (.inr hh)))
        refine Has.sysTransfer ?_ e
        unfold Has; rw [Mem.set_other m _ hk]; exact h

theorem Has.growFor {payer swig : Meta} {n : Nat} (h : Has v I m) (hk : v ≠ swig.key) (e : growFor env m payer swig n = .ok m') :
    Has v I m' := by
  unfold Verif.growFor at e
  split at e
  · obtain ⟨m1, h1, e⟩ := bind_ok_iff.mp e
    exact (h.realloc hk h1).topUp e
  · cases e; exact h

theorem Has.shrinkBy {payer swig : Key} {n : Nat} (h : Has v I m) (hk : v ≠ swig) (e : shrinkBy env m payer swig n = .ok m') :
    Has v I m' := by
  unfold Verif.shrinkBy at e
  split at e
  · obtain ⟨m1, h1, e⟩ := bind_ok_iff.mp e
    have h := h.realloc hk h1
    dsimp only at e
    split at e
    · cases e; exact (h.setLamports _ _).setLamports _ _
    · cases e; exact h
  · cases e; exact h

/-! ## Management -/

theorem frame_add {swig payer sys : Meta} {rest : List Meta} {ix : Bytes} (hk : v ≠ swig.key) (h : Has v I m)
    (e : addAuthorityV1 env m (swig :: payer :: sys :: rest) ix = .ok m') : Has v I m' := by
  simp only [addAuthorityV1] at e
  obtain ⟨_, _, e⟩ := bind_ok_iff.mp e
  obtain ⟨_, _, e⟩ := bind_ok_iff.mp e
  obtain ⟨_, _, e⟩ := bind_ok_iff.mp e
  obtain ⟨_, _, e⟩ := bind_ok_iff.mp e
  obtain ⟨_, _, e⟩ := bind_ok_iff.mp e
  obtain ⟨_, _, e⟩ := bind_ok_iff.mp e
  obtain ⟨⟨_, _⟩, _, e⟩ := bind_ok_iff.mp e
  obtain ⟨_, _, e⟩ := bind_ok_iff.mp e
  obtain ⟨_, _, e⟩ := bind_ok_iff.mp e
  obtain ⟨_, _, e⟩ := bind_ok_iff.mp e
  obtain ⟨m1, h1, e⟩ := bind_ok_iff.mp e
  obtain ⟨m2, h2, e⟩ := bind_ok_iff.mp e
  obtain ⟨_, _, e⟩ := bind_ok_iff.mp e
  cases e
  exact (((h.setData hk _).realloc hk h1).topUp h2).setData hk _

theorem frame_remove {swig payer sys : Meta} {rest : List Meta} {ix : Bytes} (hk : v ≠ swig.key) (h : Has v I m)
    (e : removeAuthorityV1 env m (swig :: payer :: sys :: rest) ix = .ok m') : Has v I m' := by
  simp only [removeAuthorityV1] at e
  obtain ⟨_, _, e⟩ := bind_ok_iff.mp e
  obtain ⟨_, _, e⟩ := bind_ok_iff.mp e
  obtain ⟨_, _, e⟩ := bind_ok_iff.mp e
  obtain ⟨_, _, e⟩ := bind_ok_iff.mp e
  obtain ⟨_, _, e⟩ := bind_ok_iff.mp e
  obtain ⟨_, _, e⟩ := bind_ok_iff.mp e
  obtain ⟨⟨_, _⟩, _, e⟩ := bind_ok_iff.mp e
  obtain ⟨_, _, e⟩ := bind_ok_iff.mp e
  obtain ⟨_, _, e⟩ := bind_ok_iff.mp e
  obtain ⟨_, _, e⟩ := bind_ok_iff.mp e
  obtain ⟨_, _, e⟩ := bind_ok_iff.mp e
  obtain ⟨⟨_, _, _⟩, _, e⟩ := bind_ok_iff.mp e
  obtain ⟨m1, h1, e⟩ := bind_ok_iff.mp e
  obtain ⟨_, _, e⟩ := bind_ok_iff.mp e
  cases e
  refine Has.setData (Has.realloc ?_ hk h1) hk _
  exact ((h.setData hk _).setLamports _ _).setLamports _ _

theorem frame_update {swig payer sys : Meta} {rest : List Meta} {ix : Bytes} (hk : v ≠ swig.key) (h : Has v I m)
    (e : updateAuthorityV1 env m (swig :: payer :: sys :: rest) ix = .ok m') : Has v I m' := by
  simp only [updateAuthorityV1] at e
  obtain ⟨_, _, e⟩ := bind_ok_iff.mp e
  obtain ⟨_, _, e⟩ := bind_ok_iff.mp e
  obtain ⟨_, _, e⟩ := bind_ok_iff.mp e
  obtain ⟨_, _, e⟩ := bind_ok_iff.mp e
  obtain ⟨_, _, e⟩ := bind_ok_iff.mp e
  obtain ⟨⟨_, _⟩, _, e⟩ := bind_ok_iff.mp e
  obtain ⟨_, _, e⟩ := bind_ok_iff.mp e
  obtain ⟨_, _, e⟩ := bind_ok_iff.mp e
  obtain ⟨⟨_, _, _⟩, _, e⟩ := bind_ok_iff.mp e
  obtain ⟨m1, h1, e⟩ := bind_ok_iff.mp e
  obtain ⟨⟨_, _⟩, _, e⟩ := bind_ok_iff.mp e
  obtain ⟨m2, h2, e⟩ := bind_ok_iff.mp e
  obtain ⟨_, _, e⟩ := bind_ok_iff.mp e
  cases e
  exact ((((h.setData hk _).growFor hk h1).setData hk _).shrinkBy hk h2).setData hk _

theorem frame_append {swig payer : Meta} {roleId : Nat} {acts : Bytes} (hk : v ≠ swig.key) (h : Has v I m)
    (e : appendActions env m swig payer roleId acts = .ok m') : Has v I m' := by
  simp only [appendActions] at e
  obtain ⟨_, _, e⟩ := bind_ok_iff.mp e
  obtain ⟨_, _, e⟩ := bind_ok_iff.mp e
  obtain ⟨⟨_, _, _⟩, _, e⟩ := bind_ok_iff.mp e
  obtain ⟨m1, h1, e⟩ := bind_ok_iff.mp e
  obtain ⟨⟨_, _⟩, _, e⟩ := bind_ok_iff.mp e
  cases e
  exact (h.growFor hk h1).setData hk _

theorem frame_claimer {swig payer sys : Meta} {rest : List Meta} {ix : Bytes} (hk : v ≠ swig.key) (h : Has v I m)
    (e : setRentClaimerV1 env m (swig :: payer :: sys :: rest) ix = .ok m') : Has v I m' := by
  simp only [setRentClaimerV1] at e
  obtain ⟨_, _, e⟩ := bind_ok_iff.mp e
  obtain ⟨_, _, e⟩ := bind_ok_iff.mp e
  obtain ⟨_, _, e⟩ := bind_ok_iff.mp e
  obtain ⟨_, _, e⟩ := bind_ok_iff.mp e
  obtain ⟨_, _, e⟩ := bind_ok_iff.mp e
  obtain ⟨_, _, e⟩ := bind_ok_iff.mp e
  obtain ⟨_, _, e⟩ := bind_ok_iff.mp e
  obtain ⟨_, _, e⟩ := bind_ok_iff.mp e
  obtain ⟨⟨_, _⟩, _, e⟩ := bind_ok_iff.mp e
  obtain ⟨_, _, e⟩ := bind_ok_iff.mp e
  obtain ⟨_, _, e⟩ := bind_ok_iff.mp e
  obtain ⟨_, _, e⟩ := bind_ok_iff.mp e
  obtain ⟨_, _, e⟩ := bind_ok_iff.mp e
  obtain ⟨_, _, e⟩ := bind_ok_iff.mp e
  obtain ⟨m1, h1, e⟩ := bind_ok_iff.mp e
  obtain ⟨m2, h2, e⟩ := bind_ok_iff.mp e
  obtain ⟨_, _, e⟩ := bind_ok_iff.mp e
  cases e
  exact (((h.setData hk _).realloc hk h1).topUp h2).setData hk _

theorem frame_session {swig payer sys : Meta} {rest : List Meta} {ix : Bytes} (hk : v ≠ swig.key) (h : Has v I m)
    (e : createSessionV1 env m (swig :: payer :: sys :: rest) ix = .ok m') : Has v I m' := by
  simp only [createSessionV1] at e
  obtain ⟨_, _, e⟩ := bind_ok_iff.mp e
  obtain ⟨_, _, e⟩ := bind_ok_iff.mp e
  obtain ⟨_, _, e⟩ := bind_ok_iff.mp e
  obtain ⟨_, _, e⟩ := bind_ok_iff.mp e
  obtain ⟨_, _, e⟩ := bind_ok_iff.mp e
  obtain ⟨_, _, e⟩ := bind_ok_iff.mp e
  cases e
  exact h.setData hk _

theorem frame_replace {swig : Meta} {rest : List Meta} {ix : Bytes} (hk : v ≠ swig.key) (h : Has v I m)
    (e : replaceAuthorityV1 env m (swig :: rest) ix = .ok m') : Has v I m' := by
  simp only [replaceAuthorityV1] at e
  obtain ⟨_, _, e⟩ := bind_ok_iff.mp e
  obtain ⟨_, _, e⟩ := bind_ok_iff.mp e
  obtain ⟨_, _, e⟩ := bind_ok_iff.mp e
  obtain ⟨⟨_, _⟩, _, e⟩ := bind_ok_iff.mp e
  obtain ⟨_, _, e⟩ := bind_ok_iff.mp e
  obtain ⟨_, _, e⟩ := bind_ok_iff.mp e
  obtain ⟨_, _, e⟩ := bind_ok_iff.mp e
  obtain ⟨_, _, e⟩ := bind_ok_iff.mp e
  cases e
  exact h.setData hk _

theorem frame_create {swig payer wallet sys : Meta} {rest : List Meta} {ix : Bytes} (h : Has v I m)
    (e : createV1 env m (swig :: payer :: wallet :: sys :: rest) ix = .ok m') : Has v I m' := by
  simp only [createV1] at e
  obtain ⟨⟨c, al⟩, h0, e⟩ := bind_ok_iff.mp e
  have hk : v ≠ swig.key := by
    unfold createChecks at h0
    obtain ⟨_, h0, _⟩ := bind_ok_iff.mp h0
    exact h.ne (require_ok_iff.mp h0)
  obtain ⟨m1, h1, e⟩ := bind_ok_iff.mp e
  obtain ⟨m2, h2, e⟩ := bind_ok_iff.mp e
  obtain ⟨_, _, e⟩ := bind_ok_iff.mp e
  cases e
  exact ((h.sysCreate h1).fundWallet h2).setData hk _

/-! ## Calls -/

variable (hc : ∀ a ix b, Has v I a → cpi a ix = .ok b → Has v I b)
include hc

theorem Has.invokeSigned {outer : List Meta} {ix : CpiIx} {seeds : List Bytes} (h : Has v I m)
    (e : invokeSigned env cpi m outer ix seeds = .ok m') : Has v I m' := hc _ _ _ h (invokeSigned_cpi e)

theorem Has.execInner {metas : List Meta} {signer : Key} {seeds : List Bytes} {ix : Inner} (h : Has v I m)
    (e : execInner env cpi m metas signer seeds ix = .ok m') : Has v I m' := by
  rcases execInner_cpi e with e | ⟨d, n, rfl⟩
  · exact hc _ _ _ h e
  · exact h.congr ⟨directTransfer_data _ _ _ _ _, directTransfer_owner _ _ _ _ _⟩

theorem Has.execAll {metas : List Meta} {signer : Key} {seeds : List Bytes} : ∀ {ixs : List Inner} {m m' : Mem}, Has v I m →
    execAll env cpi metas signer seeds m ixs = .ok m' → Has v I m' := by
  intro ixs
  induction ixs with
  | nil => intro m m' h e; cases e; exact h
  | cons ix ixs ih =>
    intro m m' h e
    simp only [Verif.execAll] at e
    obtain ⟨m1, h1, e⟩ := bind_ok_iff.mp e
    exact ih (h.execInner hc h1) e

theorem Has.closeTokensGo {outer : List Meta} {program : Key} {v2 : Bool} {swig wallet dst : Key} {s1 s2 : List Bytes} :
    ∀ {l : List Meta} {m m' : Mem}, Has v I m →
    closeTokensGo env cpi outer program v2 swig wallet dst s1 s2 m l = .ok m' → Has v I m' := by
  intro l
  induction l with
  | nil => intro m m' h e; cases e; exact h
  | cons t l ih =>
    intro m m' h e
    simp only [Verif.closeTokensGo] at e
    obtain ⟨_, _, e⟩ := bind_ok_iff.mp e
    obtain ⟨m1, h1, e⟩ := bind_ok_iff.mp e
    exact ih (h.invokeSigned hc h1) e

theorem Has.transferTokensGo {outer : List Meta} {swig wallet : Key} {seeds : List Bytes} : ∀ (n : Nat) {l : List Meta} {m m' : Mem},
    l.length ≤ n → Has v I m → transferTokensGo env cpi outer swig wallet seeds m l = .ok m' → Has v I m' := by
  intro n
  induction n with
  | zero =>
    intro l m m' hl h e
    cases l with
    | nil => unfold Verif.transferTokensGo at e; cases e; exact h
    | cons _ _ => simp at hl
  | succ n ih =>
    intro l m m' hl h e
    match l, hl, e with
    | [], _, e => unfold Verif.transferTokensGo at e; cases e; exact h
    | [_], _, e => unfold Verif.transferTokensGo at e; cases e; exact h
    | [_, _], _, e => unfold Verif.transferTokensGo at e; cases e; exact h
    | a :: b :: c :: l, hl, e =>
      unfold Verif.transferTokensGo at e
      obtain ⟨m1, h1, e⟩ := bind_ok_iff.mp e
      refine ih (by simp at hl; omega) ?_ e
      unfold transferOne at h1
      split at h1
      · exact h.invokeSigned hc h1
      · cases h1; exact h

theorem frame_closeToken {swig wallet dst token : Meta} {rest : List Meta} {ix : Bytes} (hk : v ≠ swig.key) (h : Has v I m)
    (e : closeTokenV1 env cpi m (swig :: wallet :: dst :: token :: rest) ix = .ok m') : Has v I m' := by
  simp only [closeTokenV1] at e
  obtain ⟨_, _, e⟩ := bind_ok_iff.mp e
  obtain ⟨_, _, e⟩ := bind_ok_iff.mp e
  obtain ⟨_, _, e⟩ := bind_ok_iff.mp e
  obtain ⟨_, _, e⟩ := bind_ok_iff.mp e
  obtain ⟨⟨_, _⟩, _, e⟩ := bind_ok_iff.mp e
  obtain ⟨_, _, e⟩ := bind_ok_iff.mp e
  obtain ⟨_, _, e⟩ := bind_ok_iff.mp e
  obtain ⟨⟨_, _⟩, _, e⟩ := bind_ok_iff.mp e
  obtain ⟨_, _, e⟩ := bind_ok_iff.mp e
  obtain ⟨_, _, e⟩ := bind_ok_iff.mp e
  obtain ⟨_, _, e⟩ := bind_ok_iff.mp e
  obtain ⟨_, _, e⟩ := bind_ok_iff.mp e
  obtain ⟨_, _, e⟩ := bind_ok_iff.mp e
  obtain ⟨_, _, e⟩ := bind_ok_iff.mp e
  exact Has.closeTokensGo hc (h.setData hk _) e

theorem frame_transferAssets {swig wallet payer sys : Meta} {rest : List Meta} {ix : Bytes} (hk : v ≠ swig.key) (h : Has v I m)
    (e : transferAssetsV1 env cpi m (swig :: wallet :: payer :: sys :: rest) ix = .ok m') : Has v I m' := by
  simp only [transferAssetsV1] at e
  obtain ⟨_, _, e⟩ := bind_ok_iff.mp e
  obtain ⟨_, _, e⟩ := bind_ok_iff.mp e
  obtain ⟨_, _, e⟩ := bind_ok_iff.mp e
  obtain ⟨_, _, e⟩ := bind_ok_iff.mp e
  obtain ⟨_, _, e⟩ := bind_ok_iff.mp e
  obtain ⟨⟨_, _⟩, _, e⟩ := bind_ok_iff.mp e
  obtain ⟨_, _, e⟩ := bind_ok_iff.mp e
  obtain ⟨_, _, e⟩ := bind_ok_iff.mp e
  refine Has.transferTokensGo hc _ (Nat.le_refl _) ?_ e
  unfold transferSol
  dsimp only
  split
  · exact ((h.setData hk _).setLamports _ _).setLamports _ _
  · exact h.setData hk _

omit hc in
theorem frame_closeSwig {swig wallet dst sys : Meta} {rest : List Meta} {ix : Bytes} (hk : v ≠ swig.key) (h : Has v I m)
    (e : closeSwigV1 env m (swig :: wallet :: dst :: sys :: rest) ix = .ok m') : Has v I m' := by
  simp only [closeSwigV1] at e
  obtain ⟨_, _, e⟩ := bind_ok_iff.mp e
  obtain ⟨_, _, e⟩ := bind_ok_iff.mp e
  obtain ⟨_, _, e⟩ := bind_ok_iff.mp e
  obtain ⟨_, _, e⟩ := bind_ok_iff.mp e
  obtain ⟨_, _, e⟩ := bind_ok_iff.mp e
  obtain ⟨⟨_, _⟩, _, e⟩ := bind_ok_iff.mp e
  obtain ⟨_, _, e⟩ := bind_ok_iff.mp e
  obtain ⟨⟨_, _⟩, _, e⟩ := bind_ok_iff.mp e
  obtain ⟨_, _, e⟩ := bind_ok_iff.mp e
  obtain ⟨_, _, e⟩ := bind_ok_iff.mp e
  obtain ⟨_, _, e⟩ := bind_ok_iff.mp e
  obtain ⟨_, _, e⟩ := bind_ok_iff.mp e
  obtain ⟨_, _, e⟩ := bind_ok_iff.mp e
  obtain ⟨m1, h1, e⟩ := bind_ok_iff.mp e
  obtain ⟨m2, h2, e⟩ := bind_ok_iff.mp e
  cases e
  refine Has.setData (Has.realloc ?_ hk h2) hk _
  refine Has.setLamports (Has.setLamports ?_ _ _) _ _
  unfold drainWallet at h1
  split at h1
  · exact (h.setData hk _).signedTransfer h1
  · cases h1; exact h.setData hk _

omit hc in
theorem frame_migrate {swig auth payer wallet sys : Meta} {rest : List Meta} {ix : Bytes} (hk : v ≠ swig.key) (h : Has v I m)
    (e : migrateV1 env m (swig :: auth :: payer :: wallet :: sys :: rest) ix = .ok m') : Has v I m' := by
  simp only [migrateV1] at e
  obtain ⟨_, _, e⟩ := bind_ok_iff.mp e
  obtain ⟨_, _, e⟩ := bind_ok_iff.mp e
  obtain ⟨_, _, e⟩ := bind_ok_iff.mp e
  obtain ⟨_, _, e⟩ := bind_ok_iff.mp e
  obtain ⟨_, _, e⟩ := bind_ok_iff.mp e
  obtain ⟨⟨_, _⟩, _, e⟩ := bind_ok_iff.mp e
  obtain ⟨_, _, e⟩ := bind_ok_iff.mp e
  obtain ⟨_, _, e⟩ := bind_ok_iff.mp e
  obtain ⟨_, _, e⟩ := bind_ok_iff.mp e
  obtain ⟨_, _, e⟩ := bind_ok_iff.mp e
  obtain ⟨_, _, e⟩ := bind_ok_iff.mp e
  obtain ⟨_, _, e⟩ := bind_ok_iff.mp e
  exact (h.setData hk _).fundWallet e

/-! ## Sub-accounts -/

omit hc in
theorem frame_createSubV1 {swig payer sub sys : Meta} {rest : List Meta} {ix : Bytes} (hk : v ≠ swig.key) (h : Has v I m)
    (e : createSubV1 env m (swig :: payer :: sub :: sys :: rest) ix = .ok m') : Has v I m' := by
  simp only [createSubV1] at e
  obtain ⟨_, _, e⟩ := bind_ok_iff.mp e
  obtain ⟨_, _, e⟩ := bind_ok_iff.mp e
  obtain ⟨_, _, e⟩ := bind_ok_iff.mp e
  obtain ⟨_, _, e⟩ := bind_ok_iff.mp e
  obtain ⟨⟨_, _⟩, _, e⟩ := bind_ok_iff.mp e
  obtain ⟨_, _, e⟩ := bind_ok_iff.mp e
  obtain ⟨_, _, e⟩ := bind_ok_iff.mp e
  obtain ⟨_, _, e⟩ := bind_ok_iff.mp e
  obtain ⟨m1, h1, e⟩ := bind_ok_iff.mp e
  cases e
  exact ((h.setData hk _).fundWallet h1).setData hk _

omit hc in
theorem Has.checkRent {k : Key} {a : Mem} (h : Has v I m) (e : checkRent env m k = .ok a) : Has v I a := by
  unfold Verif.checkRent at e
  split at e
  · cases e
  · cases e; exact h

theorem frame_subSignV1 {swig sub sys : Meta} {rest : List Meta} {ix : Bytes} (hk : v ≠ swig.key) (h : Has v I m)
    (e : subSignV1 env cpi m (swig :: sub :: sys :: rest) ix = .ok m') : Has v I m' := by
  simp only [subSignV1] at e
  obtain ⟨_, _, e⟩ := bind_ok_iff.mp e
  obtain ⟨_, _, e⟩ := bind_ok_iff.mp e
  obtain ⟨_, _, e⟩ := bind_ok_iff.mp e
  obtain ⟨_, _, e⟩ := bind_ok_iff.mp e
  obtain ⟨_, _, e⟩ := bind_ok_iff.mp e
  obtain ⟨⟨_, _⟩, _, e⟩ := bind_ok_iff.mp e
  obtain ⟨_, _, e⟩ := bind_ok_iff.mp e
  obtain ⟨_, _, e⟩ := bind_ok_iff.mp e
  obtain ⟨_, _, e⟩ := bind_ok_iff.mp e
  obtain ⟨_, _, e⟩ := bind_ok_iff.mp e
  obtain ⟨m1, h1, e⟩ := bind_ok_iff.mp e
  exact Has.checkRent (Has.execAll hc (h.setData hk _) h1) e

omit hc in
theorem frame_toggleSubV1 {swig payer sub : Meta} {rest : List Meta} {ix : Bytes} (hk : v ≠ swig.key) (h : Has v I m)
    (e : toggleSubV1 env m (swig :: payer :: sub :: rest) ix = .ok m') : Has v I m' := by
  simp only [toggleSubV1] at e
  obtain ⟨_, _, e⟩ := bind_ok_iff.mp e
  obtain ⟨_, _, e⟩ := bind_ok_iff.mp e
  obtain ⟨_, _, e⟩ := bind_ok_iff.mp e
  obtain ⟨_, _, e⟩ := bind_ok_iff.mp e
  obtain ⟨_, _, e⟩ := bind_ok_iff.mp e
  obtain ⟨⟨_, _⟩, _, e⟩ := bind_ok_iff.mp e
  obtain ⟨_, _, e⟩ := bind_ok_iff.mp e
  obtain ⟨_, _, e⟩ := bind_ok_iff.mp e
  obtain ⟨_, _, e⟩ := bind_ok_iff.mp e
  cases e
  exact h.setData hk _

theorem Has.withdrawTokenV1 {metas : List Meta} {sub wallet : Key} {n : Nat} {seeds : List Bytes} (h : Has v I m)
    (e : withdrawTokenV1 env cpi m metas sub wallet n seeds = .ok m') : Has v I m' := by
  unfold Verif.withdrawTokenV1 at e
  obtain ⟨_, _, e⟩ := bind_ok_iff.mp e
  obtain ⟨_, _, e⟩ := bind_ok_iff.mp e
  obtain ⟨_, _, e⟩ := bind_ok_iff.mp e
  obtain ⟨_, _, e⟩ := bind_ok_iff.mp e
  obtain ⟨_, _, e⟩ := bind_ok_iff.mp e
  obtain ⟨_, _, e⟩ := bind_ok_iff.mp e
  obtain ⟨_, _, e⟩ := bind_ok_iff.mp e
  exact h.invokeSigned hc e

omit hc in
theorem Has.withdrawSol {sub wallet : Meta} {n : Nat} {seeds : List Bytes} (h : Has v I m)
    (e : withdrawSol env m sub wallet n seeds = .ok m') : Has v I m' := by
  unfold Verif.withdrawSol at e
  split at e
  · cases e
  · exact h.signedTransfer e

theorem frame_withdrawSubV1 {swig auth sub x3 wallet x5 : Meta} {rest : List Meta} {ix : Bytes} (hk : v ≠ swig.key) (h : Has v I m)
    (e : withdrawSubV1 env cpi m (swig :: auth :: sub :: x3 :: wallet :: x5 :: rest) ix = .ok m') : Has v I m' := by
  simp only [withdrawSubV1] at e
  obtain ⟨_, _, e⟩ := bind_ok_iff.mp e
  obtain ⟨_, _, e⟩ := bind_ok_iff.mp e
  obtain ⟨_, _, e⟩ := bind_ok_iff.mp e
  obtain ⟨_, _, e⟩ := bind_ok_iff.mp e
  obtain ⟨_, _, e⟩ := bind_ok_iff.mp e
  obtain ⟨⟨_, _⟩, _, e⟩ := bind_ok_iff.mp e
  obtain ⟨_, _, e⟩ := bind_ok_iff.mp e
  obtain ⟨⟨_, _⟩, _, e⟩ := bind_ok_iff.mp e
  obtain ⟨_, _, e⟩ := bind_ok_iff.mp e
  obtain ⟨⟨_, _⟩, _, e⟩ := bind_ok_iff.mp e
  split at e
  · exact Has.withdrawTokenV1 hc (h.setData hk _) e
  · exact (h.setData hk _).withdrawSol e

omit hc in
theorem frame_createSubV2 {swig payer state sub sys : Meta} {rest : List Meta} {ix : Bytes} (hk : v ≠ swig.key) (h : Has v I m)
    (e : createSubV2 env m (swig :: payer :: state :: sub :: sys :: rest) ix = .ok m') : Has v I m' := by
  simp only [createSubV2] at e
  obtain ⟨_, _, e⟩ := bind_ok_iff.mp e
  obtain ⟨_, h0, e⟩ := bind_ok_iff.mp e
  have hs : v ≠ state.key := h.ne (require_ok_iff.mp h0)
  obtain ⟨_, _, e⟩ := bind_ok_iff.mp e
  obtain ⟨_, _, e⟩ := bind_ok_iff.mp e
  obtain ⟨_, _, e⟩ := bind_ok_iff.mp e
  obtain ⟨_, _, e⟩ := bind_ok_iff.mp e
  obtain ⟨⟨_, _, _⟩, _, e⟩ := bind_ok_iff.mp e
  obtain ⟨_, _, e⟩ := bind_ok_iff.mp e
  obtain ⟨_, _, e⟩ := bind_ok_iff.mp e
  obtain ⟨m1, h1, e⟩ := bind_ok_iff.mp e
  obtain ⟨m2, h2, e⟩ := bind_ok_iff.mp e
  obtain ⟨m3, h3, e⟩ := bind_ok_iff.mp e
  have g1 := (h.setData hk _).fundState h1
  have g2 : Has v I m2 := by
    unfold Has; rw [sysAllocAssign_ok h2]; rw [Mem.set_other _ _ hs]; exact g1
  have g3 := (g2.setData hs _).fundEmpty h3
  unfold grantAll at e
  split at e
  · cases e; exact g3
  · exact frame_append hk g3 e

theorem frame_subSignV2 {swig state sub sys : Meta} {rest : List Meta} {ix : Bytes} (hk : v ≠ swig.key) (h : Has v I m)
    (e : subSignV2 env cpi m (swig :: state :: sub :: sys :: rest) ix = .ok m') : Has v I m' := by
  simp only [subSignV2] at e
  obtain ⟨_, _, e⟩ := bind_ok_iff.mp e
  obtain ⟨_, _, e⟩ := bind_ok_iff.mp e
  obtain ⟨_, _, e⟩ := bind_ok_iff.mp e
  obtain ⟨_, _, e⟩ := bind_ok_iff.mp e
  obtain ⟨⟨_, _⟩, _, e⟩ := bind_ok_iff.mp e
  obtain ⟨_, _, e⟩ := bind_ok_iff.mp e
  obtain ⟨_, _, e⟩ := bind_ok_iff.mp e
  obtain ⟨m1, h1, e⟩ := bind_ok_iff.mp e
  exact Has.checkRent (Has.execAll hc (h.setData hk _) h1) e

theorem frame_withdrawSubV2 {swig auth state sub wallet x6 x7 : Meta} {rest : List Meta} {ix : Bytes} (hk : v ≠ swig.key) (h : Has v I m)
    (e : withdrawSubV2 env cpi m (swig :: auth :: state :: sub :: wallet :: x6 :: x7 :: rest) ix = .ok m') : Has v I m' := by
  simp only [withdrawSubV2] at e
  obtain ⟨_, _, e⟩ := bind_ok_iff.mp e
  obtain ⟨_, _, e⟩ := bind_ok_iff.mp e
  obtain ⟨_, _, e⟩ := bind_ok_iff.mp e
  obtain ⟨_, _, e⟩ := bind_ok_iff.mp e
  obtain ⟨⟨_, _⟩, _, e⟩ := bind_ok_iff.mp e
  obtain ⟨_, _, e⟩ := bind_ok_iff.mp e
  obtain ⟨_, _, e⟩ := bind_ok_iff.mp e
  unfold withdrawV2 at e
  split at e
  · obtain ⟨_, _, e⟩ := bind_ok_iff.mp e
    obtain ⟨_, _, e⟩ := bind_ok_iff.mp e
    obtain ⟨_, _, e⟩ := bind_ok_iff.mp e
    obtain ⟨_, _, e⟩ := bind_ok_iff.mp e
    exact Has.invokeSigned hc (h.setData hk _) e
  · split at e
    · exact (h.setData hk _).withdrawSol e
    · cases e

omit hc in
theorem frame_toggleSubV2 (hI : ∀ d, I d → d.getD 0 0 ≠ 2) {swig auth state : Meta} {rest : List Meta} {ix : Bytes} (hk : v ≠ swig.key)
    (h : Has v I m) (e : toggleSubV2 env m (swig :: auth :: state :: rest) ix = .ok m') : Has v I m' := by
  simp only [toggleSubV2] at e
  obtain ⟨_, _, e⟩ := bind_ok_iff.mp e
  obtain ⟨_, _, e⟩ := bind_ok_iff.mp e
  obtain ⟨_, _, e⟩ := bind_ok_iff.mp e
  obtain ⟨_, _, e⟩ := bind_ok_iff.mp e
  obtain ⟨⟨_, _⟩, _, e⟩ := bind_ok_iff.mp e
  obtain ⟨_, h1, e⟩ := bind_ok_iff.mp e
  cases e
  have g := h.setData hk ?d
  refine g.setData ?_ _
  rintro rfl
  unfold toggleState at h1
  obtain ⟨s, h1, _⟩ := bind_ok_iff.mp h1
  obtain ⟨_, h2, _⟩ := loadSubState_ok h1
  exact hI _ g.2 h2

/-! ## SignV2 -/

omit hc in
theorem Has.write {l : ActLoc} {ty o : Nat} {acts : Bytes} {f : Bytes → R Bytes} (hk : v ≠ l.swig) (h : Has v I m)
    (e : l.write m ty acts f o = .ok m') : Has v I m' := by
  unfold ActLoc.write at e
  obtain ⟨_, _, e⟩ := bind_ok_iff.mp e
  cases e; exact h.setData hk _

omit hc in
theorem Has.charge {l : ActLoc} {ty : Nat} {key : Bytes} {f : Bytes → R Bytes} (hk : v ≠ l.swig) (h : Has v I m)
    (e : l.charge m ty key f = .ok (some m')) : Has v I m' := by
  unfold ActLoc.charge at e
  obtain ⟨_, _, e⟩ := bind_ok_iff.mp e
  obtain ⟨o, _, e⟩ := bind_ok_iff.mp e
  cases o with
  | none => cases e
  | some o =>
    obtain ⟨m1, h1, e⟩ := bind_ok_iff.mp e
    cases e; exact h.write hk h1

variable {x : SignCtx}

omit hc in
theorem Has.chargeEither {ty1 ty2 : Nat} {key : Bytes} {f1 f2 : Bytes → R Bytes} {b : Bool} (hk : v ≠ x.loc.swig) (h : Has v I m)
    (e : chargeEither x m ty1 ty2 key f1 f2 = .ok (m', b)) : Has v I m' := by
  unfold Verif.chargeEither at e
  obtain ⟨r, h1, e⟩ := bind_ok_iff.mp e
  cases r with
  | some m1 => cases e; exact h.charge hk h1
  | none =>
    obtain ⟨r, h2, e⟩ := bind_ok_iff.mp e
    cases r with
    | some m1 => cases e; exact h.charge hk h2
    | none => cases e; exact h

omit hc in
theorem Has.chargeDests {one : Mem → Key → Nat → R (Mem × Bool)} (h1 : ∀ m d n m' b, Has v I m → one m d n = .ok (m', b) → Has v I m') :
    ∀ {ts : List (Key × Nat)} {m m' : Mem} {sum sum' : Nat}, Has v I m → chargeDests one m sum ts = .ok (m', sum') → Has v I m' := by
  intro ts
  induction ts with
  | nil => intro m m' sum sum' h e; cases e; exact h
  | cons t ts ih =>
    intro m m' sum sum' h e
    obtain ⟨d, n⟩ := t
    simp only [Verif.chargeDests] at e
    obtain ⟨_, _, e⟩ := bind_ok_iff.mp e
    obtain ⟨⟨m1, ok⟩, h2, e⟩ := bind_ok_iff.mp e
    obtain ⟨_, _, e⟩ := bind_ok_iff.mp e
    exact ih (h1 _ _ _ _ _ h h2) e

omit hc in
theorem Has.settleDests {has : Bool} {one : Mem → Key → Nat → R (Mem × Bool)} {spent : Nat} {ts : List (Key × Nat)} {b : Bool}
    (h1 : ∀ m d n m' b, Has v I m → one m d n = .ok (m', b) → Has v I m') (h : Has v I m)
    (e : settleDests has one m spent ts = .ok (m', b)) : Has v I m' := by
  unfold Verif.settleDests at e
  split at e
  · obtain ⟨⟨m1, s⟩, h2, e⟩ := bind_ok_iff.mp e
    obtain ⟨_, _, e⟩ := bind_ok_iff.mp e
    cases e
    exact Has.chargeDests h1 h h2
  · cases e; exact h

omit hc in
theorem Has.settleSol {spent : Nat} (hk : v ≠ x.loc.swig) (h : Has v I m) (e : settleSol x m spent = .ok m') : Has v I m' := by
  unfold Verif.settleSol at e
  obtain ⟨⟨m1, _⟩, h1, e⟩ := bind_ok_iff.mp e
  obtain ⟨_, _, e⟩ := bind_ok_iff.mp e
  obtain ⟨_, _, e⟩ := bind_ok_iff.mp e
  obtain ⟨⟨m2, _⟩, h2, e⟩ := bind_ok_iff.mp e
  obtain ⟨_, _, e⟩ := bind_ok_iff.mp e
  cases e
  exact Has.settleDests (fun _ _ _ _ _ g k => g.chargeEither hk k) (h.chargeEither hk h1) h2

omit hc in
theorem Has.settleTokenSpent {src mint : Bytes} {spent : Nat} (hk : v ≠ x.loc.swig) (h : Has v I m)
    (e : settleTokenSpent x m src mint spent = .ok m') : Has v I m' := by
  unfold Verif.settleTokenSpent at e
  obtain ⟨⟨m1, _⟩, h1, e⟩ := bind_ok_iff.mp e
  obtain ⟨_, _, e⟩ := bind_ok_iff.mp e
  obtain ⟨_, _, e⟩ := bind_ok_iff.mp e
  obtain ⟨⟨m2, _⟩, h2, e⟩ := bind_ok_iff.mp e
  obtain ⟨_, _, e⟩ := bind_ok_iff.mp e
  cases e
  exact Has.settleDests (fun _ _ _ _ _ g k => g.chargeEither hk k) (h.chargeEither hk h1) h2

omit hc in
theorem Has.settleOne {a : Meta} {c : Class} {hh : Option Bytes} {total : Nat} (hk : v ≠ x.loc.swig) (h : Has v I m)
    (e : settleOne x m a c hh total = .ok m') : Has v I m' := by
  unfold Verif.settleOne at e
  split at e
  · unfold settleSwig at e
    obtain ⟨_, _, e⟩ := bind_ok_iff.mp e
    obtain ⟨_, _, e⟩ := bind_ok_iff.mp e
    split at e
    · cases e; exact h
    · exact h.settleSol hk e
  · unfold settleToken at e
    split at e
    · unfold settleClosed at e
      obtain ⟨_, _, e⟩ := bind_ok_iff.mp e
      obtain ⟨_, _, e⟩ := bind_ok_iff.mp e
      obtain ⟨_, _, e⟩ := bind_ok_iff.mp e
      cases e; exact h
    · obtain ⟨_, _, e⟩ := bind_ok_iff.mp e
      obtain ⟨_, _, e⟩ := bind_ok_iff.mp e
      obtain ⟨_, _, e⟩ := bind_ok_iff.mp e
      obtain ⟨_, _, e⟩ := bind_ok_iff.mp e
      split at e
      · cases e; exact h
      · exact h.settleTokenSpent hk e
  · unfold settleStake at e
    obtain ⟨_, _, e⟩ := bind_ok_iff.mp e
    split at e
    · cases e; exact h
    · unfold settleStakeSpent at e
      obtain ⟨_, _, e⟩ := bind_ok_iff.mp e
      split at e
      · cases e; exact h
      · obtain ⟨⟨m1, _⟩, h1, e⟩ := bind_ok_iff.mp e
        obtain ⟨_, _, e⟩ := bind_ok_iff.mp e
        cases e
        exact h.chargeEither hk h1
  · unfold settleScope at e
    obtain ⟨_, _, e⟩ := bind_ok_iff.mp e
    obtain ⟨_, _, e⟩ := bind_ok_iff.mp e
    obtain ⟨_, _, e⟩ := bind_ok_iff.mp e
    obtain ⟨_, _, e⟩ := bind_ok_iff.mp e
    split at e
    · cases e; exact h
    · unfold settleScopeSpent at e
      obtain ⟨r, h1, e⟩ := bind_ok_iff.mp e
      have := orErr_ok e
      subst this
      exact h.charge hk h1
  · cases e; exact h

omit hc in
theorem Has.settleAll {total : Nat} (hk : v ≠ x.loc.swig) : ∀ {l : List (Meta × Class)} {hs : List (Option Bytes)} {m m' : Mem}, Has v I m →
    settleAll x total m l hs = .ok m' → Has v I m' := by
  intro l
  induction l with
  | nil => intro hs m m' h e; unfold Verif.settleAll at e; cases e; exact h
  | cons t l ih =>
    intro hs m m' h e
    obtain ⟨a, c⟩ := t
    cases hs with
    | nil => unfold Verif.settleAll at e; cases e; exact h
    | cons hh hs =>
      unfold Verif.settleAll at e
      obtain ⟨m1, h1, e⟩ := bind_ok_iff.mp e
      exact ih (h.settleOne hk h1) e

theorem Has.runIxs : ∀ {ixs : List Inner} {m m' : Mem} {l l' : List (Meta × Class)} {t t' : Nat}, Has v I m →
    runIxs x cpi m l t ixs = .ok (m', l', t') → Has v I m' := by
  intro ixs
  induction ixs with
  | nil => intro m m' l l' t t' h e; cases e; exact h
  | cons ix ixs ih =>
    intro m m' l l' t t' h e
    simp only [Verif.runIxs] at e
    obtain ⟨_, _, e⟩ := bind_ok_iff.mp e
    obtain ⟨_, _, e⟩ := bind_ok_iff.mp e
    obtain ⟨m1, h1, e⟩ := bind_ok_iff.mp e
    obtain ⟨_, _, e⟩ := bind_ok_iff.mp e
    exact ih (h.execInner hc h1) e

theorem frame_sign {swig wallet x3 : Meta} {rest : List Meta} {cls : List Class} {ix : Bytes} (hk : v ≠ swig.key) (h : Has v I m)
    (e : signV2 env cpi m (swig :: wallet :: x3 :: rest) cls ix = .ok m') : Has v I m' := by
  simp only [signV2] at e
  obtain ⟨_, _, e⟩ := bind_ok_iff.mp e
  obtain ⟨_, _, e⟩ := bind_ok_iff.mp e
  obtain ⟨_, _, e⟩ := bind_ok_iff.mp e
  obtain ⟨_, _, e⟩ := bind_ok_iff.mp e
  obtain ⟨_, _, e⟩ := bind_ok_iff.mp e
  obtain ⟨⟨_, _⟩, _, e⟩ := bind_ok_iff.mp e
  obtain ⟨_, _, e⟩ := bind_ok_iff.mp e
  unfold signWith at e
  obtain ⟨_, _, e⟩ := bind_ok_iff.mp e
  split at e
  · exact Has.execAll hc (h.setData hk _) e
  · obtain ⟨_, _, e⟩ := bind_ok_iff.mp e
    obtain ⟨_, _, e⟩ := bind_ok_iff.mp e
    unfold signLimited at e
    obtain ⟨_, _, e⟩ := bind_ok_iff.mp e
    obtain ⟨⟨m1, acc, total⟩, h1, e⟩ := bind_ok_iff.mp e
    exact Has.settleAll (by exact hk) (Has.runIxs hc (h.setData hk _) h1) e

/-! ## Every instruction -/

/-- The first account handed to the program: the configuration account the instruction acts for. -/
def FirstIs (metas : List Meta) (k : Key) : Prop := ∃ a rest, metas = a :: rest ∧ a.key = k

theorem process_frame (hI : ∀ d, I d → d.getD 0 0 ≠ 2) {metas : List Meta} {ix : Bytes} (hk : ¬ FirstIs metas v) (h : Has v I m)
    (e : process env cpi m metas ix = .ok m') : Has v I m' := by
  have hne : ∀ {a : Meta} {rest : List Meta}, metas = a :: rest → v ≠ a.key := fun h1 h2 => hk ⟨_, _, h1, h2.symm⟩
  unfold process at e
  obtain ⟨_, _, e⟩ := bind_ok_iff.mp e
  obtain ⟨cls, _, e⟩ := bind_ok_iff.mp e
  unfold dispatch at e
  split at e
  · cases e
  split at e
  · unfold addAuthorityV1 at e; split at e
    · exact frame_add (hne rfl) h e
    · cases e
  · unfold removeAuthorityV1 at e; split at e
    · exact frame_remove (hne rfl) h e
    · cases e
  · unfold updateAuthorityV1 at e; split at e
    · exact frame_update (hne rfl) h e
    · cases e
  · cases e
  · unfold createSessionV1 at e; split at e
    · exact frame_session (hne rfl) h e
    · cases e
  · unfold createSubV1 at e; split at e
    · exact frame_createSubV1 (hne rfl) h e
    · cases e
  · unfold withdrawSubV1 at e; split at e
    · exact frame_withdrawSubV1 hc (hne rfl) h e
    · cases e
  · unfold subSignV1 at e; split at e
    · exact frame_subSignV1 hc (hne rfl) h e
    · cases e
  · unfold toggleSubV1 at e; split at e
    · exact frame_toggleSubV1 (hne rfl) h e
    · cases e
  · unfold signV2 at e; split at e
    · exact frame_sign hc (hne rfl) h e
    · cases e
  · unfold migrateV1 at e; split at e
    · exact frame_migrate (hne rfl) h e
    · cases e
  · unfold transferAssetsV1 at e; split at e
    · exact frame_transferAssets hc (hne rfl) h e
    · cases e
  · unfold closeTokenV1 at e; split at e
    · exact frame_closeToken hc (hne rfl) h e
    · cases e
  · unfold closeSwigV1 at e; split at e
    · exact frame_closeSwig (hne rfl) h e
    · cases e
  · unfold replaceAuthorityV1 at e; split at e
    · exact frame_replace (hne rfl) h e
    · cases e
  · unfold setRentClaimerV1 at e; split at e
    · exact frame_claimer (hne rfl) h e
    · cases e
  · unfold createSubV2 at e; split at e
    · exact frame_createSubV2 (hne rfl) h e
    · cases e
  · unfold toggleSubV2 at e; split at e
    · exact frame_toggleSubV2 hI (hne rfl) h e
    · cases e
  · unfold subSignV2 at e; split at e
    · exact frame_subSignV2 hc (hne rfl) h e
    · cases e
  · unfold withdrawSubV2 at e; split at e
    · exact frame_withdrawSubV2 hc (hne rfl) h e
    · cases e
  · unfold createV1 at e; split at e
    · exact frame_create (sys := ‹_›) (rest := []) h e
    · cases e

end
end Verif
