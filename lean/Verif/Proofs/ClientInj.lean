import Verif.Proofs.ClientActions

/-! The client serialises different actions differently. -/

namespace Verif.Client

theorem peelN {k x y : Nat} {p q : Bytes} (hx : x < 256 ^ k) (hy : y < 256 ^ k) (h : p ++ natLE k x = q ++ natLE k y) : p = q ∧ x = y := by
  obtain ⟨h1, h2⟩ := List.append_inj' h (by simp)
  exact ⟨h1, natLE_inj hx hy h2⟩

theorem peelB {p q x y : Bytes} (hl : x.length = y.length) (h : p ++ x = q ++ y) : p = q ∧ x = y := List.append_inj' h hl

theorem toAct_inj {a b : Action} (ha : a.InRange) (hb : b.InRange) (h : a.toAct = b.toAct) : a = b := by
  have ht : a.header.1 = b.header.1 := congrArg Act.ty h
  have hd : a.bytes = b.bytes := congrArg Act.data h
  clear h
  cases a with
  | tokenLimit m x =>
    cases b with
    | tokenLimit m' x' =>
      obtain ⟨e1, e2⟩ := peelN (by have := ha.2; omega) (by have := hb.2; omega) hd
      rw [e1, e2]
    | _ => exact absurd ht (by simp only [Action.header]; decide)
  | tokenDestinationLimit m d x =>
    cases b with
    | tokenDestinationLimit m' d' x' =>
      obtain ⟨e1, e2⟩ := peelN (by have := ha.2.2; omega) (by have := hb.2.2; omega) hd
      obtain ⟨e3, e4⟩ := peelB (by rw [ha.2.1, hb.2.1]) e1
      rw [e2, e3, e4]
    | _ => exact absurd ht (by simp only [Action.header]; decide)
  | tokenRecurringLimit m w l c r =>
    cases b with
    | tokenRecurringLimit m' w' l' c' r' =>
      obtain ⟨e, e1⟩ := peelN (by have := ha.2.2.2.2; omega) (by have := hb.2.2.2.2; omega) hd
      obtain ⟨e, e2⟩ := peelN (by have := ha.2.2.2.1; omega) (by have := hb.2.2.2.1; omega) e
      obtain ⟨e, e3⟩ := peelN (by have := ha.2.2.1; omega) (by have := hb.2.2.1; omega) e
      obtain ⟨e, e4⟩ := peelN (by have := ha.2.1; omega) (by have := hb.2.1; omega) e
      rw [e, e1, e2, e3, e4]
    | _ => exact absurd ht (by simp only [Action.header]; decide)
  | tokenRecurringDestinationLimit m d x w r c =>
    cases b with
    | tokenRecurringDestinationLimit m' d' x' w' r' c' =>
      obtain ⟨e, e1⟩ := peelN (by have := ha.2.2.2.2.2; omega) (by have := hb.2.2.2.2.2; omega) hd
      obtain ⟨e, e2⟩ := peelN (by have := ha.2.2.2.2.1; omega) (by have := hb.2.2.2.2.1; omega) e
      obtain ⟨e, e3⟩ := peelN (by have := ha.2.2.2.1; omega) (by have := hb.2.2.2.1; omega) e
      obtain ⟨e, e4⟩ := peelN (by have := ha.2.2.1; omega) (by have := hb.2.2.1; omega) e
      obtain ⟨e, e5⟩ := peelB (by rw [ha.2.1, hb.2.1]) e
      rw [e, e1, e2, e3, e4, e5]
    | _ => exact absurd ht (by simp only [Action.header]; decide)
  | solLimit x =>
    cases b with
    | solLimit x' => rw [natLE_inj (k := 8) (by simpa [Action.InRange] using ha) (by simpa [Action.InRange] using hb) hd]
    | _ => exact absurd ht (by simp only [Action.header]; decide)
  | solRecurringLimit x w r c =>
    cases b with
    | solRecurringLimit x' w' r' c' =>
      obtain ⟨e, e1⟩ := peelN (by have := ha.2.2.2; omega) (by have := hb.2.2.2; omega) hd
      obtain ⟨e, e2⟩ := peelN (by have := ha.2.2.1; omega) (by have := hb.2.2.1; omega) e
      obtain ⟨e, e3⟩ := peelN (by have := ha.2.1; omega) (by have := hb.2.1; omega) e
      rw [natLE_inj (k := 8) (by have := ha.1; omega) (by have := hb.1; omega) e, e1, e2, e3]
    | _ => exact absurd ht (by simp only [Action.header]; decide)
  | solDestinationLimit d x =>
    cases b with
    | solDestinationLimit d' x' =>
      obtain ⟨e1, e2⟩ := peelN (by have := ha.2; omega) (by have := hb.2; omega) hd
      rw [e1, e2]
    | _ => exact absurd ht (by simp only [Action.header]; decide)
  | solRecurringDestinationLimit d x w r c =>
    cases b with
    | solRecurringDestinationLimit d' x' w' r' c' =>
      obtain ⟨e, e1⟩ := peelN (by have := ha.2.2.2.2; omega) (by have := hb.2.2.2.2; omega) hd
      obtain ⟨e, e2⟩ := peelN (by have := ha.2.2.2.1; omega) (by have := hb.2.2.2.1; omega) e
      obtain ⟨e, e3⟩ := peelN (by have := ha.2.2.1; omega) (by have := hb.2.2.1; omega) e
      obtain ⟨e, e4⟩ := peelN (by have := ha.2.1; omega) (by have := hb.2.1; omega) e
      rw [e, e1, e2, e3, e4]
    | _ => exact absurd ht (by simp only [Action.header]; decide)
  | program p =>
    cases b with
    | program p' => exact congrArg Action.program hd
    | _ => exact absurd ht (by simp only [Action.header]; decide)
  | programAll =>
    cases b with
    | programAll => rfl
    | _ => exact absurd ht (by simp only [Action.header]; decide)
  | programCurated p =>
    cases b with
    | programCurated p' => exact congrArg Action.programCurated hd
    | _ => exact absurd ht (by simp only [Action.header]; decide)
  | programScope c l w r p t st nt s e =>
    cases b with
    | programScope c' l' w' r' p' t' st' nt' s' e' =>
      obtain ⟨a1, a2, a3, a4, a5, a6, a7, a8, a9, a10⟩ := ha
      obtain ⟨b1, b2, b3, b4, b5, b6, b7, b8, b9, b10⟩ := hb
      obtain ⟨h, e1⟩ := peelN (by omega) (by omega) hd
      obtain ⟨h, e2⟩ := peelN (by omega) (by omega) h
      obtain ⟨h, e3⟩ := peelN (by omega) (by omega) h
      obtain ⟨h, e4⟩ := peelN (by omega) (by omega) h
      obtain ⟨h, e5⟩ := peelB (by omega) h
      obtain ⟨h, e6⟩ := peelB (by omega) h
      obtain ⟨h, e7⟩ := peelN (by omega) (by omega) h
      obtain ⟨h, e8⟩ := peelN (by omega) (by omega) h
      obtain ⟨h, e9⟩ := peelN (by omega) (by omega) h
      rw [natLE_inj (k := 16) (by omega) (by omega) h, e1, e2, e3, e4, e5, e6, e7, e8, e9]
    | _ => exact absurd ht (by simp only [Action.header]; decide)
  | all =>
    cases b with
    | all => rfl
    | _ => exact absurd ht (by simp only [Action.header]; decide)
  | allButManageAuthority =>
    cases b with
    | allButManageAuthority => rfl
    | _ => exact absurd ht (by simp only [Action.header]; decide)
  | manageAuthority =>
    cases b with
    | manageAuthority => rfl
    | _ => exact absurd ht (by simp only [Action.header]; decide)
  | replaceAuthority r pad =>
    cases b with
    | replaceAuthority r' pad' =>
      obtain ⟨h, e⟩ := peelB (by rw [ha.2, hb.2]) hd
      rw [natLE_inj (k := 4) (by have := ha.1; omega) (by have := hb.1; omega) h, e]
    | _ => exact absurd ht (by simp only [Action.header]; decide)
  | closeSwigAuthority =>
    cases b with
    | closeSwigAuthority => rfl
    | _ => exact absurd ht (by simp only [Action.header]; decide)
  | subAccount x bump en pad r s =>
    cases b with
    | subAccount x' bump' en' pad' r' s' =>
      obtain ⟨a1, a2, a3, a4⟩ := ha
      obtain ⟨b1, b2, b3, b4⟩ := hb
      obtain ⟨h, e1⟩ := peelB (by omega) hd
      obtain ⟨h, e2⟩ := peelN (by omega) (by omega) h
      obtain ⟨h, e3⟩ := peelB (by omega) h
      obtain ⟨h, e4⟩ := peelB (by simp) h
      obtain ⟨h, e5⟩ := peelB (by simp) h
      have e5 : bump = bump' := by simpa using e5
      have e4 : en = en' := by cases en <;> cases en' <;> simp at e4 ⊢
      rw [h, e1, e2, e3, e4, e5]
    | _ => exact absurd ht (by simp only [Action.header]; decide)
  | subAccountV2Create =>
    cases b with
    | subAccountV2Create => rfl
    | _ => exact absurd ht (by simp only [Action.header]; decide)
  | subAccountV2All r pad =>
    cases b with
    | subAccountV2All r' pad' =>
      obtain ⟨h, e⟩ := peelB (by rw [ha.2, hb.2]) hd
      rw [natLE_inj (k := 4) (by have := ha.1; omega) (by have := hb.1; omega) h, e]
    | _ => exact absurd ht (by simp only [Action.header]; decide)
  | subAccountV2Sign r pad =>
    cases b with
    | subAccountV2Sign r' pad' =>
      obtain ⟨h, e⟩ := peelB (by rw [ha.2, hb.2]) hd
      rw [natLE_inj (k := 4) (by have := ha.1; omega) (by have := hb.1; omega) h, e]
    | _ => exact absurd ht (by simp only [Action.header]; decide)
  | subAccountV2Withdraw r pad =>
    cases b with
    | subAccountV2Withdraw r' pad' =>
      obtain ⟨h, e⟩ := peelB (by rw [ha.2, hb.2]) hd
      rw [natLE_inj (k := 4) (by have := ha.1; omega) (by have := hb.1; omega) h, e]
    | _ => exact absurd ht (by simp only [Action.header]; decide)
  | subAccountV2Toggle r pad =>
    cases b with
    | subAccountV2Toggle r' pad' =>
      obtain ⟨h, e⟩ := peelB (by rw [ha.2, hb.2]) hd
      rw [natLE_inj (k := 4) (by have := ha.1; omega) (by have := hb.1; omega) h, e]
    | _ => exact absurd ht (by simp only [Action.header]; decide)
  | stakeLimit x =>
    cases b with
    | stakeLimit x' => rw [natLE_inj (k := 8) (by simpa [Action.InRange] using ha) (by simpa [Action.InRange] using hb) hd]
    | _ => exact absurd ht (by simp only [Action.header]; decide)
  | stakeRecurringLimit x w r c =>
    cases b with
    | stakeRecurringLimit x' w' r' c' =>
      obtain ⟨e, e1⟩ := peelN (by have := ha.2.2.2; omega) (by have := hb.2.2.2; omega) hd
      obtain ⟨e, e2⟩ := peelN (by have := ha.2.2.1; omega) (by have := hb.2.2.1; omega) e
      obtain ⟨e, e3⟩ := peelN (by have := ha.2.1; omega) (by have := hb.2.1; omega) e
      rw [natLE_inj (k := 8) (by have := ha.1; omega) (by have := hb.1; omega) e, e1, e2, e3]
    | _ => exact absurd ht (by simp only [Action.header]; decide)
  | stakeAll =>
    cases b with
    | stakeAll => rfl
    | _ => exact absurd ht (by simp only [Action.header]; decide)

theorem foldl_enc : ∀ (as : List Action) (buf : Bytes), (∀ a ∈ as, a.InRange) →
    as.foldl Action.write buf = buf ++ encActs buf.length (as.map Action.toAct)
  | [], buf, _ => by simp [encActs]
  | a :: as, buf, h => by
    have hl := Action.bytes_length (h a (by simp))
    have hs : a.toAct.size = 8 + a.header.2 := by simp [Act.size, Action.toAct, hl]
    have hw : (Action.write buf a).length = buf.length + a.toAct.size := by simp [Action.write, hl, hs]; omega
    rw [List.foldl_cons, foldl_enc as _ (fun x hx => h x (by simp [hx])), List.map_cons, encActs, hw, ← List.append_assoc]
    congr 1
    simp [Action.write, encAct, Action.toAct, hl, Act.size, List.append_assoc, Nat.add_assoc]

/-- What the client writes is what the program would write for these permissions. -/
theorem writeActions_enc (as : List Action) (h : ∀ a ∈ as, a.InRange) : writeActions as = encActs 0 (as.map Action.toAct) := by
  have := foldl_enc as [] h
  simpa [writeActions] using this

end Verif.Client
