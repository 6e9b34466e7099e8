import Verif.Proofs.Client
import Verif.Proofs.ClientActions
import Verif.Proofs.LiveCreate
import Verif.Proofs.Scope
import Verif.Model.Process

/-! What the program reads from the instructions of the client library, and that they get as far as their handler. -/

namespace Verif.Client

/-! ## Account inspection -/

theorem classify_of {m : Mem} {f a : Meta} {prev : List Meta} {cls : List Class} {c : List (Nat × Bytes)}
    (hf : isConfig m f.key = true) (h1 : (m a.key).owner ≠ stakeId) (h2 : findScope c a.key = none) :
    ∃ x, classify m (f :: prev) cls (some c) a = .ok x := by
  unfold classify
  dsimp only
  rw [if_neg h1, h2]
  simp only [List.getElem?_cons_zero, hf, if_true]
  rw [if_neg (show ¬ (f :: prev).length = 0 by simp)]
  repeat' split
  all_goals exact ⟨_, rfl⟩

theorem classifyGo_of {m : Mem} {f : Meta} {c : List (Nat × Bytes)} (hf : isConfig m f.key = true) : ∀ (rest : List Meta),
    (∀ a ∈ rest, (m a.key).owner ≠ stakeId ∧ findScope c a.key = none) → ∀ (prev : List Meta) (cls : List Class),
    ∃ out, classifyGo m (some c) (f :: prev) cls rest = .ok out := by
  intro rest
  induction rest with
  | nil => intro _ prev cls; exact ⟨_, rfl⟩
  | cons a rest ih =>
    intro h prev cls
    obtain ⟨h1, h2⟩ := h a (by simp)
    obtain ⟨x, hx⟩ := classify_of (prev := prev) (cls := cls) hf h1 h2
    simp only [classifyGo]
    rw [hx, ok_bind]
    exact ih (fun b hb => h b (by simp [hb])) _ _

theorem isConfig_enc {m : Mem} {k : Key} {w : Wallet} (hw : w.WF) (hd : (m k).data = w.encode) (ho : (m k).owner = swigId) :
    isConfig m k = true := by
  have := Wallet.encode_length hw
  unfold isConfig
  rw [hd, ho, Wallet.encode_disc]
  simp
  omega

theorem plain_none {m : Mem} {w : Wallet} {metas : List Meta} (hw : w.WF) (h : Plain m w metas) {c : List (Nat × Bytes)}
    (hc : loadScopes w.encode = some c) : ∀ a ∈ metas, findScope c a.key = none := by
  intro a ha
  rw [findScope_enc hw hc, List.findSome?_eq_none_iff]
  intro i _
  cases hr : w.role? i with
  | none => rfl
  | some r =>
    have : payload? r.actions P.programScope a.key = none := by
      unfold payload?
      rw [Option.map_eq_none_iff, List.find?_eq_none]
      intro x hx
      have := (h a ha).2 r (role?_mem hr).1 x hx
      intro hg
      have hg := of_decide_eq_true hg
      exact this hg.1 (hg.2 (by decide))
    simp [this]

theorem classifyAll_of {m : Mem} {f : Meta} {rest : List Meta} {w : Wallet} (hw : w.WF) (hd : (m f.key).data = w.encode)
    (ho : (m f.key).owner = swigId) (hp : Plain m w (f :: rest)) : ∃ cls, classifyAll m (f :: rest) = .ok cls := by
  have hf := isConfig_enc hw hd ho
  obtain ⟨c, hc⟩ : ∃ c, loadScopes w.encode = some c := by
    unfold loadScopes
    rw [splitParts_encode hw]
    exact ⟨_, rfl⟩
  have hn := plain_none hw hp hc
  unfold classifyAll cacheOf
  simp only [hf, if_true]
  rw [hd, hc]
  have h0 : ∃ x, classify m [] [] none f = .ok x := by
    unfold classify
    dsimp only
    rw [if_pos ho, hf]
    simp
  obtain ⟨x, hx⟩ := h0
  rw [hx, ok_bind]
  exact classifyGo_of hf rest (fun a ha => ⟨(hp a (by simp [ha])).1, hn a (by simp [ha])⟩) [] [x]

/-- The entry point hands the request over to the handler. -/
theorem process_of {env : Env} {cpi : Cpi} {m : Mem} {f : Meta} {rest : List Meta} {w : Wallet} {ix : Bytes} (hw : w.WF)
    (hd : (m f.key).data = w.encode) (ho : (m f.key).owner = swigId) (hp : Plain m w (f :: rest)) (hl : (f :: rest).length ≤ 254) :
    ∃ cls, process env cpi m (f :: rest) ix = dispatch env cpi m (f :: rest) cls ix := by
  obtain ⟨cls, h⟩ := classifyAll_of hw hd ho hp
  refine ⟨cls, ?_⟩
  unfold process
  rw [require_of hl, ok_bind, h, ok_bind]

theorem classify_bare {m : Mem} {prev : List Meta} {cls : List Class} {a : Meta} (h1 : (m a.key).owner ≠ swigId)
    (h2 : (m a.key).owner ≠ stakeId) : ∃ x, classify m prev cls none a = .ok x := by
  unfold classify
  dsimp only
  rw [if_neg h1, if_neg h2]
  repeat' split
  all_goals exact ⟨_, rfl⟩

theorem classifyGo_bare {m : Mem} : ∀ (rest : List Meta), (∀ a ∈ rest, (m a.key).owner ≠ swigId ∧ (m a.key).owner ≠ stakeId) →
    ∀ (prev : List Meta) (cls : List Class), ∃ out, classifyGo m none prev cls rest = .ok out := by
  intro rest
  induction rest with
  | nil => intro _ prev cls; exact ⟨_, rfl⟩
  | cons a rest ih =>
    intro h prev cls
    obtain ⟨x, hx⟩ := classify_bare (prev := prev) (cls := cls) (h a (by simp)).1 (h a (by simp)).2
    simp only [classifyGo]
    rw [hx, ok_bind]
    exact ih (fun b hb => h b (by simp [hb])) _ _

/-- The entry point hands a request without wallet over to the handler. -/
theorem process_bare {env : Env} {cpi : Cpi} {m : Mem} {f : Meta} {rest : List Meta} {ix : Bytes}
    (h : ∀ a ∈ f :: rest, (m a.key).owner ≠ swigId ∧ (m a.key).owner ≠ stakeId) (hl : (f :: rest).length ≤ 254) :
    ∃ cls, process env cpi m (f :: rest) ix = dispatch env cpi m (f :: rest) cls ix := by
  have hf : isConfig m f.key = false := by
    unfold isConfig
    simp [(h f (by simp)).1]
  have : ∃ cls, classifyAll m (f :: rest) = .ok cls := by
    unfold classifyAll cacheOf
    simp only [hf]
    obtain ⟨x, hx⟩ := classify_bare (prev := []) (cls := []) (h f (by simp)).1 (h f (by simp)).2
    rw [hx, ok_bind]
    exact classifyGo_bare rest (fun a ha => h a (by simp [ha])) _ _
  obtain ⟨cls, hc⟩ := this
  refine ⟨cls, ?_⟩
  unfold process
  rw [require_of hl, ok_bind, hc, ok_bind]

/-! ## Formation -/

theorem manageBy_formed (env : Env) (swig payer : Key) (data : Bytes) (c : Caller) :
    Formed env data data c (manageBy env swig payer data c) := by
  cases c with
  | ed25519 k => exact .ed25519 (m := ros k) rfl rfl rfl
  | secp256k1 sign slot counter => exact .secp256k1 (by simp [managing])
  | secp256r1 sign pk slot counter => exact .secp256r1 (m := ro instructionsSysvarId) (by simp [managing]) rfl rfl
  | exec p t => exact .exec (m := ro instructionsSysvarId) rfl rfl

/-- The accounts the program sees of a managing request. -/
theorem manageBy_accounts {env : Env} {swig payer : Key} {data : Bytes} {c : Caller} {seen : List Meta}
    (h : Promoted (manageBy env swig payer data c).accounts seen) :
    ∃ s p y rest, seen = s :: p :: y :: rest ∧ rest.length ≤ 1 ∧ s.key = swig ∧ p.key = payer ∧ y.key = systemId ∧
      (swig ≠ systemId → s.writable = true) ∧ (payer ≠ systemId → p.writable = true) ∧ p.signer = true := by
  have hl := h.length
  have h' : ∃ tl, (manageBy env swig payer data c).accounts = w swig :: ws payer :: ro systemId :: tl ∧ tl.length ≤ 1 := by
    cases c <;> exact ⟨_, rfl, by simp⟩
  obtain ⟨tl, e, ht⟩ := h'
  rw [e] at h
  obtain ⟨s, as, rfl, h1, _, h2, h⟩ := h.cons
  obtain ⟨p, as, rfl, h3, h4, h5, h⟩ := h.cons
  obtain ⟨y, as, rfl, h6, _, _, h⟩ := h.cons
  exact ⟨s, p, y, as, rfl, by rw [h.length]; exact ht, h1, h3, h6, h2 rfl, h5 rfl, h4 rfl⟩

theorem canPay_of {env : Env} {m : Mem} {s p : Meta} {swig payer : Key} {n : Nat} (h : Pays env m payer swig n) (h1 : s.key = swig)
    (h2 : p.key = payer) (h3 : swig ≠ systemId → s.writable = true) (h4 : payer ≠ systemId → p.writable = true)
    (h5 : p.signer = true) : CanPay env m p s n := by
  subst h1 h2
  exact ⟨h.other, h5, h4 h.notSystem.1, h3 h.notSystem.2, h.owner, h.empty, h.funds⟩

/-! ## Stored authorities -/

theorem _root_.Verif.Session.encode_inj {s t : Session} (hs : s.WF) (ht : t.WF) (h : s.encode = t.encode) : s = t := by
  obtain ⟨a, b, c⟩ := s
  obtain ⟨a', b', c'⟩ := t
  obtain ⟨h1, h2, h3⟩ := hs
  obtain ⟨k1, k2, k3⟩ := ht
  simp only [Session.encode] at *
  obtain ⟨e, e3⟩ := List.append_inj h (by simp; omega)
  obtain ⟨e1, e2⟩ := List.append_inj e (by omega)
  subst e1
  rw [natLE_inj (by simpa using h2) (by simpa using k2) e2, natLE_inj (by simpa using h3) (by simpa using k3) e3]

/-- Lengths of encoded credentials. -/
def credLen : Cred → Nat
  | .ed25519 .. => 32
  | .secp256k1 .. => 40
  | .secp256r1 .. => 40
  | .exec .. => 80

theorem credLen_eq {c : Cred} (h : c.WF) : c.encode.length = credLen c := by
  cases c <;> simp only [Cred.WF] at h <;> simp [Cred.encode, credLen] <;> omega

theorem secp_inj {p q p' q' : Bytes} {n n' : Nat} (h1 : p.length = 33) (h2 : q.length = 3) (h3 : n < 2 ^ 32) (k1 : p'.length = 33)
    (k2 : q'.length = 3) (k3 : n' < 2 ^ 32) (h : p ++ q ++ natLE 4 n = p' ++ q' ++ natLE 4 n') : p = p' ∧ q = q' ∧ n = n' := by
  obtain ⟨e, e3⟩ := List.append_inj h (by simp; omega)
  obtain ⟨e1, e2⟩ := List.append_inj e (by omega)
  exact ⟨e1, e2, natLE_inj (by simpa using h3) (by simpa using k3) e3⟩

/-- Type and bytes determine a stored authority. -/
theorem _root_.Verif.Auth.encode_inj {a b : Auth} (ha : a.WF) (hb : b.WF) (ht : a.ty = b.ty) (h : a.encode = b.encode) : a = b := by
  obtain ⟨c, s⟩ := a
  obtain ⟨c', s'⟩ := b
  obtain ⟨h1, h2⟩ := ha
  obtain ⟨k1, k2⟩ := hb
  simp only at h1 h2 k1 k2
  have l1 := credLen_eq h1
  have l2 := credLen_eq k1
  have hsame : c.encode.length = c'.encode.length ∧ s.isSome = s'.isSome := by
    rw [l1, l2]
    cases c <;> cases c' <;> cases s <;> cases s' <;> simp [Auth.ty, credLen] at ht ⊢
  obtain ⟨e1, e2⟩ := List.append_inj h hsame.1
  have hs : s = s' := by
    cases s with
    | none => cases s' with
      | none => rfl
      | some y => simp at hsame
    | some x => cases s' with
      | none => simp at hsame
      | some y => rw [Session.encode_inj (h2 x rfl) (k2 y rfl) e2]
  subst hs
  congr 1
  cases c with
  | ed25519 p =>
    cases c' with
    | ed25519 p' => exact congrArg Cred.ed25519 e1
    | _ => cases s <;> simp [Auth.ty] at ht
  | secp256k1 p q n =>
    cases c' with
    | secp256k1 p' q' n' =>
      obtain ⟨x1, x2, x3⟩ := secp_inj h1.1 h1.2.1 h1.2.2 k1.1 k1.2.1 k1.2.2 e1
      rw [x1, x2, x3]
    | _ => cases s <;> simp [Auth.ty] at ht
  | secp256r1 p q n =>
    cases c' with
    | secp256r1 p' q' n' =>
      obtain ⟨x1, x2, x3⟩ := secp_inj h1.1 h1.2.1 h1.2.2 k1.1 k1.2.1 k1.2.2 e1
      rw [x1, x2, x3]
    | _ => cases s <;> simp [Auth.ty] at ht
  | exec p n q u =>
    cases c' with
    | exec p' n' q' u' =>
      obtain ⟨a1, a2, a3⟩ := h1
      obtain ⟨b1, b2, b3⟩ := k1
      obtain ⟨e, e4⟩ := List.append_inj e1 (by simp; omega)
      obtain ⟨e, e3⟩ := List.append_inj e (by simp; omega)
      obtain ⟨e, e2⟩ := List.append_inj e (by omega)
      simp only [List.cons.injEq, and_true] at e2
      rw [e, e2, e3, e4]
    | _ => cases s <;> simp [Auth.ty] at ht

/-! ## What is read -/

theorem parseCreate_built {swig payer wallet : Key} {bump walletBump : UInt8} {ty : Nat} {cred : Bytes} {acts : List Action} {id : Key}
    (hid : id.length = 32) (ht : ty < 2 ^ 16) (hc : cred.length < 2 ^ 16) :
    parseCreate (create swig payer wallet bump walletBump ty cred acts id).data =
      .ok ⟨ty, bump, walletBump, id, cred, writeActions acts⟩ := by
  generalize hD : (create swig payer wallet bump walletBump ty cred acts id).data = D
  have e : D = natLE 2 0 ++ natLE 2 ty ++ natLE 2 cred.length ++ [bump] ++ [walletBump] ++ id ++ (cred ++ writeActions acts) := by
    rw [← hD]; simp [create, List.append_assoc]
  have hl : D.length = 40 + cred.length + (writeActions acts).length := by rw [e]; simp [hid]; omega
  have r2 : rd D 2 2 = ty := by
    have := rd_full 2 ty (by simpa using ht) (natLE 2 0) (natLE 2 cred.length ++ [bump] ++ [walletBump] ++ id ++ (cred ++ writeActions acts))
      (i := 2) (by simp)
    rw [e]; simpa [List.append_assoc] using this
  have r4 : rd D 4 2 = cred.length := by
    have := rd_full 2 cred.length (by simpa using hc) (natLE 2 0 ++ natLE 2 ty) ([bump] ++ [walletBump] ++ id ++ (cred ++ writeActions acts))
      (i := 4) (by simp)
    rw [e]; simpa [List.append_assoc] using this
  have g6 : D.getD 6 0 = bump := by rw [e]; simp [natLE]
  have g7 : D.getD 7 0 = walletBump := by rw [e]; simp [natLE]
  have s1 : sl D 8 40 = id := by
    have := sl_mid (natLE 2 0 ++ natLE 2 ty ++ natLE 2 cred.length ++ [bump] ++ [walletBump]) id (cred ++ writeActions acts) (i := 8)
      (j := 40) (by simp) (by simp [hid])
    rw [e]; simpa [List.append_assoc] using this
  have d1 : D.drop 40 = cred ++ writeActions acts := by
    rw [e]
    exact List.drop_left' (by simp [hid])
  unfold parseCreate
  rw [if_neg (by omega)]
  simp only
  rw [r2, r4, g6, g7, s1, d1, if_neg (by simp), List.take_left, List.drop_left]

theorem parseAdd_built {acting ty : Nat} {cred : Bytes} {acts : List Action} {payload : Bytes} (ha : acting < 2 ^ 32) (ht : ty < 2 ^ 16)
    (hc : cred.length < 2 ^ 16) (hw : (writeActions acts).length < 2 ^ 16) :
    parseAdd (addData acting ty cred acts ++ payload) =
      .ok ⟨ty, acting, cred, writeActions acts, addData acting ty cred acts, payload⟩ := by
  generalize hW : writeActions acts = W at *
  generalize hD : addData acting ty cred acts = D
  have e : D = natLE 2 1 ++ natLE 2 cred.length ++ natLE 2 W.length ++ natLE 2 ty ++ [UInt8.ofNat acts.length] ++ zeros 3 ++
    natLE 4 acting ++ cred ++ W := by rw [← hD, ← hW]; rfl
  have hl : D.length = 16 + cred.length + W.length := by rw [e]; simp; omega
  have r2 : rd (D ++ payload) 2 2 = cred.length := by
    rw [e]; simp only [List.append_assoc]
    rw [rd_skip _ _ _ _ (by simp)]; simp only [natLE_length]
    exact rd_here 2 _ _ (by simpa using hc)
  have r4 : rd (D ++ payload) 4 2 = W.length := by
    rw [e]; simp only [List.append_assoc]
    rw [rd_skip _ _ _ _ (by simp), rd_skip _ _ _ _ (by simp)]; simp only [natLE_length]
    exact rd_here 2 _ _ (by simpa using hw)
  have r6 : rd (D ++ payload) 6 2 = ty := by
    rw [e]; simp only [List.append_assoc]
    rw [rd_skip _ _ _ _ (by simp), rd_skip _ _ _ _ (by simp), rd_skip _ _ _ _ (by simp)]; simp only [natLE_length]
    exact rd_here 2 _ _ (by simpa using ht)
  have r12 : rd (D ++ payload) 12 4 = acting := by
    rw [e]
    have := rd_full 4 acting (by simpa using ha) (natLE 2 1 ++ natLE 2 cred.length ++ natLE 2 W.length ++ natLE 2 ty ++
      [UInt8.ofNat acts.length] ++ zeros 3) (cred ++ W ++ payload) (i := 12) (by simp)
    simpa [List.append_assoc] using this
  have s1 : sl (D ++ payload) 16 (16 + cred.length) = cred := by
    rw [e]
    have := sl_mid (natLE 2 1 ++ natLE 2 cred.length ++ natLE 2 W.length ++ natLE 2 ty ++ [UInt8.ofNat acts.length] ++ zeros 3 ++
      natLE 4 acting) cred (W ++ payload) (i := 16) (j := 16 + cred.length) (by simp) (by simp)
    simpa [List.append_assoc] using this
  have s2 : sl (D ++ payload) (16 + cred.length) (16 + cred.length + W.length) = W := by
    rw [e]
    have := sl_mid (natLE 2 1 ++ natLE 2 cred.length ++ natLE 2 W.length ++ natLE 2 ty ++ [UInt8.ofNat acts.length] ++ zeros 3 ++
      natLE 4 acting ++ cred) W payload (i := 16 + cred.length) (j := 16 + cred.length + W.length) (by simp; omega) (by simp; omega)
    simpa [List.append_assoc] using this
  unfold parseAdd
  rw [if_neg (by simp [hl]; omega)]
  simp only
  rw [r2, r4, r6, r12, if_neg (by simp [hl]), s1, s2, ← hl, List.take_left, List.drop_left]

theorem parseRemove_built {n acting target : Nat} {payload : Bytes} (ha : acting < 2 ^ 32) (ht : target < 2 ^ 32) :
    parseRemove (removeData n acting target ++ payload) = .ok ⟨acting, target, removeData n acting target, payload⟩ := by
  have hl : (removeData n acting target).length = 16 := by simp [removeData]
  have r8 : rd (removeData n acting target ++ payload) 8 4 = acting := by
    have := rd_full 4 acting (by simpa using ha) (natLE 2 2 ++ natLE 2 n ++ zeros 4) (natLE 4 target ++ payload) (i := 8) (by simp)
    simpa [List.append_assoc, removeData] using this
  have r12 : rd (removeData n acting target ++ payload) 12 4 = target := by
    have := rd_full 4 target (by simpa using ht) (natLE 2 2 ++ natLE 2 n ++ zeros 4 ++ natLE 4 acting) payload (i := 12) (by simp)
    simpa [List.append_assoc, removeData] using this
  unfold parseRemove
  rw [if_neg (by simp [hl]), r8, r12]
  rw [← hl, List.take_left, List.drop_left]

/-- The operation the program reads from a change. -/
def Change.op : Change → UpdateOp
  | .replaceAll acts => .replaceAll (writeActions acts)
  | .addActions acts => .add (writeActions acts)
  | .removeByType types => .removeTypes types
  | .removeByIndex is => .removeIndices is

theorem u16List_built : ∀ (is : List Nat), (∀ i ∈ is, i < 2 ^ 16) → u16List (is.flatMap (natLE 2)) = is := by
  intro is
  induction is with
  | nil => intro _; rfl
  | cons i is ih =>
    intro h
    have hi := h i (by simp)
    have e : natLE 2 i = [UInt8.ofNat i, UInt8.ofNat (i / 256)] := by simp [natLE]
    have e2 := leNat_natLE_of_lt (k := 2) (n := i) (by simpa using hi)
    rw [e] at e2
    rw [List.flatMap_cons, e]
    simp only [List.cons_append, List.nil_append, u16List]
    rw [e2, ih (fun x hx => h x (by simp [hx]))]

theorem updateOp_built (c : Change) (h : ∀ is, c = .removeByIndex is → ∀ i ∈ is, i < 2 ^ 16) : updateOp 0 c.bytes = .ok c.op := by
  have hne : c.bytes ≠ [] := by cases c <;> simp [Change.bytes]
  unfold updateOp
  rw [if_pos ⟨rfl, hne⟩]
  cases c with
  | replaceAll acts => simp [Change.bytes, Change.op]
  | addActions acts => simp [Change.bytes, Change.op]
  | removeByType ts => simp [Change.bytes, Change.op]
  | removeByIndex is =>
    have hl : (is.flatMap (natLE 2)).length % 2 = 0 := by
      have : (is.flatMap (natLE 2)).length = 2 * is.length := by
        induction is with
        | nil => rfl
        | cons i is ih =>
          rw [List.flatMap_cons, List.length_append, ih (fun is' h' => by
            cases h'; intro i hi; exact h _ rfl i (by simp [hi]))]
          · simp; omega
          · simp [Change.bytes]
      omega
    simp [Change.bytes, Change.op, hl, u16List_built is (h is rfl)]

theorem parseUpdate_built {acting target : Nat} {c : Change} {payload : Bytes} (ha : acting < 2 ^ 32) (ht : target < 2 ^ 32)
    (hc : c.bytes.length < 2 ^ 16) (hi : ∀ is, c = .removeByIndex is → ∀ i ∈ is, i < 2 ^ 16) :
    parseUpdate (updateData acting target c ++ payload) = .ok ⟨acting, target, c.op, updateData acting target c, payload⟩ := by
  generalize hD : updateData acting target c = D
  have e : D = natLE 2 3 ++ natLE 2 c.bytes.length ++ [0] ++ zeros 3 ++ natLE 4 acting ++ natLE 4 target ++ c.bytes := by
    rw [← hD]; rfl
  have hl : D.length = 16 + c.bytes.length := by rw [e]; simp; omega
  have r2 : rd (D ++ payload) 2 2 = c.bytes.length := by
    have := rd_full 2 c.bytes.length (by simpa using hc) (natLE 2 3) ([0] ++ zeros 3 ++ natLE 4 acting ++ natLE 4 target ++ c.bytes ++ payload)
      (i := 2) (by simp)
    rw [e]; simpa [List.append_assoc] using this
  have r8 : rd (D ++ payload) 8 4 = acting := by
    have := rd_full 4 acting (by simpa using ha) (natLE 2 3 ++ natLE 2 c.bytes.length ++ [0] ++ zeros 3)
      (natLE 4 target ++ c.bytes ++ payload) (i := 8) (by simp)
    rw [e]; simpa [List.append_assoc] using this
  have r12 : rd (D ++ payload) 12 4 = target := by
    have := rd_full 4 target (by simpa using ht) (natLE 2 3 ++ natLE 2 c.bytes.length ++ [0] ++ zeros 3 ++ natLE 4 acting)
      (c.bytes ++ payload) (i := 12) (by simp)
    rw [e]; simpa [List.append_assoc] using this
  have g4 : (D ++ payload).getD 4 0 = 0 := by rw [e]; rfl
  have s1 : sl (D ++ payload) 16 (16 + c.bytes.length) = c.bytes := by
    have := sl_mid (natLE 2 3 ++ natLE 2 c.bytes.length ++ [0] ++ zeros 3 ++ natLE 4 acting ++ natLE 4 target) c.bytes payload
      (i := 16) (j := 16 + c.bytes.length) (by simp) (by simp)
    rw [e]; simpa [List.append_assoc] using this
  unfold parseUpdate
  rw [if_neg (by simp [hl]; omega)]
  simp only
  rw [r2, r8, r12, g4, s1, if_neg (by simp [hl]), updateOp_built c hi, ok_bind, ← hl, List.take_left, List.drop_left]

theorem parseSession_built {role duration : Nat} {key : Key} {payload : Bytes} (hr : role < 2 ^ 32) (hd : duration < 2 ^ 64)
    (hk : key.length = 32) :
    parseSession (sessionData role duration key ++ payload) = .ok ⟨role, duration, key, sessionData role duration key, payload⟩ := by
  have hl : (sessionData role duration key).length = 48 := by simp [sessionData, hk]
  have r4 : rd (sessionData role duration key ++ payload) 4 4 = role := by
    have := rd_full 4 role (by simpa using hr) (natLE 2 5 ++ zeros 2) (natLE 8 duration ++ key ++ payload) (i := 4) (by simp)
    simpa [List.append_assoc, sessionData] using this
  have r8 : rd (sessionData role duration key ++ payload) 8 8 = duration := by
    have := rd_full 8 duration (by simpa using hd) (natLE 2 5 ++ zeros 2 ++ natLE 4 role) (key ++ payload) (i := 8) (by simp)
    simpa [List.append_assoc, sessionData] using this
  have s1 : sl (sessionData role duration key ++ payload) 16 48 = key := by
    have := sl_mid (natLE 2 5 ++ zeros 2 ++ natLE 4 role ++ natLE 8 duration) key payload (i := 16) (j := 48) (by simp) (by simp [hk])
    simpa [List.append_assoc, sessionData] using this
  unfold parseSession
  rw [if_neg (by simp [hl]), r4, r8, s1]
  rw [← hl, List.take_left, List.drop_left]

theorem parseClaimer_built {role : Nat} {claimer : Key} {payload : Bytes} (hr : role < 2 ^ 32) (hk : claimer.length = 32) :
    parseClaimer (claimerData role claimer ++ payload) = .ok ⟨role, claimer, claimerData role claimer, payload⟩ := by
  have hl : (claimerData role claimer).length = 40 := by simp [claimerData, hk]
  have r4 : rd (claimerData role claimer ++ payload) 4 4 = role := by
    have := rd_full 4 role (by simpa using hr) (natLE 2 17 ++ zeros 2) (claimer ++ payload) (i := 4) (by simp)
    simpa [List.append_assoc, claimerData] using this
  have s1 : sl (claimerData role claimer ++ payload) 8 40 = claimer := by
    have := sl_mid (natLE 2 17 ++ zeros 2 ++ natLE 4 role) claimer payload (i := 8) (j := 40) (by simp) (by simp [hk])
    simpa [List.append_assoc, claimerData] using this
  unfold parseClaimer
  rw [if_neg (by simp [hl]), r4, s1]
  rw [← hl, List.take_left, List.drop_left]

theorem parseReplace_built {acting target : Nat} {new data payload : Bytes} (ha : acting < 2 ^ 32) (ht : target < 2 ^ 32)
    (h : replaceData acting target new = some data) :
    parseReplace (data ++ payload) = .ok ⟨acting, target, new, data, payload⟩ := by
  unfold replaceData at h
  split at h
  · rename_i hn
    have e := (Option.some.inj h).symm
    have hl : data.length = 16 + new.length := by rw [e]; simp; omega
    have r4 : rd (data ++ payload) 4 4 = acting := by
      have := rd_full 4 acting (by simpa using ha) (natLE 2 16 ++ zeros 2) (natLE 4 target ++ natLE 2 new.length ++ zeros 2 ++ new ++ payload)
        (i := 4) (by simp)
      rw [e]; simpa [List.append_assoc] using this
    have r8 : rd (data ++ payload) 8 4 = target := by
      have := rd_full 4 target (by simpa using ht) (natLE 2 16 ++ zeros 2 ++ natLE 4 acting) (natLE 2 new.length ++ zeros 2 ++ new ++ payload)
        (i := 8) (by simp)
      rw [e]; simpa [List.append_assoc] using this
    have r12 : rd (data ++ payload) 12 2 = new.length := by
      have := rd_full 2 new.length (by simp; omega) (natLE 2 16 ++ zeros 2 ++ natLE 4 acting ++ natLE 4 target) (zeros 2 ++ new ++ payload)
        (i := 12) (by simp)
      rw [e]; simpa [List.append_assoc] using this
    have z1 : sl (data ++ payload) 2 4 = zeros 2 := by
      have := sl_mid (natLE 2 16) (zeros 2) (natLE 4 acting ++ natLE 4 target ++ natLE 2 new.length ++ zeros 2 ++ new ++ payload) (i := 2) (j := 4)
        (by simp) (by simp)
      rw [e]; simpa [List.append_assoc] using this
    have z2 : sl (data ++ payload) 14 16 = zeros 2 := by
      have := sl_mid (natLE 2 16 ++ zeros 2 ++ natLE 4 acting ++ natLE 4 target ++ natLE 2 new.length) (zeros 2) (new ++ payload) (i := 14)
        (j := 16) (by simp) (by simp)
      rw [e]; simpa [List.append_assoc] using this
    have s1 : sl (data ++ payload) 16 (16 + new.length) = new := by
      have := sl_mid (natLE 2 16 ++ zeros 2 ++ natLE 4 acting ++ natLE 4 target ++ natLE 2 new.length ++ zeros 2) new payload (i := 16)
        (j := 16 + new.length) (by simp) (by simp)
      rw [e]; simpa [List.append_assoc] using this
    unfold parseReplace
    rw [if_neg (by simp [hl]; omega), if_neg (by simp [z1, z2])]
    simp only
    rw [r4, r8, r12, if_neg (by omega), if_neg (by simp [hl]; omega), s1, ← hl, List.take_left, List.drop_left]
  · cases h

end Verif.Client
