import Verif.Proofs.Surplus

/-!
# Further accounts in a signing of a role with limits

Lemmas for Verif/Props/SurplusSign.lean.
-/

namespace Verif
open Client

/-- None of the accounts is watched. -/
def Unwatched (q : List (Meta × Class)) : Prop := ∀ p ∈ q, p.2 = .none

section
variable {x : SignCtx} {cpi : Cpi} {m m' : Mem} {more : List Meta} {q : List (Meta × Class)}

/-- The same call with further accounts. -/
def SignCtx.plus (x : SignCtx) (more : List Meta) : SignCtx := { x with metas := x.metas ++ more }

theorem snap_plus {i : Nat} {a : Meta} {c : Class} : snap (x.plus more) m i a c = snap x m i a c := by
  unfold snap
  cases c <;> rfl

theorem snap_unwatched {i : Nat} {a : Meta} : snap x m i a .none = .ok none := by
  unfold snap
  split <;> rfl

theorem snapAll_surplus (hq : Unwatched q) : ∀ {l : List (Meta × Class)} {i : Nat} {hs : List (Option Bytes)}, snapAll x m i l = .ok hs →
    hs.length = l.length ∧ snapAll (x.plus more) m i (l ++ q) = .ok (hs ++ q.map fun _ => none) := by
  intro l
  induction l with
  | nil =>
    intro i hs h
    cases h
    refine ⟨rfl, ?_⟩
    simp only [List.nil_append]
    induction q generalizing i with
    | nil => rfl
    | cons p q ih =>
      obtain ⟨a, c⟩ := p
      have e : c = .none := hq (a, c) (by simp)
      subst e
      simp only [snapAll, List.map_cons]
      rw [snap_unwatched, ok_bind, ih (fun p hp => hq p (by simp [hp])), ok_bind]
  | cons p l ih =>
    intro i hs h
    obtain ⟨a, c⟩ := p
    simp only [snapAll] at h
    obtain ⟨h1, e1, h⟩ := bind_ok_iff.mp h
    obtain ⟨h2, e2, h⟩ := bind_ok_iff.mp h
    cases h
    obtain ⟨g1, g2⟩ := ih e2
    refine ⟨by simp [g1], ?_⟩
    simp only [List.cons_append, snapAll]
    rw [snap_plus, e1, ok_bind, g2, ok_bind]

theorem track_plus {a : Meta} {c : Class} : track (x.plus more) m a c = track x m a c := by
  unfold track
  split
  · rfl
  · cases c <;> rfl

theorem track_unwatched {a : Meta} : track x m a .none = .ok .none := by
  unfold track
  split <;> rfl

theorem trackAll_surplus (hq : Unwatched q) : ∀ {l l' : List (Meta × Class)}, trackAll x m l = .ok l' →
    l'.length = l.length ∧ trackAll (x.plus more) m (l ++ q) = .ok (l' ++ q) := by
  intro l
  induction l with
  | nil =>
    intro l' h
    cases h
    refine ⟨rfl, ?_⟩
    simp only [List.nil_append]
    induction q with
    | nil => rfl
    | cons p q ih =>
      obtain ⟨a, c⟩ := p
      have e : c = .none := hq (a, c) (by simp)
      subst e
      simp only [trackAll]
      rw [track_unwatched, ok_bind, ih (fun p hp => hq p (by simp [hp])), ok_bind]
  | cons p l ih =>
    intro l' h
    obtain ⟨a, c⟩ := p
    simp only [trackAll] at h
    obtain ⟨c1, e1, h⟩ := bind_ok_iff.mp h
    obtain ⟨l1, e2, h⟩ := bind_ok_iff.mp h
    cases h
    obtain ⟨g1, g2⟩ := ih e2
    refine ⟨by simp [g1], ?_⟩
    simp only [List.cons_append, trackAll]
    rw [track_plus, e1, ok_bind, g2, ok_bind]

theorem runIxs_surplus (hq : Unwatched q) : ∀ {ixs : List Inner} {m : Mem} {l : List (Meta × Class)} {t : Nat} {y : Mem × List (Meta × Class) × Nat},
    runIxs x cpi m l t ixs = .ok y → y.2.1.length = l.length ∧ runIxs (x.plus more) cpi m (l ++ q) t ixs = .ok (y.1, y.2.1 ++ q, y.2.2) := by
  intro ixs
  induction ixs with
  | nil =>
    intro m l t y h
    cases h
    exact ⟨rfl, rfl⟩
  | cons i ixs ih =>
    intro m l t y h
    simp only [runIxs] at h
    obtain ⟨o, e1, h⟩ := bind_ok_iff.mp h
    obtain ⟨u, e2, h⟩ := bind_ok_iff.mp h
    obtain ⟨m1, e3, h⟩ := bind_ok_iff.mp h
    obtain ⟨l1, e4, h⟩ := bind_ok_iff.mp h
    obtain ⟨g1, g2⟩ := ih h
    obtain ⟨g3, g4⟩ := trackAll_surplus (more := more) hq e4
    refine ⟨g1.trans g3, ?_⟩
    simp only [runIxs]
    refine bind_ok_iff.mpr ⟨o, e1, bind_ok_iff.mpr ⟨u, e2, bind_ok_iff.mpr ⟨m1, ?_, bind_ok_iff.mpr ⟨_, g4, g2⟩⟩⟩⟩
    exact execInner_surplus e3

theorem settleOne_plus {a : Meta} {c : Class} {h : Option Bytes} {t : Nat} : settleOne (x.plus more) m a c h t = settleOne x m a c h t := by
  unfold settleOne
  cases c <;> rfl

theorem settleAll_surplus {t : Nat} (hq : Unwatched q) : ∀ {l : List (Meta × Class)} {hs : List (Option Bytes)} {m : Mem}, hs.length = l.length →
    settleAll x t m l hs = .ok m' → settleAll (x.plus more) t m (l ++ q) (hs ++ q.map fun _ => none) = .ok m' := by
  intro l
  induction l with
  | nil =>
    intro hs m hlen h
    obtain rfl : hs = [] := List.length_eq_zero_iff.mp hlen
    simp only [settleAll] at h
    cases h
    simp only [List.nil_append]
    induction q with
    | nil => rfl
    | cons p q ih =>
      obtain ⟨a, c⟩ := p
      have e : c = .none := hq (a, c) (by simp)
      subst e
      simp only [settleAll, List.map_cons, settleOne]
      rw [ok_bind]
      exact ih (fun p hp => hq p (by simp [hp]))
  | cons p l ih =>
    intro hs m hlen h
    obtain ⟨a, c⟩ := p
    cases hs with
    | nil => cases hlen
    | cons h1 hs =>
      simp only [settleAll] at h
      obtain ⟨m1, e1, h⟩ := bind_ok_iff.mp h
      simp only [List.cons_append, settleAll]
      rw [settleOne_plus, e1, ok_bind]
      exact ih (by simpa using hlen) h

theorem signLimited_surplus {cls cls' : List Class} (hl : x.metas.length = cls.length) (hq : Unwatched (more.zip cls')) (h : signLimited x cpi m cls = .ok m') :
    signLimited (x.plus more) cpi m (cls ++ cls') = .ok m' := by
  unfold signLimited at h ⊢
  obtain ⟨hs, e1, h⟩ := bind_ok_iff.mp h
  obtain ⟨⟨m1, acc, total⟩, e2, h⟩ := bind_ok_iff.mp h
  obtain ⟨g1, g2⟩ := snapAll_surplus (more := more) hq e1
  obtain ⟨g3, g4⟩ := runIxs_surplus (more := more) hq e2
  have ez : (x.plus more).metas.zip (cls ++ cls') = x.metas.zip cls ++ more.zip cls' := List.zip_append hl
  rw [ez]
  refine bind_ok_iff.mpr ⟨_, g2, bind_ok_iff.mpr ⟨_, g4, ?_⟩⟩
  exact settleAll_surplus hq (g1.trans g3.symm) h

end

section
variable {env : Env} {cpi : Cpi} {m m' : Mem} {metas more : List Meta} {swig : Meta} {rest : List Meta} {ix : Bytes}

theorem signWith_surplus {cls cls' : List Class} {wallet : Key} {seeds : List Bytes} {loc : ActLoc} {ixs : List Inner}
    (hl : metas.length = cls.length) (hq : Unwatched (more.zip cls')) (h : signWith env cpi m metas cls wallet seeds loc ixs = .ok m') :
    signWith env cpi m (metas ++ more) (cls ++ cls') wallet seeds loc ixs = .ok m' := by
  unfold signWith at h ⊢
  refine bind_mono_ok h fun free _ h => ?_
  split at h
  · rename_i e
    rw [if_pos e]
    exact execAll_surplus h
  · rename_i e
    rw [if_neg e]
    refine bind_mono_ok h fun pa _ h => bind_mono_ok h fun cu _ h => ?_
    exact signLimited_surplus (x := ⟨env, metas, loc.swig, wallet, seeds, loc, ixs, pa, cu⟩) hl hq h

theorem sign_surplus_limited {w : Wallet} {cls cls' : List Class} (ho : Open m swig.key w) (hb : ∀ r, w.role? (rd ix 4 4) = some r → ByTransaction r)
    (hl : (swig :: rest).length = cls.length) (hq : Unwatched (more.zip cls')) (h : signV2 env cpi m (swig :: rest) cls ix = .ok m') :
    signV2 env cpi m (swig :: rest ++ more) (cls ++ cls') ix = .ok m' := by
  unfold signV2 at h ⊢
  split at h
  · rename_i e
    cases e
    simp only [List.cons_append]
    refine bind_mono_ok h fun _ _ h => ?_
    obtain ⟨u2, h2, h⟩ := bind_ok_iff.mp h
    obtain ⟨u3, h3, h⟩ := bind_ok_iff.mp h
    have get : ∀ i, i < cls.length → (cls ++ cls').getD i .none = cls.getD i .none := fun i hi => by
      simp only [List.getD_eq_getElem?_getD]
      rw [List.getElem?_append_left hi]
    simp only [List.length_cons] at hl
    rw [get 0 (by omega), get 1 (by omega)]
    refine bind_ok_iff.mpr ⟨u2, h2, bind_ok_iff.mpr ⟨u3, h3, ?_⟩⟩
    refine bind_mono_ok h fun a ha h => bind_mono_ok h fun p hp h => ?_
    rw [ho.data, openSwig_enc ho.wf] at hp
    cases hp
    have e2 := (parseSign_ok ha).1
    obtain ⟨⟨p, v⟩, h4, h⟩ := bind_ok_iff.mp h
    have k := actAs_surplus (more := more) ho.wf (fun r hr => hb r (e2 ▸ hr)) h4
    refine bind_ok_iff.mpr ⟨(p, v), k, ?_⟩
    obtain ⟨ixs, h5, h⟩ := bind_ok_iff.mp h
    have k := decodeIxs_surplus (more := more) h5
    refine bind_ok_iff.mpr ⟨ixs, k, ?_⟩
    have k := signWith_surplus (more := more) (cls' := cls') (by simpa using hl) hq h
    exact k
  · cases h

theorem classify_unwatched {prev : List Meta} {cls : List Class} {c : List (Nat × Bytes)} {f a : Meta} {x : Class} (hf : isConfig m f.key = true)
    (hp : prev[0]? = some f) (hl : 2 ≤ prev.length) (hs : (m a.key).owner ≠ stakeId) (ht : (m a.key).owner ≠ tokenId) (h22 : (m a.key).owner ≠ token2022Id)
    (hn : findScope c a.key = none) (h : classify m prev cls (some c) a = .ok x) : x = .none := by
  unfold classify at h
  simp only [hp, hf, hn] at h
  by_cases e1 : (m a.key).owner = swigId
  · rw [if_pos e1] at h
    split at h
    · cases h; rfl
    · rw [if_neg (by omega)] at h
      cases h
      rfl
  · rw [if_neg e1, if_neg (by omega), if_neg hs, if_neg (by simp [ht, h22]), if_neg (by omega)] at h
    cases h
    rfl

theorem classifyAll_unwatched {w : Wallet} {cls : List Class} (ho : Open m swig.key w) (hp : Plain m w more)
    (ht : ∀ a ∈ more, (m a.key).owner ≠ tokenId ∧ (m a.key).owner ≠ token2022Id) (h : classifyAll m (swig :: rest) = .ok cls) (hr : rest ≠ []) :
    (swig :: rest).length = cls.length ∧ ∃ cls', classifyAll m (swig :: rest ++ more) = .ok (cls ++ cls') ∧ Unwatched (more.zip cls') := by
  have hf := isConfig_enc ho.wf ho.data ho.owner
  obtain ⟨c, hc⟩ : ∃ c, loadScopes w.encode = some c := by
    unfold loadScopes
    rw [splitParts_encode ho.wf]
    exact ⟨_, rfl⟩
  have hn := plain_none ho.wf hp hc
  simp only [classifyAll, List.cons_append] at h ⊢
  obtain ⟨x, h1, h2⟩ := bind_ok_iff.mp h
  unfold cacheOf at h2 ⊢
  rw [if_pos hf, ho.data, hc] at h2 ⊢
  obtain ⟨out, h3⟩ := classifyGo_of hf more (fun a ha => ⟨(hp a ha).1, hn a ha⟩) rest cls
  obtain ⟨cs, rfl, h4, h5⟩ := classifyGo_ok h3
  obtain ⟨cs0, rfl, h6, _⟩ := classifyGo_ok h2
  refine ⟨by simp [h6], cs, bind_ok_iff.mpr ⟨x, h1, ?_⟩, ?_⟩
  · rw [classifyGo_append]
    exact bind_ok_iff.mpr ⟨_, h2, h3⟩
  · intro p hp'
    obtain ⟨i, hi, e⟩ := List.getElem_of_mem hp'
    rw [List.getElem_zip] at e
    have hi1 : i < more.length := by rw [List.length_zip] at hi; omega
    have hi2 : i < cs.length := by omega
    obtain ⟨c', g1, g2⟩ := h5 i more[i] (List.getElem?_eq_getElem hi1)
    rw [List.getElem?_eq_getElem hi2] at g1
    cases g1
    subst e
    have ha : more[i] ∈ more := List.getElem_mem hi1
    have hlen : 0 < rest.length := List.length_pos_iff.mpr hr
    exact classify_unwatched hf (f := swig) (by simp) (by simp; omega) (hp _ ha).1 (ht _ ha).1 (ht _ ha).2 (hn _ ha) g2

end

end Verif
