import Verif.Spec.Scope
import Verif.Proofs.Tracked
import Verif.Props.Roles

/-! Program-scope accounts of a settled signing. -/

namespace Verif

/-- The scopes among the actions of a role. -/
def scopeData (as : List Act) : List Bytes := (as.filter fun a => decide (a.ty = P.programScope)).map Act.data

theorem scopesOfGo_enc : ∀ (as : List Act) (pre : Bytes) (fuel : Nat), (∀ a ∈ as, a.WF) → pre.length + actsSize as < 2 ^ 32 →
    as.length ≤ fuel → scopesOfGo (pre ++ encActs pre.length as) fuel pre.length = scopeData as := by
  intro as
  induction as with
  | nil =>
    intro pre fuel _ _ _
    cases fuel with
    | zero => rfl
    | succ n => simp [scopesOfGo, encActs, scopeData]
  | cons a as ih =>
    intro pre fuel hwf hsz hf
    cases fuel with
    | zero => simp at hf
    | succ n =>
      have ha := hwf a (by simp)
      simp only [actsSize_cons] at hsz
      have hsa : pre.length + a.size < 2 ^ 32 := by omega
      obtain ⟨f1, f2, f3, f4⟩ := act_fields pre a as ha hsa
      have hlen : (pre ++ encActs pre.length (a :: as)).length = pre.length + (a.size + actsSize as) := by simp
      have hsize : a.size = 8 + a.data.length := rfl
      simp only [scopesOfGo]
      rw [f1, f2, if_neg (by omega)]
      have hstep : pre ++ encActs pre.length (a :: as) = (pre ++ encAct (pre.length + a.size) a) ++
          encActs (pre ++ encAct (pre.length + a.size) a).length as := by
        have : (pre ++ encAct (pre.length + a.size) a).length = pre.length + a.size := by
          simp [encAct, Act.size]; omega
        rw [this]; simp [encActs]
      have hpl : (pre ++ encAct (pre.length + a.size) a).length = pre.length + 8 + a.data.length := by
        simp [encAct]; omega
      have hrec : scopesOfGo (pre ++ encActs pre.length (a :: as)) n (pre.length + 8 + a.data.length) = scopeData as := by
        rw [hstep, ← hpl]
        exact ih _ n (fun b hb => hwf b (by simp [hb])) (by omega) (by simpa using hf)
      by_cases hty : a.ty = P.programScope
      · have hl : a.data.length = 144 := by
          unfold Act.WF at ha
          rw [hty] at ha
          exact (Option.some.inj ha).symm
        rw [if_pos ⟨hty, hl⟩, hrec]
        have f5 : sl (pre ++ encActs pre.length (a :: as)) (pre.length + 8) (pre.length + 152) = a.data := by
          rw [← f4, hl]
        rw [f5]
        simp [scopeData, hty]
      · rw [if_neg (fun h => hty h.1), hrec]
        simp [scopeData, hty]

theorem scopesOfRole_enc {w : Wallet} (hw : w.WF) (id : Nat) :
    scopesOfRole w.encode id = match w.role? id with
      | none => []
      | some r => (scopeData r.actions).map fun d => (id % 256, d) := by
  unfold scopesOfRole
  rcases getRole_wallet hw id with ⟨h1, h2⟩ | ⟨r, v, h1, h2, _, _, _, _, h3⟩
  · rw [h1, h2]
  · rw [h1, h2]
    simp only
    have hr := hw.roles r (role?_mem h1).1
    have hsz : actsSize r.actions < 2 ^ 32 := by
      have h4 := hw.size
      have h5 : r.size ≤ rolesSize w.roles := le_sum_of_mem (List.mem_map.mpr ⟨r, (role?_mem h1).1, rfl⟩)
      have h6 : r.size = 16 + r.auth.length + actsSize r.actions := rfl
      omega
    have hfuel : r.actions.length ≤ (encActs 0 r.actions).length := by have := length_le_actsSize r.actions; simp; omega
    have := scopesOfGo_enc r.actions [] (encActs 0 r.actions).length hr.acts (by simpa using hsz) hfuel
    simp only [List.nil_append, List.length_nil] at this
    rw [h3, this]

theorem findSome?_range {β : Type} {g : Nat → Option β} {n i : Nat} {v : β} (hi : i < n) (h0 : ∀ j, j < i → g j = none) (hv : g i = some v) :
    (List.range n).findSome? g = some v := by
  obtain ⟨k, rfl⟩ : ∃ k, n = i + (k + 1) := ⟨n - i - 1, by omega⟩
  rw [List.range_add, List.findSome?_append]
  have : (List.range i).findSome? g = none := by
    rw [List.findSome?_eq_none_iff]
    intro j hj
    exact h0 j (List.mem_range.mp hj)
  rw [this, List.range_succ_eq_map]
  simp [hv]

theorem payload?_scope (as : List Act) (k : Key) :
    payload? as P.programScope k = (scopeData as).find? fun d => sl d 80 112 == k := by
  unfold payload? scopeData
  rw [List.find?_map, List.find?_filter]
  congr 2
  funext a
  simp only [Function.comp, Act.grants]
  by_cases h : a.ty = P.programScope
  · by_cases h2 : sl a.data 80 112 = k
    · have : keyOf P.programScope a.data = k := h2
      simp [h, h2, this]
    · have : keyOf P.programScope a.data ≠ k := h2
      have hr : repeatable P.programScope = true := rfl
      simp [h, h2, this, hr]
  · simp [h]

theorem findScope_enc {w : Wallet} (hw : w.WF) {c : List (Nat × Bytes)} (hc : loadScopes w.encode = some c) (k : Key) :
    findScope c k = (List.range w.roleCounter).findSome? fun id =>
      (w.role? id).bind fun r => (payload? r.actions P.programScope k).map fun d => (id % 256, d) := by
  unfold loadScopes at hc
  rw [splitParts_encode hw] at hc
  cases hc
  unfold findScope
  rw [Wallet.encode_header hw, List.find?_flatMap]
  congr 1
  funext id
  rw [scopesOfRole_enc hw]
  cases w.role? id with
  | none => rfl
  | some r =>
    simp only [Option.bind_some]
    rw [List.find?_map, payload?_scope]
    rfl

/-- The first role (by id) with a scope for the account decides. -/
theorem findScope_first {w : Wallet} (hw : w.WF) {c : List (Nat × Bytes)} (hc : loadScopes w.encode = some c) {k : Key} {r : Role} {d : Bytes}
    (hr : r ∈ w.roles) (hd : payload? r.actions P.programScope k = some d)
    (hfirst : ∀ r' ∈ w.roles, r'.id < r.id → payload? r'.actions P.programScope k = none) :
    findScope c k = some (r.id % 256, d) := by
  rw [findScope_enc hw hc]
  refine findSome?_range (i := r.id) (hw.idsLt r hr) (fun j hj => ?_) ?_
  · cases h : w.role? j with
    | none => rfl
    | some r' =>
      obtain ⟨h1, h2⟩ := role?_mem h
      simp [hfirst r' h1 (by omega)]
  · have : w.role? r.id = some r := hw.role?_iff.mpr ⟨hr, rfl⟩
    rw [this]
    simp [hd]

/-- Some role has a scope for the account: there is an entry. -/
theorem findScope_some {w : Wallet} (hw : w.WF) {c : List (Nat × Bytes)} (hc : loadScopes w.encode = some c) {k : Key} {r : Role}
    (hr : r ∈ w.roles) (hd : (payload? r.actions P.programScope k).isSome = true) : ∃ e, findScope c k = some e := by
  cases h : findScope c k with
  | some e => exact ⟨e, rfl⟩
  | none =>
    rw [findScope_enc hw hc, List.findSome?_eq_none_iff] at h
    have := h r.id (List.mem_range.mpr (hw.idsLt r hr))
    have e : w.role? r.id = some r := hw.role?_iff.mpr ⟨hr, rfl⟩
    rw [e] at this
    obtain ⟨d, hd⟩ := Option.isSome_iff_exists.mp hd
    simp [hd] at this


/-- An ordinary account with a scope is recognised. -/
theorem classify_scope {m : Mem} {f w a : Meta} {prev : List Meta} {c0 c : Class} {cls : List Class} {cache : List (Nat × Bytes)}
    (h : classify m (f :: w :: prev) (c0 :: .wallet :: cls) (some cache) a = .ok c) (ho : Ordinary (m a.key)) {e : Nat × Bytes}
    (he : findScope cache a.key = some e) :
    ∃ b, readScopeBalance (m a.key).data (ProgramScope.decode e.2) = .ok b ∧ c = .scope e.1 b 0 := by
  obtain ⟨n1, n2, n3, n4⟩ := ho
  unfold classify at h
  dsimp only at h
  rw [if_neg n1, if_neg (fun h => by simp at h), if_neg n2, if_neg (fun h => by rcases h.1 with h | h; exacts [n4 h, n3 h]),
    if_neg (by simp), he] at h
  obtain ⟨b, h1, h⟩ := bind_ok_iff.mp h
  cases h
  exact ⟨b, h1, rfl⟩

section
variable {env : Env} {cpi : Cpi} {m m' : Mem} {swig wallet : Meta} {rest : List Meta} {ix : Bytes} {w : Wallet} {r : Role}
  {ixs : List Inner} {m1 : Mem} {x : SignCtx} {cls : List Class} {hs : List (Option Bytes)} {total : Nat} {acc : List (Meta × Class)}
  {as' : List Act}

theorem Out.cache (o : Out env cpi m m' swig wallet rest ix w r ixs m1 x cls hs total acc as') (hw : w.WF)
    (hd : (m swig.key).data = w.encode) : ∃ c, cacheOf m swig.key = some c ∧ loadScopes w.encode = some c := by
  have h1 : isConfig m swig.key = true := by
    have h2 := Wallet.encode_length hw
    unfold isConfig
    have h3 : (m swig.key).data.getD 0 0 = 1 := by
      rw [hd]; unfold Wallet.encode Header.encode Wallet.header; simp
    have h4 : 48 ≤ (m swig.key).data.length := by rw [hd]; omega
    rw [h3, decide_eq_true o.owner, decide_eq_true h4]
    rfl
  unfold cacheOf
  rw [if_pos h1, hd]
  unfold loadScopes
  rw [splitParts_encode hw]
  exact ⟨_, rfl, rfl⟩

/-- An ordinary account for which some role has a scope. -/
theorem Out.scoped (o : Out env cpi m m' swig wallet rest ix w r ixs m1 x cls hs total acc as') (hw : w.WF)
    (hd : (m swig.key).data = w.encode) {i : Nat} {a : Meta} (hi : rest[i]? = some a) (ho : Ordinary (m a.key)) {r' : Role}
    (hr' : r' ∈ w.roles) (hs' : (payload? r'.actions P.programScope a.key).isSome = true) :
    a.key ≠ swig.key ∧ ∃ c e b0 b s h, loadScopes w.encode = some c ∧ findScope c a.key = some e ∧
      readScopeBalance (m a.key).data (ProgramScope.decode e.2) = .ok b0 ∧ acc[i + 1]? = some (a, .scope e.1 b s) ∧ (b0 < 2 ^ 128 → b0 ≤ b + s) ∧
      OkOf x m1 r.actions a h (.scope e.1 b s) ∧
      (∃ j, snap x (m.setData swig.key (w.used (rd ix 4 4)).encode) j a (.scope e.1 b0 0) = .ok h) ∧
      ((b = b0 ∧ m1 = m.setData swig.key (w.used (rd ix 4 4)).encode) ∨ (a.writable = true → Cur x m1 a (.scope e.1 b s))) := by
  have hne : a.key ≠ swig.key := by
    intro e
    have := o.owner
    rw [← e] at this
    exact ho.1 this
  obtain ⟨c, h1, h2⟩ := o.cache hw hd
  obtain ⟨e, h3⟩ := findScope_some hw h2 hr' hs'
  obtain ⟨c0, cl, h4, h5⟩ := o.classify hi
  rw [h1] at h5
  obtain ⟨b0, h6, rfl⟩ := classify_scope h5 ho h3
  obtain ⟨c', h, e1, e2, e3, e4, e5, e6⟩ := o.account hi h4
  refine ⟨hne, c, e, b0, ?_⟩
  have : ∃ b s, c' = .scope e.1 b s ∧ (b0 < 2 ^ 128 → b0 ≤ b + s) := by
    cases e3 with
    | same => exact ⟨_, _, rfl, fun _ => by omega⟩
    | scope h => exact ⟨_, _, rfl, h⟩
  obtain ⟨b, s, rfl, hle⟩ := this
  refine ⟨b, s, h, h2, h3, h6, e1, hle, e4, e5, ?_⟩
  rcases e6 with ⟨g1, g2⟩ | g
  · cases g1
    exact .inl ⟨rfl, g2⟩
  · exact .inr g

end

end Verif
