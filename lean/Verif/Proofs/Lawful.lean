import Verif.Proofs.Total
import Verif.Spec.Lawful

/-! A request as a run of steps that each obey the rule on owners. -/

namespace Verif

/-- A run from `m0` to `m`, where the configuration account still belongs to the program. -/
structure Lw (ok : Key → Prop) (cpi : Cpi) (o : Key) (m0 m : Mem) : Prop where
  run : RunsAs ok cpi m0 m
  own : (m o).owner = swigId

section
variable {ok : Key → Prop} {cpi : Cpi} {o : Key} {m0 : Mem} {env : Env} {m m' : Mem}

theorem Lw.setAt {k : Key} (h : Lw ok cpi o m0 m) (hk : (m k).owner = swigId) (d : Bytes) : Lw ok cpi o m0 (m.setData k d) :=
  ⟨.own h.run (fun x => by
    by_cases hx : x = k
    · subst hx; exact .inr (.inl hk)
    · exact .inl (by simp [Mem.setData, Mem.set, hx])), by simpa using h.own⟩

theorem Lw.setData (h : Lw ok cpi o m0 m) (d : Bytes) : Lw ok cpi o m0 (m.setData o d) := h.setAt h.own d

theorem Lw.realloc {l : Nat} (h : Lw ok cpi o m0 m) (e : realloc m o l = .ok m') : Lw ok cpi o m0 m' := by
  obtain ⟨_, rfl⟩ := realloc_ok e; exact h.setData _

theorem lawful_sysTransfer {src dst : Meta} {l : Nat} (e : Verif.sysTransfer m src dst l = .ok m') :
    Lawful systemId m m' ∧ (∀ k, (m' k).owner = (m k).owner) ∧ src.signer = true ∧ ∀ k, k ≠ src.key → Spared m m' k := by
  obtain ⟨h0, h1, _, h2, rfl⟩ := sysTransfer_ok e
  refine ⟨fun k => ?_, fun k => by simp [Mem.setLamports, Mem.set]; split <;> (try split) <;> simp_all, h0, fun k hs => ?_⟩
  rotate_left
  · by_cases hd : k = dst.key
    · subst hd; simp [Spared, Mem.setLamports, Mem.set, hs]
    · simp [Spared, Mem.setLamports, Mem.set, hs, hd]
  by_cases hs : k = src.key
  · subst hs; exact .inr (.inl h1)
  · by_cases hd : k = dst.key
    · subst hd; exact .inr (.inr (by simp [Mem.setLamports, Mem.set, hs]))
    · exact .inl (by simp [Mem.setLamports, Mem.set, hs, hd])

/-- What a transfer of the System program costs the source, the source signs for. -/
theorem signed_sysTransfer {src dst : Meta} {l : Nat} (hs : src.signer = true → ok src.key) (e : Verif.sysTransfer m src dst l = .ok m') (k : Key) :
    ok k ∨ Spared m m' k := by
  obtain ⟨_, _, h1, h2⟩ := lawful_sysTransfer e
  by_cases hk : k = src.key
  · exact .inl (hk ▸ hs h1)
  · exact .inr (h2 k hk)

theorem Lw.sysTransfer {src dst : Meta} {l : Nat} (h : Lw ok cpi o m0 m) (hs : src.signer = true → ok src.key)
    (e : sysTransfer m src dst l = .ok m') : Lw ok cpi o m0 m' :=
  ⟨.system h.run (lawful_sysTransfer e).1 (signed_sysTransfer hs e), by rw [(lawful_sysTransfer e).2.1]; exact h.own⟩

/-- Own lamports given to another account, with the addition of the program. -/
theorem Lw.move64 {b : Key} {x n : Nat} (h : Lw ok cpi o m0 m) (hb : (m.setLamports o x b).lamports + n < 2 ^ 64) :
    Lw ok cpi o m0 ((m.setLamports o x).setLamports b (add64 (m.setLamports o x b).lamports n)) := by
  refine ⟨.own h.run (fun k => ?_), ?_⟩
  · by_cases ho : k = o
    · subst ho; exact .inr (.inl h.own)
    · by_cases hk : k = b
      · subst hk
        refine .inr (.inr ?_)
        have : add64 (m k).lamports n = (m k).lamports + n := by
          simp [Mem.setLamports, Mem.set, ho] at hb
          unfold add64; rw [Nat.mod_eq_of_lt hb]
        simp [Mem.setLamports, Mem.set, ho, this]
      · exact .inl (by simp [Mem.setLamports, Mem.set, ho, hk])
  · have := h.own
    by_cases hk : o = b <;> simp [Mem.setLamports, Mem.set, hk] <;> simp_all

theorem Bal.fits {ks : List Key} {t : Nat} {a b : Key} {x n : Nat} (h : Bal ks t m) (ha : a ∈ ks) (hb : b ∈ ks)
    (hx : x + n = (m a).lamports) : (m.setLamports a x b).lamports + n < 2 ^ 64 := by
  have h1 := (h.move ha hb hx).le hb
  have h3 : (((m.setLamports a x).setLamports b ((m.setLamports a x b).lamports + n)) b).lamports = (m.setLamports a x b).lamports + n := by
    simp [Mem.setLamports, Mem.set]
  have := h.small
  omega

theorem Lw.sysCreate {src dst : Meta} {l s : Nat} (h : RunsAs ok cpi m0 m) (hs : src.signer = true → ok src.key) (hdst : ok dst.key)
    (e : sysCreate m src dst l s swigId = .ok m') : Lw ok cpi dst.key m0 m' := by
  unfold Verif.sysCreate at e
  split at e
  · cases e
  · split at e
    · cases e
    · rename_i hd
      split at e
      · cases e
      · refine Lw.sysTransfer ⟨.system h (fun k => ?_) (fun k => ?_), by simp [Mem.set]⟩ hs e
        rotate_left
        · by_cases hk : k = dst.key
          · exact .inl (hk ▸ hdst)
          · exact .inr (by simp [Spared, Mem.set, hk])
        by_cases hk : k = dst.key
        · subst hk
          exact .inr (.inl (Classical.byContradiction fun hn => hd (.inr (.inr hn))))
        · exact .inl (by simp [Mem.set, hk])

theorem Lw.alloc {seeds : List Bytes} {acct : Meta} {s : Nat} (h : Lw ok cpi o m0 m) (hs : acct.signer = true → ok acct.key)
    (hp : ∀ k, env.pda seeds = some k → ok k)
    (e : sysAllocAssign env m seeds acct s swigId = .ok m') : Lw ok cpi o m0 m' := by
  have e1 := sysAllocAssign_ok e
  unfold sysAllocAssign at e
  split at e
  · cases e
  · rename_i hpk
    split at e
    · cases e
    · rename_i hsg
      split at e
      · cases e
      · rename_i hd
        subst e1
        refine ⟨.system h.run (fun k => ?_) (fun k => ?_), ?_⟩
        rotate_left
        · by_cases hk : k = acct.key
          · refine .inl (hk ▸ ?_)
            cases hx : acct.signer with
            | true => exact hs hx
            | false => exact Classical.byContradiction fun hn => hsg (.inr ⟨hx, fun hq => hn (hq ▸ hp _ hpk)⟩)
          · exact .inr (by simp [Spared, Mem.set, hk])
        rotate_left
        · by_cases hk : k = acct.key
          · subst hk; exact .inr (.inl (Classical.byContradiction fun hn => hd (.inl hn)))
          · exact .inl (by simp [Mem.set, hk])
        · by_cases hk : o = acct.key <;> simp [Mem.set, hk]
          exact h.own

theorem Lw.topUp {payer swig : Meta} {l : Nat} (h : Lw ok cpi o m0 m) (hs : payer.signer = true → ok payer.key) (e : topUp env m payer swig l = .ok m') : Lw ok cpi o m0 m' := by
  unfold Verif.topUp at e
  dsimp only at e
  split at e
  · exact h.sysTransfer hs e
  · cases e; exact h

theorem Lw.fundWallet {payer wallet : Meta} (h : Lw ok cpi o m0 m) (hs : payer.signer = true → ok payer.key) (e : fundWallet env m payer wallet = .ok m') : Lw ok cpi o m0 m' := by
  unfold Verif.fundWallet at e
  dsimp only at e
  split at e
  · exact h.sysTransfer hs e
  · cases e; exact h

theorem Lw.fundState {payer state : Meta} (h : Lw ok cpi o m0 m) (hs : payer.signer = true → ok payer.key) (e : fundState env m payer state = .ok m') : Lw ok cpi o m0 m' := by
  unfold Verif.fundState at e
  split at e
  · exact h.sysTransfer hs e
  · cases e; exact h

theorem Lw.fundEmpty {payer sub : Meta} (h : Lw ok cpi o m0 m) (hs : payer.signer = true → ok payer.key) (e : fundEmpty env m payer sub = .ok m') : Lw ok cpi o m0 m' :=
  h.fundWallet hs e

theorem Lw.signedTransfer {seeds : List Bytes} {src dst : Meta} {l : Nat} (h : Lw ok cpi o m0 m) (hs : src.signer = true → ok src.key)
    (hp : ∀ k, env.pda seeds = some k → ok k)
    (e : signedTransfer env m seeds src dst l = .ok m') : Lw ok cpi o m0 m' := by
  unfold Verif.signedTransfer at e
  split at e
  · cases e
  · rename_i hk
    refine h.sysTransfer (fun hx => ?_) e
    simp only [Bool.or_eq_true, decide_eq_true_eq] at hx
    rcases hx with hx | hx
    · exact hs hx
    · exact hx ▸ hp _ hk

theorem Lw.growFor {payer swig : Meta} {l : Nat} (h : Lw ok cpi swig.key m0 m) (hs : payer.signer = true → ok payer.key)
    (e : growFor env m payer swig l = .ok m') : Lw ok cpi swig.key m0 m' := by
  unfold Verif.growFor at e
  split at e
  · obtain ⟨m1, h1, e⟩ := bind_ok_iff.mp e
    exact (h.realloc h1).topUp hs e
  · cases e; exact h

theorem Lw.shrinkBy {payer swig : Key} {l : Nat} {ks : List Key} {t : Nat} (h : Lw ok cpi swig m0 m) (hb : Bal ks t m) (hk : swig ∈ ks)
    (hp : payer ∈ ks) (e : shrinkBy env m payer swig l = .ok m') : Lw ok cpi swig m0 m' := by
  unfold Verif.shrinkBy at e
  split at e
  · obtain ⟨m1, h1, e⟩ := bind_ok_iff.mp e
    have h := h.realloc h1
    have hb := hb.realloc hk h1
    dsimp only at e
    split at e
    · cases e
      exact h.move64 (hb.fits hk hp (by omega))
    · cases e; exact h
  · cases e; exact h

theorem Lw.refund {payer swig : Key} {old new : Nat} {ks : List Key} {t : Nat} (h : Lw ok cpi swig m0 m) (hb : Bal ks t m) (hk : swig ∈ ks)
    (hp : payer ∈ ks) (hr : env.RentMono) (hl : new ≤ old) (hx : env.rent old ≤ (m swig).lamports) :
    Lw ok cpi swig m0 (removeRefund env m swig payer old new) := by
  have h1 := hr _ _ hl
  have h2 := hb.le hk
  have h3 := hb.small
  have e1 : sub64 (env.rent old) (env.rent new) = env.rent old - env.rent new := by unfold sub64; omega
  have e2 : sub64 (m swig).lamports (env.rent old - env.rent new) = (m swig).lamports - (env.rent old - env.rent new) := by
    unfold sub64; omega
  unfold removeRefund
  dsimp only
  rw [e1, e2]
  exact h.move64 (hb.fits hk hp (by omega))

/-! ## Seeds -/

/-- `ok` covers the addresses of the wallet whose data is `d`. -/
def Covers (env : Env) (ok : Key → Prop) (d : Bytes) (swig : Key) : Prop :=
  ∀ seeds, OwnSeeds (Header.decode d).id swig seeds → ∀ k, env.pda seeds = some k → ok k

theorem openSwig_header {d : Bytes} {p : Parts} (h : openSwig d = .ok p) : p.header = Header.decode d := by
  unfold openSwig at h
  split at h
  · cases h
  · split at h
    · cases h
    · unfold splitParts at h
      obtain ⟨_, _, h⟩ := bind_ok_iff.mp h
      cases h; rfl

theorem actAs_header {metas : List Meta} {p p' : Parts} {r : RoleView} {id : Nat} {payload data : Bytes}
    (h : actAs env m metas p id payload data = .ok (p', r)) : p'.header = p.header := by
  unfold actAs at h
  obtain ⟨r, _, h⟩ := bind_ok_iff.mp h
  cases r with
  | none => cases h
  | some r =>
    obtain ⟨_, _, h⟩ := bind_ok_iff.mp h
    cases h; rfl

theorem openSwigV2_header {d : Bytes} {p : Parts} (h : openSwigV2 d = .ok p) : p.header = Header.decode d := by
  unfold openSwigV2 at h
  obtain ⟨_, _, h⟩ := bind_ok_iff.mp h
  obtain ⟨_, _, h⟩ := bind_ok_iff.mp h
  obtain ⟨_, _, h⟩ := bind_ok_iff.mp h
  obtain ⟨_, _, h⟩ := bind_ok_iff.mp h
  exact openSwig_header h

theorem drawSubId_id {metas : List Meta} {swig : Key} {role id : Nat} {payload data : Bytes} {p : Parts} {b : Bool}
    (h : drawSubId env m metas swig role payload data = .ok (p, id, b)) : p.header.id = (Header.decode (m swig).data).id := by
  unfold drawSubId at h
  obtain ⟨p0, h0, h⟩ := bind_ok_iff.mp h
  obtain ⟨⟨p1, r1⟩, h1, h⟩ := bind_ok_iff.mp h
  obtain ⟨_, _, h⟩ := bind_ok_iff.mp h
  obtain ⟨_, _, h⟩ := bind_ok_iff.mp h
  obtain ⟨_, _, h⟩ := bind_ok_iff.mp h
  obtain ⟨_, _, h⟩ := bind_ok_iff.mp h
  cases h
  show p1.header.id = _
  rw [actAs_header h1, openSwigV2_header h0]

theorem actScoped_header {metas : List Meta} {swig : Key} {role ty id : Nat} {payload data : Bytes} {p : Parts} {r : RoleView}
    (h : actScoped env m metas swig role ty id payload data = .ok (p, r)) : p.header = Header.decode (m swig).data := by
  unfold actScoped at h
  obtain ⟨p0, h0, h⟩ := bind_ok_iff.mp h
  obtain ⟨⟨p1, r1⟩, h1, h⟩ := bind_ok_iff.mp h
  obtain ⟨_, _, h⟩ := bind_ok_iff.mp h
  cases h
  rw [actAs_header h1, openSwigV2_header h0]

/-! ## Management -/

theorem lw_add {swig payer sys : Meta} {rest : List Meta} {ix : Bytes} (h : (m swig.key).owner = swigId → Lw ok cpi swig.key m0 m)
    (hpay : payer.signer = true → ok payer.key)
    (e : addAuthorityV1 env m (swig :: payer :: sys :: rest) ix = .ok m') : Lw ok cpi swig.key m0 m' := by
  simp only [addAuthorityV1] at e
  obtain ⟨_, _, e⟩ := bind_ok_iff.mp e
  obtain ⟨_, _, e⟩ := bind_ok_iff.mp e
  obtain ⟨_, _, e⟩ := bind_ok_iff.mp e
  obtain ⟨_, _, e⟩ := bind_ok_iff.mp e
  obtain ⟨_, _, e⟩ := bind_ok_iff.mp e
  obtain ⟨_, _, e⟩ := bind_ok_iff.mp e
  obtain ⟨⟨_, _⟩, _, e⟩ := bind_ok_iff.mp e
  obtain ⟨_, _, e⟩ := bind_ok_iff.mp e
  obtain ⟨_, _, e⟩ := bind_ok_iff.mp e
  obtain ⟨_, _, e⟩ := bind_ok_iff.mp e
  obtain ⟨m1, h1, e⟩ := bind_ok_iff.mp e
  obtain ⟨m2, h2, e⟩ := bind_ok_iff.mp e
  obtain ⟨_, _, e⟩ := bind_ok_iff.mp e
  have h := h (require_ok_iff.mp (by assumption))
  cases e
  exact (((h.setData _).realloc h1).topUp hpay h2).setData _

theorem lw_remove {swig payer sys : Meta} {rest : List Meta} {ix : Bytes} (h : (m swig.key).owner = swigId → Lw ok cpi swig.key m0 m)
    {ks : List Key} {t : Nat} (hb : Bal ks t m) (hk : swig.key ∈ ks) (hp : payer.key ∈ ks) (hr : env.RentMono) (hx : Exempt env m swig.key)
    (e : removeAuthorityV1 env m (swig :: payer :: sys :: rest) ix = .ok m') : Lw ok cpi swig.key m0 m' := by
  simp only [removeAuthorityV1] at e
  obtain ⟨_, _, e⟩ := bind_ok_iff.mp e
  obtain ⟨_, _, e⟩ := bind_ok_iff.mp e
  obtain ⟨_, _, e⟩ := bind_ok_iff.mp e
  obtain ⟨_, _, e⟩ := bind_ok_iff.mp e
  obtain ⟨_, _, e⟩ := bind_ok_iff.mp e
  obtain ⟨_, _, e⟩ := bind_ok_iff.mp e
  obtain ⟨⟨_, _⟩, _, e⟩ := bind_ok_iff.mp e
  obtain ⟨_, _, e⟩ := bind_ok_iff.mp e
  obtain ⟨_, _, e⟩ := bind_ok_iff.mp e
  obtain ⟨_, _, e⟩ := bind_ok_iff.mp e
  obtain ⟨_, _, e⟩ := bind_ok_iff.mp e
  obtain ⟨⟨s, b, removed⟩, _, e⟩ := bind_ok_iff.mp e
  obtain ⟨m1, h1, e⟩ := bind_ok_iff.mp e
  obtain ⟨_, _, e⟩ := bind_ok_iff.mp e
  have h := h (require_ok_iff.mp (by assumption))
  cases e
  refine Lw.setData (Lw.realloc ?_ h1) _
  refine (h.setData _).refund (hb.setData hk _) hk hp hr (Nat.sub_le _ _) ?_
  simpa [Exempt] using hx

theorem lw_update {swig payer sys : Meta} {rest : List Meta} {ix : Bytes}  {ks : List Key} {t : Nat} (hb : Bal ks t m) (hk : swig.key ∈ ks) (hp : payer.key ∈ ks) (h : (m swig.key).owner = swigId → Lw ok cpi swig.key m0 m)
    (hpay : payer.signer = true → ok payer.key)
    (e : updateAuthorityV1 env m (swig :: payer :: sys :: rest) ix = .ok m') : Lw ok cpi swig.key m0 m' := by
  simp only [updateAuthorityV1] at e
  obtain ⟨_, _, e⟩ := bind_ok_iff.mp e
  obtain ⟨_, _, e⟩ := bind_ok_iff.mp e
  obtain ⟨_, _, e⟩ := bind_ok_iff.mp e
  obtain ⟨_, _, e⟩ := bind_ok_iff.mp e
  obtain ⟨_, _, e⟩ := bind_ok_iff.mp e
  obtain ⟨⟨_, _⟩, _, e⟩ := bind_ok_iff.mp e
  obtain ⟨_, _, e⟩ := bind_ok_iff.mp e
  obtain ⟨_, _, e⟩ := bind_ok_iff.mp e
  obtain ⟨⟨_, _, _⟩, _, e⟩ := bind_ok_iff.mp e
  obtain ⟨m1, h1, e⟩ := bind_ok_iff.mp e
  obtain ⟨⟨_, _⟩, _, e⟩ := bind_ok_iff.mp e
  obtain ⟨m2, h2, e⟩ := bind_ok_iff.mp e
  obtain ⟨_, _, e⟩ := bind_ok_iff.mp e
  have h := h (require_ok_iff.mp (by assumption))
  cases e
  exact Lw.setData (Lw.shrinkBy (((h.setData _).growFor hpay h1).setData _) (((hb.setData hk _).growFor hk hp h1).setData hk _) hk hp h2) _

theorem lw_append {swig payer : Meta} {roleId : Nat} {acts : Bytes}  (h : Lw ok cpi swig.key m0 m)
    (hpay : payer.signer = true → ok payer.key)
    (e : appendActions env m swig payer roleId acts = .ok m') : Lw ok cpi swig.key m0 m' := by
  simp only [appendActions] at e
  obtain ⟨_, _, e⟩ := bind_ok_iff.mp e
  obtain ⟨_, _, e⟩ := bind_ok_iff.mp e
  obtain ⟨⟨_, _, _⟩, _, e⟩ := bind_ok_iff.mp e
  obtain ⟨m1, h1, e⟩ := bind_ok_iff.mp e
  obtain ⟨⟨_, _⟩, _, e⟩ := bind_ok_iff.mp e
  cases e
  exact (h.growFor hpay h1).setData _

theorem lw_claimer {swig payer sys : Meta} {rest : List Meta} {ix : Bytes} (h : (m swig.key).owner = swigId → Lw ok cpi swig.key m0 m)
    (hpay : payer.signer = true → ok payer.key)
    (e : setRentClaimerV1 env m (swig :: payer :: sys :: rest) ix = .ok m') : Lw ok cpi swig.key m0 m' := by
  simp only [setRentClaimerV1] at e
  obtain ⟨_, _, e⟩ := bind_ok_iff.mp e
  obtain ⟨_, _, e⟩ := bind_ok_iff.mp e
  obtain ⟨_, _, e⟩ := bind_ok_iff.mp e
  obtain ⟨_, _, e⟩ := bind_ok_iff.mp e
  obtain ⟨_, _, e⟩ := bind_ok_iff.mp e
  obtain ⟨_, _, e⟩ := bind_ok_iff.mp e
  obtain ⟨_, _, e⟩ := bind_ok_iff.mp e
  obtain ⟨_, _, e⟩ := bind_ok_iff.mp e
  obtain ⟨⟨_, _⟩, _, e⟩ := bind_ok_iff.mp e
  obtain ⟨_, _, e⟩ := bind_ok_iff.mp e
  obtain ⟨_, _, e⟩ := bind_ok_iff.mp e
  obtain ⟨_, _, e⟩ := bind_ok_iff.mp e
  obtain ⟨_, _, e⟩ := bind_ok_iff.mp e
  obtain ⟨_, _, e⟩ := bind_ok_iff.mp e
  obtain ⟨m1, h1, e⟩ := bind_ok_iff.mp e
  obtain ⟨m2, h2, e⟩ := bind_ok_iff.mp e
  obtain ⟨_, _, e⟩ := bind_ok_iff.mp e
  have h := h (require_ok_iff.mp (by assumption))
  cases e
  exact (((h.setData _).realloc h1).topUp hpay h2).setData _

theorem lw_session {swig payer sys : Meta} {rest : List Meta} {ix : Bytes} (h : (m swig.key).owner = swigId → Lw ok cpi swig.key m0 m)
    (e : createSessionV1 env m (swig :: payer :: sys :: rest) ix = .ok m') : Lw ok cpi swig.key m0 m' := by
  simp only [createSessionV1] at e
  obtain ⟨_, _, e⟩ := bind_ok_iff.mp e
  obtain ⟨_, _, e⟩ := bind_ok_iff.mp e
  obtain ⟨_, _, e⟩ := bind_ok_iff.mp e
  obtain ⟨_, _, e⟩ := bind_ok_iff.mp e
  obtain ⟨_, _, e⟩ := bind_ok_iff.mp e
  obtain ⟨_, _, e⟩ := bind_ok_iff.mp e
  have h := h (require_ok_iff.mp (by assumption))
  cases e
  exact h.setData _

theorem lw_replace {swig : Meta} {rest : List Meta} {ix : Bytes} (h : (m swig.key).owner = swigId → Lw ok cpi swig.key m0 m)
    (e : replaceAuthorityV1 env m (swig :: rest) ix = .ok m') : Lw ok cpi swig.key m0 m' := by
  simp only [replaceAuthorityV1] at e
  obtain ⟨_, _, e⟩ := bind_ok_iff.mp e
  obtain ⟨_, _, e⟩ := bind_ok_iff.mp e
  obtain ⟨_, _, e⟩ := bind_ok_iff.mp e
  obtain ⟨⟨_, _⟩, _, e⟩ := bind_ok_iff.mp e
  obtain ⟨_, _, e⟩ := bind_ok_iff.mp e
  obtain ⟨_, _, e⟩ := bind_ok_iff.mp e
  obtain ⟨_, _, e⟩ := bind_ok_iff.mp e
  obtain ⟨_, _, e⟩ := bind_ok_iff.mp e
  have h := h (require_ok_iff.mp (by assumption))
  cases e
  exact h.setData _

theorem lw_create {swig payer wallet sys : Meta} {rest : List Meta} {ix : Bytes} (h : RunsAs ok cpi m0 m)
    (hpay : payer.signer = true → ok payer.key)
    (hid : (m swig.key).owner = systemId → ∀ c, parseCreate ix = .ok c → env.pda (swigSeeds c.id ++ [[c.bump]]) = some swig.key → ok swig.key)
    (e : createV1 env m (swig :: payer :: wallet :: sys :: rest) ix = .ok m') : Lw ok cpi swig.key m0 m' := by
  simp only [createV1] at e
  obtain ⟨⟨c, al⟩, h0, e⟩ := bind_ok_iff.mp e
  obtain ⟨m1, h1, e⟩ := bind_ok_iff.mp e
  obtain ⟨m2, h2, e⟩ := bind_ok_iff.mp e
  obtain ⟨_, _, e⟩ := bind_ok_iff.mp e
  cases e
  have hok : ok swig.key := by
    unfold createChecks at h0
    obtain ⟨_, hso, h0⟩ := bind_ok_iff.mp h0
    obtain ⟨_, _, h0⟩ := bind_ok_iff.mp h0
    obtain ⟨c, hc, h0⟩ := bind_ok_iff.mp h0
    obtain ⟨_, hb, h0⟩ := bind_ok_iff.mp h0
    exact hid (require_ok_iff.mp hso) c hc (checkSelfPda_ok hb).2
  exact ((Lw.sysCreate h hpay hok h1).fundWallet hpay h2).setData _

/-! ## Calls -/

variable (hh : cpi.Holds)
include hh

theorem Lw.invokeSigned {outer : List Meta} {ix : CpiIx} {seeds : List Bytes} (h : Lw ok cpi o m0 m)
    (hsig : ∀ a ∈ outer, a.signer = true → ok a.key) (hsd : ∀ k, env.pda seeds = some k → ok k)
    (e : invokeSigned env cpi m outer ix seeds = .ok m') : Lw ok cpi o m0 m' := by
  refine ⟨.call _ h.run (fun a ha hs => ?_) (invokeSigned_cpi e), hh _ _ _ _ h.own (invokeSigned_cpi e)⟩
  unfold Verif.invokeSigned at e
  split at e
  · cases e
  · rename_i hk
    split at e
    · rename_i hc
      rcases (hc a ha).1 hs with hx | ⟨b, hb, hx, hy⟩
      · exact hx ▸ hsd _ hk
      · exact hx ▸ hsig b hb hy
    · cases e

theorem Lw.execInner {metas : List Meta} {signer : Key} {seeds : List Bytes} {ix : Inner}
    (hq : cpi.Leaves signer) (h : Lw ok cpi o m0 m) (hs : (m signer).owner = systemId)
    (hsig : ∀ a ∈ metas, a.signer = true → ok a.key) (hsd : ∀ k, env.pda seeds = some k → ok k)
    (e : execInner env cpi m metas signer seeds ix = .ok m') : Lw ok cpi o m0 m' ∧ (m' signer).owner = systemId := by
  rcases execInner_cases e with e | ⟨a, d, rest, ha, hk, h1, rfl⟩
  · exact ⟨h.invokeSigned hh hsig hsd e, hq _ _ _ hs (invokeSigned_cpi e)⟩
  · exact absurd hs h1

theorem Lw.execAll {metas : List Meta} {signer : Key} {seeds : List Bytes} (hq : cpi.Leaves signer)
    (hsig : ∀ a ∈ metas, a.signer = true → ok a.key) (hsd : ∀ k, env.pda seeds = some k → ok k) :
    ∀ {ixs : List Inner} {m m' : Mem}, Lw ok cpi o m0 m →
    (m signer).owner = systemId → execAll env cpi metas signer seeds m ixs = .ok m' → Lw ok cpi o m0 m' := by
  intro ixs
  induction ixs with
  | nil => intro m m' h _ e; cases e; exact h
  | cons ix ixs ih =>
    intro m m' h hs e
    simp only [Verif.execAll] at e
    obtain ⟨m1, h1, e⟩ := bind_ok_iff.mp e
    obtain ⟨g1, g2⟩ := h.execInner hh hq hs hsig hsd h1
    exact ih g1 g2 e

theorem Lw.closeTokensGo {outer : List Meta} {program : Key} {v2 : Bool} {swig wallet dst : Key} {s1 s2 : List Bytes}
    (hsig : ∀ a ∈ outer, a.signer = true → ok a.key) (hs1 : ∀ k, env.pda s1 = some k → ok k) (hs2 : ∀ k, env.pda s2 = some k → ok k) :
    ∀ {l : List Meta} {m m' : Mem}, Lw ok cpi o m0 m →
    closeTokensGo env cpi outer program v2 swig wallet dst s1 s2 m l = .ok m' → Lw ok cpi o m0 m' := by
  intro l
  induction l with
  | nil => intro m m' h e; cases e; exact h
  | cons t l ih =>
    intro m m' h e
    simp only [Verif.closeTokensGo] at e
    obtain ⟨_, _, e⟩ := bind_ok_iff.mp e
    obtain ⟨m1, h1, e⟩ := bind_ok_iff.mp e
    exact ih (h.invokeSigned hh hsig (by split <;> assumption) h1) e

theorem Lw.transferTokensGo {outer : List Meta} {swig wallet : Key} {seeds : List Bytes}
    (hsig : ∀ a ∈ outer, a.signer = true → ok a.key) (hsd : ∀ k, env.pda seeds = some k → ok k) :
    ∀ (n : Nat) {l : List Meta} {m m' : Mem},
    l.length ≤ n → Lw ok cpi o m0 m → transferTokensGo env cpi outer swig wallet seeds m l = .ok m' → Lw ok cpi o m0 m' := by
  intro n
  induction n with
  | zero =>
    intro l m m' hl h e
    cases l with
    | nil => unfold Verif.transferTokensGo at e; cases e; exact h
    | cons _ _ => simp at hl
  | succ n ih =>
    intro l m m' hl h e
    match l, hl, e with
    | [], _, e => unfold Verif.transferTokensGo at e; cases e; exact h
    | [_], _, e => unfold Verif.transferTokensGo at e; cases e; exact h
    | [_, _], _, e => unfold Verif.transferTokensGo at e; cases e; exact h
    | a :: b :: c :: l, hl, e =>
      unfold Verif.transferTokensGo at e
      obtain ⟨m1, h1, e⟩ := bind_ok_iff.mp e
      refine ih (by simp at hl; omega) ?_ e
      unfold transferOne at h1
      split at h1
      · exact h.invokeSigned hh hsig hsd h1
      · cases h1; exact h

theorem lw_closeToken {swig wallet dst token : Meta} {rest : List Meta} {ix : Bytes} (h : (m swig.key).owner = swigId → Lw ok cpi swig.key m0 m)
    (hsig : ∀ a ∈ swig :: wallet :: dst :: token :: rest, a.signer = true → ok a.key) (hcov : (m swig.key).owner = swigId → Covers env ok (m swig.key).data swig.key)
    (e : closeTokenV1 env cpi m (swig :: wallet :: dst :: token :: rest) ix = .ok m') : Lw ok cpi swig.key m0 m' := by
  simp only [closeTokenV1] at e
  obtain ⟨_, _, e⟩ := bind_ok_iff.mp e
  obtain ⟨_, _, e⟩ := bind_ok_iff.mp e
  obtain ⟨_, _, e⟩ := bind_ok_iff.mp e
  obtain ⟨_, _, e⟩ := bind_ok_iff.mp e
  obtain ⟨⟨_, _⟩, _, e⟩ := bind_ok_iff.mp e
  obtain ⟨_, _, e⟩ := bind_ok_iff.mp e
  obtain ⟨p0, hp0, e⟩ := bind_ok_iff.mp e
  obtain ⟨⟨p, _⟩, hp1, e⟩ := bind_ok_iff.mp e
  obtain ⟨_, _, e⟩ := bind_ok_iff.mp e
  obtain ⟨_, _, e⟩ := bind_ok_iff.mp e
  obtain ⟨_, _, e⟩ := bind_ok_iff.mp e
  obtain ⟨_, _, e⟩ := bind_ok_iff.mp e
  obtain ⟨_, _, e⟩ := bind_ok_iff.mp e
  obtain ⟨_, _, e⟩ := bind_ok_iff.mp e
  have h := h (require_ok_iff.mp (by assumption))
  have hcov := hcov h.own
  have hid : p.header.id = (Header.decode (m swig.key).data).id := by rw [actAs_header hp1, openSwig_header hp0]
  exact Lw.closeTokensGo hh hsig (hcov _ (.wallet _)) (hcov _ (hid ▸ .config _)) (h.setData _) e

theorem lw_transferAssets {swig wallet payer sys : Meta} {rest : List Meta} {ix : Bytes}  {ks : List Key} {t : Nat} (hb : Bal ks t m) (hk : swig.key ∈ ks) (hp : wallet.key ∈ ks)
    (h : (m swig.key).owner = swigId → Lw ok cpi swig.key m0 m)
    (hsig : ∀ a ∈ swig :: wallet :: payer :: sys :: rest, a.signer = true → ok a.key) (hcov : (m swig.key).owner = swigId → Covers env ok (m swig.key).data swig.key)
    (e : transferAssetsV1 env cpi m (swig :: wallet :: payer :: sys :: rest) ix = .ok m') : Lw ok cpi swig.key m0 m' := by
  simp only [transferAssetsV1] at e
  obtain ⟨_, _, e⟩ := bind_ok_iff.mp e
  obtain ⟨_, _, e⟩ := bind_ok_iff.mp e
  obtain ⟨p0, hp0, e⟩ := bind_ok_iff.mp e
  obtain ⟨_, _, e⟩ := bind_ok_iff.mp e
  obtain ⟨_, _, e⟩ := bind_ok_iff.mp e
  obtain ⟨⟨p, _⟩, hp1, e⟩ := bind_ok_iff.mp e
  obtain ⟨_, _, e⟩ := bind_ok_iff.mp e
  obtain ⟨_, _, e⟩ := bind_ok_iff.mp e
  have h := h (require_ok_iff.mp (by assumption))
  have hcov := hcov h.own
  have hid : p.header.id = (Header.decode (m swig.key).data).id := by rw [actAs_header hp1, openSwig_header hp0]
  refine Lw.transferTokensGo hh hsig (hcov _ (hid ▸ .config _)) _ (Nat.le_refl _) ?_ e
  unfold transferSol
  dsimp only
  split
  · rename_i hl
    refine (h.setData _).move64 ((hb.setData hk _).fits hk hp ?_)
    simp at hl ⊢
    omega
  · exact h.setData _

omit hh in
theorem lw_closeSwig {swig wallet dst sys : Meta} {rest : List Meta} {ix : Bytes}  {ks : List Key} {t : Nat} (hb : Bal ks t m) (hk : swig.key ∈ ks) (hwk : wallet.key ∈ ks) (hp : dst.key ∈ ks)
    (h : (m swig.key).owner = swigId → Lw ok cpi swig.key m0 m)
    (hr : env.RentMono) (hx : Exempt env m swig.key) (hne : dst.key ≠ swig.key)
    (hsig : wallet.signer = true → ok wallet.key) (hcov : (m swig.key).owner = swigId → Covers env ok (m swig.key).data swig.key)
    (e : closeSwigV1 env m (swig :: wallet :: dst :: sys :: rest) ix = .ok m') : Lw ok cpi swig.key m0 m' := by
  simp only [closeSwigV1] at e
  obtain ⟨_, hso, e⟩ := bind_ok_iff.mp e
  have hso := require_ok_iff.mp hso
  obtain ⟨_, _, e⟩ := bind_ok_iff.mp e
  obtain ⟨_, _, e⟩ := bind_ok_iff.mp e
  obtain ⟨_, hopen, e⟩ := bind_ok_iff.mp e
  obtain ⟨_, _, e⟩ := bind_ok_iff.mp e
  obtain ⟨⟨_, _⟩, _, e⟩ := bind_ok_iff.mp e
  obtain ⟨_, _, e⟩ := bind_ok_iff.mp e
  obtain ⟨⟨_, _⟩, _, e⟩ := bind_ok_iff.mp e
  obtain ⟨_, _, e⟩ := bind_ok_iff.mp e
  obtain ⟨_, _, e⟩ := bind_ok_iff.mp e
  obtain ⟨_, _, e⟩ := bind_ok_iff.mp e
  obtain ⟨_, _, e⟩ := bind_ok_iff.mp e
  obtain ⟨_, _, e⟩ := bind_ok_iff.mp e
  obtain ⟨m1, h1, e⟩ := bind_ok_iff.mp e
  obtain ⟨m2, h2, e⟩ := bind_ok_iff.mp e
  have h := h (require_ok_iff.mp (by assumption))
  have hcov := hcov h.own
  cases e
  refine Lw.setData (Lw.realloc ?_ h2) _
  have g : Lw ok cpi swig.key m0 m1 ∧ Bal ks t m1 := by
    unfold drainWallet at h1
    split at h1
    · exact ⟨(h.setData _).signedTransfer hsig (hcov _ (.wallet _)) h1, (hb.setData hk _).signedTransfer hwk hp h1⟩
    · cases h1; exact ⟨h.setData _, hb.setData hk _⟩
  have hold : (m1 swig.key).lamports = (m swig.key).lamports := by
    unfold drainWallet at h1
    split at h1
    · unfold signedTransfer at h1
      split at h1
      · cases h1
      · obtain ⟨_, ho, _, _, rfl⟩ := sysTransfer_ok h1
        have hwk : swig.key ≠ wallet.key := by
          intro hh
          simp only [Mem.setData_owner] at ho
          rw [← hh, hso] at ho
          revert ho; decide
        simp [Mem.setLamports, Mem.set, hne.symm, hwk, Mem.setData]
    · cases h1; simp
  have hone : env.rent 1 ≤ (m swig.key).lamports := by
    refine Nat.le_trans (hr _ _ ?_) hx
    unfold openSwig at hopen
    split at hopen
    · cases hopen
    · exact List.length_pos_iff.mpr (by assumption)
  unfold closeLamports
  dsimp only
  rw [← hold] at hone ⊢
  exact g.1.move64 (g.2.fits hk hp (by omega))

omit hh in
theorem lw_migrate {swig auth payer wallet sys : Meta} {rest : List Meta} {ix : Bytes} (h : RunsAs ok cpi m0 m)
    (hpay : payer.signer = true → ok payer.key)
    (e : migrateV1 env m (swig :: auth :: payer :: wallet :: sys :: rest) ix = .ok m') : RunsAs ok cpi m0 m' := by
  simp only [migrateV1] at e
  obtain ⟨_, _, e⟩ := bind_ok_iff.mp e
  obtain ⟨_, _, e⟩ := bind_ok_iff.mp e
  obtain ⟨_, _, e⟩ := bind_ok_iff.mp e
  obtain ⟨_, _, e⟩ := bind_ok_iff.mp e
  obtain ⟨_, _, e⟩ := bind_ok_iff.mp e
  obtain ⟨⟨_, _⟩, _, e⟩ := bind_ok_iff.mp e
  obtain ⟨_, _, e⟩ := bind_ok_iff.mp e
  obtain ⟨_, _, e⟩ := bind_ok_iff.mp e
  obtain ⟨_, _, e⟩ := bind_ok_iff.mp e
  obtain ⟨_, _, e⟩ := bind_ok_iff.mp e
  obtain ⟨_, _, e⟩ := bind_ok_iff.mp e
  obtain ⟨_, hw, e⟩ := bind_ok_iff.mp e
  rcases require_ok_iff.mp hw with ho | hd
  · exact (Lw.fundWallet (Lw.setData ⟨h, ho⟩ _) hpay e).run
  · rw [hd] at e
    have hm : m.setData swig.key (m swig.key).data = m := by
      funext x; by_cases hx : x = swig.key <;> simp [Mem.setData, Mem.set, hx]
    rw [hm] at e
    unfold fundWallet at e
    dsimp only at e
    split at e
    · exact .system h (lawful_sysTransfer e).1 (signed_sysTransfer hpay e)
    · cases e; exact h

/-! ## Sub-accounts -/

omit hh in
theorem lw_createSubV1 {swig payer sub sys : Meta} {rest : List Meta} {ix : Bytes} (h : (m swig.key).owner = swigId → Lw ok cpi swig.key m0 m)
    (hpay : payer.signer = true → ok payer.key)
    (e : createSubV1 env m (swig :: payer :: sub :: sys :: rest) ix = .ok m') : Lw ok cpi swig.key m0 m' := by
  simp only [createSubV1] at e
  obtain ⟨_, _, e⟩ := bind_ok_iff.mp e
  obtain ⟨_, _, e⟩ := bind_ok_iff.mp e
  obtain ⟨_, _, e⟩ := bind_ok_iff.mp e
  obtain ⟨_, _, e⟩ := bind_ok_iff.mp e
  obtain ⟨⟨_, _⟩, _, e⟩ := bind_ok_iff.mp e
  obtain ⟨_, _, e⟩ := bind_ok_iff.mp e
  obtain ⟨_, _, e⟩ := bind_ok_iff.mp e
  obtain ⟨_, _, e⟩ := bind_ok_iff.mp e
  obtain ⟨m1, h1, e⟩ := bind_ok_iff.mp e
  have h := h (require_ok_iff.mp (by assumption))
  cases e
  exact ((h.setData _).fundWallet hpay h1).setData _

omit hh in
theorem Lw.checkRent {k : Key} {a : Mem} (h : Lw ok cpi o m0 m) (e : checkRent env m k = .ok a) : Lw ok cpi o m0 a := by
  unfold Verif.checkRent at e
  split at e
  · cases e
  · cases e; exact h

theorem lw_subSignV1 {swig sub sys : Meta} {rest : List Meta} {ix : Bytes} (h : (m swig.key).owner = swigId → Lw ok cpi swig.key m0 m)
    (hq : cpi.Leaves sub.key)
    (hsig : ∀ a ∈ swig :: sub :: sys :: rest, a.signer = true → ok a.key) (hcov : (m swig.key).owner = swigId → Covers env ok (m swig.key).data swig.key)
    (e : subSignV1 env cpi m (swig :: sub :: sys :: rest) ix = .ok m') : Lw ok cpi swig.key m0 m' := by
  simp only [subSignV1] at e
  obtain ⟨_, _, e⟩ := bind_ok_iff.mp e
  obtain ⟨_, _, e⟩ := bind_ok_iff.mp e
  obtain ⟨_, hs, e⟩ := bind_ok_iff.mp e
  have hs := require_ok_iff.mp hs
  obtain ⟨_, _, e⟩ := bind_ok_iff.mp e
  obtain ⟨p0, hp0, e⟩ := bind_ok_iff.mp e
  obtain ⟨⟨p, _⟩, hp1, e⟩ := bind_ok_iff.mp e
  obtain ⟨_, _, e⟩ := bind_ok_iff.mp e
  obtain ⟨d, _, e⟩ := bind_ok_iff.mp e
  obtain ⟨_, hck, e⟩ := bind_ok_iff.mp e
  obtain ⟨_, hx, e⟩ := bind_ok_iff.mp e
  obtain ⟨m1, h1, e⟩ := bind_ok_iff.mp e
  have h := h (require_ok_iff.mp (by assumption))
  have hcov := hcov h.own
  have hid : (SubAct.decode d).swigId = (Header.decode (m swig.key).data).id := by
    unfold checkSubAct at hck
    obtain ⟨_, h9, _⟩ := bind_ok_iff.mp hck
    rw [require_ok_iff.mp h9, actAs_header hp1, openSwig_header (openSwigU_ok hp0)]
  exact Lw.checkRent (Lw.execAll hh hq hsig (hcov _ (hid ▸ .sub _ _)) (h.setData _) (by simpa using hs) h1) e

omit hh in
theorem lw_toggleSubV1 {swig payer sub : Meta} {rest : List Meta} {ix : Bytes} (h : (m swig.key).owner = swigId → Lw ok cpi swig.key m0 m)
    (e : toggleSubV1 env m (swig :: payer :: sub :: rest) ix = .ok m') : Lw ok cpi swig.key m0 m' := by
  simp only [toggleSubV1] at e
  obtain ⟨_, _, e⟩ := bind_ok_iff.mp e
  obtain ⟨_, _, e⟩ := bind_ok_iff.mp e
  obtain ⟨_, _, e⟩ := bind_ok_iff.mp e
  obtain ⟨_, _, e⟩ := bind_ok_iff.mp e
  obtain ⟨_, _, e⟩ := bind_ok_iff.mp e
  obtain ⟨⟨_, _⟩, _, e⟩ := bind_ok_iff.mp e
  obtain ⟨_, _, e⟩ := bind_ok_iff.mp e
  obtain ⟨_, _, e⟩ := bind_ok_iff.mp e
  obtain ⟨_, _, e⟩ := bind_ok_iff.mp e
  have h := h (require_ok_iff.mp (by assumption))
  cases e
  exact h.setData _

theorem Lw.withdrawTokenV1 {metas : List Meta} {sub wallet : Key} {n : Nat} {seeds : List Bytes} (h : Lw ok cpi o m0 m)
    (hsig : ∀ a ∈ metas, a.signer = true → ok a.key) (hsd : ∀ k, env.pda seeds = some k → ok k)
    (e : withdrawTokenV1 env cpi m metas sub wallet n seeds = .ok m') : Lw ok cpi o m0 m' := by
  unfold Verif.withdrawTokenV1 at e
  obtain ⟨_, _, e⟩ := bind_ok_iff.mp e
  obtain ⟨_, _, e⟩ := bind_ok_iff.mp e
  obtain ⟨_, _, e⟩ := bind_ok_iff.mp e
  obtain ⟨_, _, e⟩ := bind_ok_iff.mp e
  obtain ⟨_, _, e⟩ := bind_ok_iff.mp e
  obtain ⟨_, _, e⟩ := bind_ok_iff.mp e
  obtain ⟨_, _, e⟩ := bind_ok_iff.mp e
  exact h.invokeSigned hh hsig hsd e

omit hh in
theorem Lw.withdrawSol {sub wallet : Meta} {n : Nat} {seeds : List Bytes} (h : Lw ok cpi o m0 m)
    (hs : sub.signer = true → ok sub.key) (hsd : ∀ k, env.pda seeds = some k → ok k)
    (e : withdrawSol env m sub wallet n seeds = .ok m') : Lw ok cpi o m0 m' := by
  unfold Verif.withdrawSol at e
  split at e
  · cases e
  · exact h.signedTransfer hs hsd e

theorem lw_withdrawSubV1 {swig auth sub x3 wallet x5 : Meta} {rest : List Meta} {ix : Bytes} (h : (m swig.key).owner = swigId → Lw ok cpi swig.key m0 m)
    (hsig : ∀ a ∈ swig :: auth :: sub :: x3 :: wallet :: x5 :: rest, a.signer = true → ok a.key) (hcov : (m swig.key).owner = swigId → Covers env ok (m swig.key).data swig.key)
    (e : withdrawSubV1 env cpi m (swig :: auth :: sub :: x3 :: wallet :: x5 :: rest) ix = .ok m') : Lw ok cpi swig.key m0 m' := by
  simp only [withdrawSubV1] at e
  obtain ⟨_, _, e⟩ := bind_ok_iff.mp e
  obtain ⟨_, _, e⟩ := bind_ok_iff.mp e
  obtain ⟨_, _, e⟩ := bind_ok_iff.mp e
  obtain ⟨_, _, e⟩ := bind_ok_iff.mp e
  obtain ⟨p0, hp0, e⟩ := bind_ok_iff.mp e
  obtain ⟨⟨_, _⟩, _, e⟩ := bind_ok_iff.mp e
  obtain ⟨_, _, e⟩ := bind_ok_iff.mp e
  obtain ⟨⟨p, _⟩, hp1, e⟩ := bind_ok_iff.mp e
  obtain ⟨_, _, e⟩ := bind_ok_iff.mp e
  obtain ⟨⟨_, _⟩, _, e⟩ := bind_ok_iff.mp e
  have h := h (require_ok_iff.mp (by assumption))
  have hcov := hcov h.own
  have hid : p.header.id = (Header.decode (m swig.key).data).id := by rw [actAs_header hp1, openSwig_header hp0]
  split at e
  · exact Lw.withdrawTokenV1 hh (h.setData _) hsig (hcov _ (hid ▸ .sub _ _)) e
  · exact (h.setData _).withdrawSol (hsig _ (by simp)) (hcov _ (hid ▸ .sub _ _)) e

omit hh in
theorem lw_createSubV2 {swig payer state sub sys : Meta} {rest : List Meta} {ix : Bytes} (h : (m swig.key).owner = swigId → Lw ok cpi swig.key m0 m)
    (hpay : payer.signer = true → ok payer.key)
    (hst : state.signer = true → ok state.key) (hcov : (m swig.key).owner = swigId → Covers env ok (m swig.key).data swig.key)
    (e : createSubV2 env m (swig :: payer :: state :: sub :: sys :: rest) ix = .ok m') : Lw ok cpi swig.key m0 m' := by
  simp only [createSubV2] at e
  obtain ⟨_, _, e⟩ := bind_ok_iff.mp e
  obtain ⟨_, h0, e⟩ := bind_ok_iff.mp e
  obtain ⟨_, _, e⟩ := bind_ok_iff.mp e
  obtain ⟨_, _, e⟩ := bind_ok_iff.mp e
  obtain ⟨_, _, e⟩ := bind_ok_iff.mp e
  obtain ⟨_, _, e⟩ := bind_ok_iff.mp e
  obtain ⟨⟨p, _, _⟩, hp1, e⟩ := bind_ok_iff.mp e
  obtain ⟨_, _, e⟩ := bind_ok_iff.mp e
  obtain ⟨_, _, e⟩ := bind_ok_iff.mp e
  obtain ⟨m1, h1, e⟩ := bind_ok_iff.mp e
  obtain ⟨m2, h2, e⟩ := bind_ok_iff.mp e
  obtain ⟨m3, h3, e⟩ := bind_ok_iff.mp e
  have h := h (require_ok_iff.mp (by assumption))
  have hcov := hcov h.own
  have g1 := (h.setData _).fundState hpay h1
  have g2 : Lw ok cpi swig.key m0 m2 := g1.alloc hst (hcov _ (drawSubId_id hp1 ▸ .record _ _)) h2
  have hs : (m2 state.key).owner = swigId := by rw [sysAllocAssign_ok h2]; simp [Mem.set]
  have g3 := (g2.setAt hs _).fundEmpty hpay h3
  unfold grantAll at e
  split at e
  · cases e; exact g3
  · exact lw_append g3 hpay e

theorem lw_subSignV2 {swig state sub sys : Meta} {rest : List Meta} {ix : Bytes} (h : (m swig.key).owner = swigId → Lw ok cpi swig.key m0 m)
    (hq : cpi.Leaves sub.key)
    (hsig : ∀ a ∈ swig :: state :: sub :: sys :: rest, a.signer = true → ok a.key) (hcov : (m swig.key).owner = swigId → Covers env ok (m swig.key).data swig.key)
    (e : subSignV2 env cpi m (swig :: state :: sub :: sys :: rest) ix = .ok m') : Lw ok cpi swig.key m0 m' := by
  simp only [subSignV2] at e
  obtain ⟨_, _, e⟩ := bind_ok_iff.mp e
  obtain ⟨_, _, e⟩ := bind_ok_iff.mp e
  obtain ⟨_, hs, e⟩ := bind_ok_iff.mp e
  have hs := require_ok_iff.mp hs
  obtain ⟨_, _, e⟩ := bind_ok_iff.mp e
  obtain ⟨⟨p, _⟩, hp1, e⟩ := bind_ok_iff.mp e
  obtain ⟨_, _, e⟩ := bind_ok_iff.mp e
  obtain ⟨_, hx, e⟩ := bind_ok_iff.mp e
  obtain ⟨m1, h1, e⟩ := bind_ok_iff.mp e
  have h := h (require_ok_iff.mp (by assumption))
  have hcov := hcov h.own
  exact Lw.checkRent (Lw.execAll hh hq hsig (hcov _ (actScoped_header hp1 ▸ .sub2 _ _)) (h.setData _) (by simpa using hs) h1) e

theorem lw_withdrawSubV2 {swig auth state sub wallet x6 x7 : Meta} {rest : List Meta} {ix : Bytes} (h : (m swig.key).owner = swigId → Lw ok cpi swig.key m0 m)
    (hsig : ∀ a ∈ swig :: auth :: state :: sub :: wallet :: x6 :: x7 :: rest, a.signer = true → ok a.key) (hcov : (m swig.key).owner = swigId → Covers env ok (m swig.key).data swig.key)
    (e : withdrawSubV2 env cpi m (swig :: auth :: state :: sub :: wallet :: x6 :: x7 :: rest) ix = .ok m') : Lw ok cpi swig.key m0 m' := by
  simp only [withdrawSubV2] at e
  obtain ⟨_, _, e⟩ := bind_ok_iff.mp e
  obtain ⟨_, _, e⟩ := bind_ok_iff.mp e
  obtain ⟨_, _, e⟩ := bind_ok_iff.mp e
  obtain ⟨_, _, e⟩ := bind_ok_iff.mp e
  obtain ⟨⟨p, _⟩, hp1, e⟩ := bind_ok_iff.mp e
  obtain ⟨_, _, e⟩ := bind_ok_iff.mp e
  obtain ⟨_, _, e⟩ := bind_ok_iff.mp e
  have h := h (require_ok_iff.mp (by assumption))
  have hcov := hcov h.own
  unfold withdrawV2 at e
  split at e
  · obtain ⟨_, _, e⟩ := bind_ok_iff.mp e
    obtain ⟨_, _, e⟩ := bind_ok_iff.mp e
    obtain ⟨_, _, e⟩ := bind_ok_iff.mp e
    obtain ⟨_, _, e⟩ := bind_ok_iff.mp e
    exact Lw.invokeSigned hh (h.setData _) hsig (hcov _ (actScoped_header hp1 ▸ .sub2 _ _)) e
  · split at e
    · exact (h.setData _).withdrawSol (hsig _ (by simp)) (hcov _ (actScoped_header hp1 ▸ .sub2 _ _)) e
    · cases e

omit hh in
theorem lw_toggleSubV2 {swig auth state : Meta} {rest : List Meta} {ix : Bytes}
    (h : (m swig.key).owner = swigId → Lw ok cpi swig.key m0 m)
    (e : toggleSubV2 env m (swig :: auth :: state :: rest) ix = .ok m') : Lw ok cpi swig.key m0 m' := by
  simp only [toggleSubV2] at e
  obtain ⟨_, _, e⟩ := bind_ok_iff.mp e
  obtain ⟨_, hst, e⟩ := bind_ok_iff.mp e
  obtain ⟨_, _, e⟩ := bind_ok_iff.mp e
  obtain ⟨_, _, e⟩ := bind_ok_iff.mp e
  obtain ⟨⟨_, _⟩, _, e⟩ := bind_ok_iff.mp e
  obtain ⟨_, h1, e⟩ := bind_ok_iff.mp e
  have h := h (require_ok_iff.mp (by assumption))
  cases e
  exact (h.setData _).setAt (by simpa using require_ok_iff.mp hst) _

/-! ## SignV2 -/

omit hh in
theorem Lw.write {l : ActLoc} {ty i : Nat} {acts : Bytes} {f : Bytes → R Bytes} (h : Lw ok cpi l.swig m0 m)
    (e : l.write m ty acts f i = .ok m') : Lw ok cpi l.swig m0 m' := by
  unfold ActLoc.write at e
  obtain ⟨_, _, e⟩ := bind_ok_iff.mp e
  cases e; exact h.setData _

omit hh in
theorem Lw.charge {l : ActLoc} {ty : Nat} {key : Bytes} {f : Bytes → R Bytes} (h : Lw ok cpi l.swig m0 m)
    (e : l.charge m ty key f = .ok (some m')) : Lw ok cpi l.swig m0 m' := by
  unfold ActLoc.charge at e
  obtain ⟨_, _, e⟩ := bind_ok_iff.mp e
  obtain ⟨o, _, e⟩ := bind_ok_iff.mp e
  cases o with
  | none => cases e
  | some o =>
    obtain ⟨m1, h1, e⟩ := bind_ok_iff.mp e
    cases e; exact h.write h1

variable {x : SignCtx}

omit hh in
theorem Lw.chargeEither {ty1 ty2 : Nat} {key : Bytes} {f1 f2 : Bytes → R Bytes} {b : Bool} (h : Lw ok cpi x.loc.swig m0 m)
    (e : chargeEither x m ty1 ty2 key f1 f2 = .ok (m', b)) : Lw ok cpi x.loc.swig m0 m' := by
  unfold Verif.chargeEither at e
  obtain ⟨r, h1, e⟩ := bind_ok_iff.mp e
  cases r with
  | some m1 => cases e; exact h.charge h1
  | none =>
    obtain ⟨r, h2, e⟩ := bind_ok_iff.mp e
    cases r with
    | some m1 => cases e; exact h.charge h2
    | none => cases e; exact h

omit hh in
theorem Lw.chargeDests {one : Mem → Key → Nat → R (Mem × Bool)} (h1 : ∀ m d n m' b, Lw ok cpi o m0 m → one m d n = .ok (m', b) → Lw ok cpi o m0 m') :
    ∀ {ts : List (Key × Nat)} {m m' : Mem} {sum sum' : Nat}, Lw ok cpi o m0 m → chargeDests one m sum ts = .ok (m', sum') → Lw ok cpi o m0 m' := by
  intro ts
  induction ts with
  | nil => intro m m' sum sum' h e; cases e; exact h
  | cons t ts ih =>
    intro m m' sum sum' h e
    obtain ⟨d, n⟩ := t
    simp only [Verif.chargeDests] at e
    obtain ⟨_, _, e⟩ := bind_ok_iff.mp e
    obtain ⟨⟨m1, ok⟩, h2, e⟩ := bind_ok_iff.mp e
    obtain ⟨_, _, e⟩ := bind_ok_iff.mp e
    exact ih (h1 _ _ _ _ _ h h2) e

omit hh in
theorem Lw.settleDests {has : Bool} {one : Mem → Key → Nat → R (Mem × Bool)} {spent : Nat} {ts : List (Key × Nat)} {b : Bool}
    (h1 : ∀ m d n m' b, Lw ok cpi o m0 m → one m d n = .ok (m', b) → Lw ok cpi o m0 m') (h : Lw ok cpi o m0 m)
    (e : settleDests has one m spent ts = .ok (m', b)) : Lw ok cpi o m0 m' := by
  unfold Verif.settleDests at e
  split at e
  · obtain ⟨⟨m1, s⟩, h2, e⟩ := bind_ok_iff.mp e
    obtain ⟨_, _, e⟩ := bind_ok_iff.mp e
    cases e
    exact Lw.chargeDests h1 h h2
  · cases e; exact h

omit hh in
theorem Lw.settleSol {spent : Nat} (h : Lw ok cpi x.loc.swig m0 m) (e : settleSol x m spent = .ok m') : Lw ok cpi x.loc.swig m0 m' := by
  unfold Verif.settleSol at e
  obtain ⟨⟨m1, _⟩, h1, e⟩ := bind_ok_iff.mp e
  obtain ⟨_, _, e⟩ := bind_ok_iff.mp e
  obtain ⟨_, _, e⟩ := bind_ok_iff.mp e
  obtain ⟨⟨m2, _⟩, h2, e⟩ := bind_ok_iff.mp e
  obtain ⟨_, _, e⟩ := bind_ok_iff.mp e
  cases e
  exact Lw.settleDests (fun _ _ _ _ _ g k => g.chargeEither k) (h.chargeEither h1) h2

omit hh in
theorem Lw.settleTokenSpent {src mint : Bytes} {spent : Nat} (h : Lw ok cpi x.loc.swig m0 m)
    (e : settleTokenSpent x m src mint spent = .ok m') : Lw ok cpi x.loc.swig m0 m' := by
  unfold Verif.settleTokenSpent at e
  obtain ⟨⟨m1, _⟩, h1, e⟩ := bind_ok_iff.mp e
  obtain ⟨_, _, e⟩ := bind_ok_iff.mp e
  obtain ⟨_, _, e⟩ := bind_ok_iff.mp e
  obtain ⟨⟨m2, _⟩, h2, e⟩ := bind_ok_iff.mp e
  obtain ⟨_, _, e⟩ := bind_ok_iff.mp e
  cases e
  exact Lw.settleDests (fun _ _ _ _ _ g k => g.chargeEither k) (h.chargeEither h1) h2

omit hh in
theorem Lw.settleOne {a : Meta} {c : Class} {hh : Option Bytes} {total : Nat} (h : Lw ok cpi x.loc.swig m0 m)
    (e : settleOne x m a c hh total = .ok m') : Lw ok cpi x.loc.swig m0 m' := by
  unfold Verif.settleOne at e
  split at e
  · unfold settleSwig at e
    obtain ⟨_, _, e⟩ := bind_ok_iff.mp e
    obtain ⟨_, _, e⟩ := bind_ok_iff.mp e
    split at e
    · cases e; exact h
    · exact h.settleSol e
  · unfold settleToken at e
    split at e
    · unfold settleClosed at e
      obtain ⟨_, _, e⟩ := bind_ok_iff.mp e
      obtain ⟨_, _, e⟩ := bind_ok_iff.mp e
      obtain ⟨_, _, e⟩ := bind_ok_iff.mp e
      cases e; exact h
    · obtain ⟨_, _, e⟩ := bind_ok_iff.mp e
      obtain ⟨_, _, e⟩ := bind_ok_iff.mp e
      obtain ⟨_, _, e⟩ := bind_ok_iff.mp e
      obtain ⟨_, _, e⟩ := bind_ok_iff.mp e
      split at e
      · cases e; exact h
      · exact h.settleTokenSpent e
  · unfold settleStake at e
    obtain ⟨_, _, e⟩ := bind_ok_iff.mp e
    split at e
    · cases e; exact h
    · unfold settleStakeSpent at e
      obtain ⟨_, _, e⟩ := bind_ok_iff.mp e
      split at e
      · cases e; exact h
      · obtain ⟨⟨m1, _⟩, h1, e⟩ := bind_ok_iff.mp e
        obtain ⟨_, _, e⟩ := bind_ok_iff.mp e
        cases e
        exact h.chargeEither h1
  · unfold settleScope at e
    obtain ⟨_, _, e⟩ := bind_ok_iff.mp e
    obtain ⟨_, _, e⟩ := bind_ok_iff.mp e
    obtain ⟨_, _, e⟩ := bind_ok_iff.mp e
    obtain ⟨_, _, e⟩ := bind_ok_iff.mp e
    split at e
    · cases e; exact h
    · unfold settleScopeSpent at e
      obtain ⟨r, h1, e⟩ := bind_ok_iff.mp e
      have := orErr_ok e
      subst this
      exact h.charge h1
  · cases e; exact h

omit hh in
theorem Lw.settleAll {total : Nat} : ∀ {l : List (Meta × Class)} {hs : List (Option Bytes)} {m m' : Mem}, Lw ok cpi x.loc.swig m0 m →
    settleAll x total m l hs = .ok m' → Lw ok cpi x.loc.swig m0 m' := by
  intro l
  induction l with
  | nil => intro hs m m' h e; unfold Verif.settleAll at e; cases e; exact h
  | cons t l ih =>
    intro hs m m' h e
    obtain ⟨a, c⟩ := t
    cases hs with
    | nil => unfold Verif.settleAll at e; cases e; exact h
    | cons hh hs =>
      unfold Verif.settleAll at e
      obtain ⟨m1, h1, e⟩ := bind_ok_iff.mp e
      exact ih (h.settleOne h1) e

theorem Lw.runIxs (hq : cpi.Leaves x.wallet) (hsig : ∀ a ∈ x.metas, a.signer = true → ok a.key)
    (hsd : ∀ k, x.env.pda x.seeds = some k → ok k) : ∀ {ixs : List Inner} {m m' : Mem}
    {l l' : List (Meta × Class)} {n n' : Nat}, Lw ok cpi o m0 m →
    (m x.wallet).owner = systemId → runIxs x cpi m l n ixs = .ok (m', l', n') → Lw ok cpi o m0 m' := by
  intro ixs
  induction ixs with
  | nil => intro m m' l l' n n' h _ e; cases e; exact h
  | cons ix ixs ih =>
    intro m m' l l' n n' h hs e
    simp only [Verif.runIxs] at e
    obtain ⟨_, _, e⟩ := bind_ok_iff.mp e
    obtain ⟨_, _, e⟩ := bind_ok_iff.mp e
    obtain ⟨m1, h1, e⟩ := bind_ok_iff.mp e
    obtain ⟨_, _, e⟩ := bind_ok_iff.mp e
    obtain ⟨g1, g2⟩ := h.execInner hh hq hs hsig hsd h1
    exact ih g1 g2 e

theorem lw_sign {swig wallet x3 : Meta} {rest : List Meta} {cls : List Class} {ix : Bytes} (h : (m swig.key).owner = swigId → Lw ok cpi swig.key m0 m)
    (hq : cpi.Leaves wallet.key)
    (hcls : classifyAll m (swig :: wallet :: x3 :: rest) = .ok cls)
    (hsig : ∀ a ∈ swig :: wallet :: x3 :: rest, a.signer = true → ok a.key) (hcov : (m swig.key).owner = swigId → Covers env ok (m swig.key).data swig.key)
    (e : signV2 env cpi m (swig :: wallet :: x3 :: rest) cls ix = .ok m') : Lw ok cpi swig.key m0 m' := by
  simp only [signV2] at e
  obtain ⟨_, _, e⟩ := bind_ok_iff.mp e
  obtain ⟨_, hf, e⟩ := bind_ok_iff.mp e
  obtain ⟨_, h0, e⟩ := bind_ok_iff.mp e
  have hs : (m wallet.key).owner = systemId := by
    have h0 := require_ok_iff.mp h0
    obtain ⟨c, cs, rfl, _, h3, h4⟩ := classifyAll_rest hcls
    cases cs with
    | nil => simp at h3
    | cons c1 cs =>
      simp at h0
      subst h0
      have h5 := (h4 (wallet, .wallet) (by simp)).1
      cases h5; assumption
  obtain ⟨_, _, e⟩ := bind_ok_iff.mp e
  obtain ⟨_, _, e⟩ := bind_ok_iff.mp e
  obtain ⟨⟨_, _⟩, _, e⟩ := bind_ok_iff.mp e
  obtain ⟨_, hx, e⟩ := bind_ok_iff.mp e
  have h := h (by
    obtain ⟨c, cs, rfl, h2, _, _⟩ := classifyAll_rest hcls
    exact (classify_first h2 (by simpa using require_ok_iff.mp hf)).2.1)
  have hcov := hcov h.own
  unfold signWith at e
  obtain ⟨_, _, e⟩ := bind_ok_iff.mp e
  split at e
  · exact Lw.execAll hh hq hsig (hcov _ (.wallet _)) (h.setData _) (by simpa using hs) e
  · obtain ⟨_, _, e⟩ := bind_ok_iff.mp e
    obtain ⟨_, _, e⟩ := bind_ok_iff.mp e
    unfold signLimited at e
    obtain ⟨_, _, e⟩ := bind_ok_iff.mp e
    obtain ⟨⟨m1, acc, total⟩, h1, e⟩ := bind_ok_iff.mp e
    refine Lw.settleAll ?_ e
    exact Lw.runIxs hh hq hsig (hcov _ (.wallet _)) (h.setData _) (by simpa using hs) h1

/-! ## Every instruction -/

/-- A request is a run of steps that obey the rule on owners. -/
theorem process_lw {metas : List Meta} {ix : Bytes} {ks : List Key} {t : Nat} (hb : Bal ks t m) (hw : ∀ a ∈ metas, a.key ∈ ks)
    (hq : ∀ s, metas[1]? = some s ∨ metas[2]? = some s → cpi.Leaves s.key) (hr : env.RentMono)
    (hx : rd ix 0 2 = 2 ∨ rd ix 0 2 = 15 → ∀ s, metas[0]? = some s → Exempt env m s.key)
    (hd : rd ix 0 2 = 15 → ∀ s d, metas[0]? = some s → metas[2]? = some d → d.key ≠ s.key)
    (hsig : ∀ a ∈ metas, a.signer = true → ok a.key)
    (hcov : ∀ s, metas[0]? = some s → (m s.key).owner = swigId → Covers env ok (m s.key).data s.key)
    (hid : ∀ s, metas[0]? = some s → (m s.key).owner = systemId → ∀ c, parseCreate ix = .ok c →
      env.pda (swigSeeds c.id ++ [[c.bump]]) = some s.key → ok s.key)
    (e : process env cpi m metas ix = .ok m') : RunsAs ok cpi m m' := by
  have H : ∀ k : Key, (m k).owner = swigId → Lw ok cpi k m m := fun k ho => ⟨.start m, ho⟩
  unfold process at e
  obtain ⟨_, _, e⟩ := bind_ok_iff.mp e
  obtain ⟨cls, hcls, e⟩ := bind_ok_iff.mp e
  unfold dispatch at e
  split at e
  · cases e
  have ho : ∀ (i : Nat) (a : Meta), metas[i]? = some a → a.key ∈ ks := fun i a ha => hw a (List.mem_of_getElem? ha)
  have hg : ∀ (i : Nat) (a : Meta), metas[i]? = some a → a.signer = true → ok a.key := fun i a ha => hsig a (List.mem_of_getElem? ha)
  generalize hn : rd ix 0 2 = n at e hd hx
  split at e
  · unfold addAuthorityV1 at e; split at e
    · exact (lw_add (H _) (hg 1 _ rfl) e).run
    · cases e
  · unfold removeAuthorityV1 at e; split at e
    · exact (lw_remove (H _) hb (ho 0 _ rfl) (ho 1 _ rfl) hr (hx (.inl rfl) _ rfl) e).run
    · cases e
  · unfold updateAuthorityV1 at e; split at e
    · exact (lw_update hb (ho 0 _ rfl) (ho 1 _ rfl) (H _) (hg 1 _ rfl) e).run
    · cases e
  · cases e
  · unfold createSessionV1 at e; split at e
    · exact (lw_session (H _) e).run
    · cases e
  · unfold createSubV1 at e; split at e
    · exact (lw_createSubV1 (H _) (hg 1 _ rfl) e).run
    · cases e
  · unfold withdrawSubV1 at e; split at e
    · exact (lw_withdrawSubV1 hh (H _) hsig (hcov _ rfl) e).run
    · cases e
  · unfold subSignV1 at e; split at e
    · exact (lw_subSignV1 hh (H _) (hq _ (.inl rfl)) hsig (hcov _ rfl) e).run
    · cases e
  · unfold toggleSubV1 at e; split at e
    · exact (lw_toggleSubV1 (H _) e).run
    · cases e
  · unfold signV2 at e; split at e
    · exact (lw_sign hh (H _) (hq _ (.inl rfl)) hcls hsig (hcov _ rfl) e).run
    · cases e
  · unfold migrateV1 at e; split at e
    · exact lw_migrate (.start m) (hg 2 _ rfl) e
    · cases e
  · unfold transferAssetsV1 at e; split at e
    · exact (lw_transferAssets hh hb (ho 0 _ rfl) (ho 1 _ rfl) (H _) hsig (hcov _ rfl) e).run
    · cases e
  · unfold closeTokenV1 at e; split at e
    · exact (lw_closeToken hh (H _) hsig (hcov _ rfl) e).run
    · cases e
  · unfold closeSwigV1 at e; split at e
    · exact (lw_closeSwig hb (ho 0 _ rfl) (ho 1 _ rfl) (ho 2 _ rfl) (H _) hr (hx (.inr rfl) _ rfl) (hd rfl _ _ rfl rfl) (hg 1 _ rfl) (hcov _ rfl) e).run
    · cases e
  · unfold replaceAuthorityV1 at e; split at e
    · exact (lw_replace (H _) e).run
    · cases e
  · unfold setRentClaimerV1 at e; split at e
    · exact (lw_claimer (H _) (hg 1 _ rfl) e).run
    · cases e
  · unfold createSubV2 at e; split at e
    · exact (lw_createSubV2 (H _) (hg 1 _ rfl) (hg 2 _ rfl) (hcov _ rfl) e).run
    · cases e
  · unfold toggleSubV2 at e; split at e
    · exact (lw_toggleSubV2 (H _) e).run
    · cases e
  · unfold subSignV2 at e; split at e
    · exact (lw_subSignV2 hh (H _) (hq _ (.inr rfl)) hsig (hcov _ rfl) e).run
    · cases e
  · unfold withdrawSubV2 at e; split at e
    · exact (lw_withdrawSubV2 hh (H _) hsig (hcov _ rfl) e).run
    · cases e
  · unfold createV1 at e; split at e
    · exact (lw_create (sys := ⟨systemId, false, false⟩) (rest := []) (.start m) (hg 1 _ rfl) (hid _ rfl) e).run
    · cases e

omit hh in
theorem RunsAs.runs (h : RunsAs ok cpi m m') : Runs cpi m m' := by
  induction h with
  | start => exact .start _
  | own _ h ih => exact .own ih h
  | system _ h _ ih => exact .system ih h
  | call ix _ _ h ih => exact .call ix ih h

end
end Verif
