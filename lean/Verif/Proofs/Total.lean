import Verif.Proofs.Touch
import Verif.Spec.Total

/-! The sum of the balances over an instruction. -/

namespace Verif

/-- The accounts, without repetitions, together hold `t` lamports. -/
structure Bal (ks : List Key) (t : Nat) (m : Mem) : Prop where
  nodup : ks.Nodup
  small : t < 2 ^ 64
  sum : total ks m = t

theorem total_congr {ks : List Key} {m m' : Mem} (h : ∀ k ∈ ks, (m' k).lamports = (m k).lamports) : total ks m' = total ks m := by
  unfold total
  rw [List.map_congr_left (fun k hk => h k hk)]

theorem total_set {ks : List Key} (hn : ks.Nodup) {k : Key} (hk : k ∈ ks) (m : Mem) (l : Nat) :
    total ks (m.setLamports k l) + (m k).lamports = total ks m + l := by
  induction ks with
  | nil => cases hk
  | cons x ks ih =>
    have hx := (List.nodup_cons.mp hn)
    simp only [total, List.map_cons, List.sum_cons]
    by_cases h : x = k
    · subst h
      have e : total ks (m.setLamports x l) = total ks m := total_congr (fun y hy => by
        have : y ≠ x := by rintro rfl; exact hx.1 hy
        simp [Mem.setLamports, Mem.set_other m _ this])
      unfold total at e
      rw [e]
      have : (m.setLamports x l x).lamports = l := by simp [Mem.setLamports, Mem.set]
      omega
    · have := ih hx.2 (by rcases List.mem_cons.mp hk with rfl | h1; exact absurd rfl h; exact h1)
      have e : (m.setLamports k l x).lamports = (m x).lamports := by simp [Mem.setLamports, Mem.set_other m _ h]
      unfold total at this
      omega

theorem le_total {ks : List Key} {k : Key} (hk : k ∈ ks) (m : Mem) : (m k).lamports ≤ total ks m := by
  induction ks with
  | nil => cases hk
  | cons x ks ih =>
    simp only [total, List.map_cons, List.sum_cons]
    unfold total at ih
    rcases List.mem_cons.mp hk with rfl | h
    · omega
    · have := ih h; omega

section
variable {ks : List Key} {t : Nat} {env : Env} {cpi : Cpi} {m m' : Mem}

theorem Bal.congr (h : Bal ks t m) (e : ∀ k ∈ ks, (m' k).lamports = (m k).lamports) : Bal ks t m' :=
  ⟨h.nodup, h.small, (total_congr e).trans h.sum⟩

theorem Bal.setData {k : Key} (h : Bal ks t m) (_ : k ∈ ks) (d : Bytes) : Bal ks t (m.setData k d) := h.congr (fun x _ => by simp)

theorem Bal.realloc {k : Key} {l : Nat} (h : Bal ks t m) (hk : k ∈ ks) (e : realloc m k l = .ok m') : Bal ks t m' := by
  obtain ⟨_, rfl⟩ := realloc_ok e; exact h.setData hk _

theorem Bal.le {k : Key} (h : Bal ks t m) (hk : k ∈ ks) : (m k).lamports ≤ t := by
  have := le_total hk m; rw [h.sum] at this; exact this

/-- Lamports taken from one account and given to another. -/
theorem Bal.move {a b : Key} {x n : Nat} (h : Bal ks t m) (ha : a ∈ ks) (hb : b ∈ ks) (hx : x + n = (m a).lamports) :
    Bal ks t ((m.setLamports a x).setLamports b ((m.setLamports a x b).lamports + n)) := by
  have h1 := total_set h.nodup ha m x
  have h2 := total_set h.nodup hb (m.setLamports a x) ((m.setLamports a x b).lamports + n)
  have h3 := h.sum
  exact ⟨h.nodup, h.small, by omega⟩

/-- The same with the addition of the program. -/
theorem Bal.move64 {a b : Key} {x n : Nat} (h : Bal ks t m) (ha : a ∈ ks) (hb : b ∈ ks) (hx : x + n = (m a).lamports) :
    Bal ks t ((m.setLamports a x).setLamports b (add64 (m.setLamports a x b).lamports n)) := by
  have h1 := h.move ha hb hx
  have h2 := h1.le hb
  have h3 : (((m.setLamports a x).setLamports b ((m.setLamports a x b).lamports + n)) b).lamports = (m.setLamports a x b).lamports + n := by
    simp [Mem.setLamports, Mem.set]
  rw [h3] at h2
  have h4 := h.small
  have : add64 (m.setLamports a x b).lamports n = (m.setLamports a x b).lamports + n := by
    unfold add64; rw [Nat.mod_eq_of_lt (by omega)]
  rw [this]; exact h1

theorem Bal.sysTransfer {src dst : Meta} {l : Nat} (h : Bal ks t m) (hs : src.key ∈ ks) (hd : dst.key ∈ ks)
    (e : sysTransfer m src dst l = .ok m') : Bal ks t m' := by
  obtain ⟨_, _, _, h1, rfl⟩ := sysTransfer_ok e
  exact h.move hs hd (by omega)

theorem Bal.topUp {payer swig : Meta} {l : Nat} (h : Bal ks t m) (hs : payer.key ∈ ks) (hd : swig.key ∈ ks)
    (e : topUp env m payer swig l = .ok m') : Bal ks t m' := by
  unfold Verif.topUp at e
  dsimp only at e
  split at e
  · exact h.sysTransfer hs hd e
  · cases e; exact h

theorem Bal.fundWallet {payer wallet : Meta} (h : Bal ks t m) (hs : payer.key ∈ ks) (hd : wallet.key ∈ ks)
    (e : fundWallet env m payer wallet = .ok m') : Bal ks t m' := by
  unfold Verif.fundWallet at e
  dsimp only at e
  split at e
  · exact h.sysTransfer hs hd e
  · cases e; exact h

theorem Bal.fundState {payer state : Meta} (h : Bal ks t m) (hs : payer.key ∈ ks) (hd : state.key ∈ ks)
    (e : fundState env m payer state = .ok m') : Bal ks t m' := by
  unfold Verif.fundState at e
  split at e
  · exact h.sysTransfer hs hd e
  · cases e; exact h

theorem Bal.fundEmpty {payer sub : Meta} (h : Bal ks t m) (hs : payer.key ∈ ks) (hd : sub.key ∈ ks)
    (e : fundEmpty env m payer sub = .ok m') : Bal ks t m' := by
  exact h.fundWallet hs hd e

theorem Bal.signedTransfer {seeds : List Bytes} {src dst : Meta} {l : Nat} (h : Bal ks t m) (hs : src.key ∈ ks) (hd : dst.key ∈ ks)
    (e : signedTransfer env m seeds src dst l = .ok m') : Bal ks t m' := by
  unfold Verif.signedTransfer at e
  split at e
  · cases e
  · exact h.sysTransfer (by exact hs) hd e

theorem Bal.sysCreate {src dst : Meta} {l s : Nat} {o : Key} (h : Bal ks t m) (hs : src.key ∈ ks) (hd : dst.key ∈ ks)
    (e : sysCreate m src dst l s o = .ok m') : Bal ks t m' ∧ dst.key ∈ ks := by
  unfold Verif.sysCreate at e
  split at e
  · cases e
  · rename_i hw
    have hk : dst.key ∈ ks := hd
    split at e
    · cases e
    · split at e
      · cases e
      · refine ⟨Bal.sysTransfer ?_ hs hd e, hk⟩
        exact h.congr (fun x _ => by by_cases hx : x = dst.key <;> simp [Mem.set, hx])

theorem Bal.growFor {payer swig : Meta} {l : Nat} (h : Bal ks t m) (hk : swig.key ∈ ks) (hs : payer.key ∈ ks)
    (e : growFor env m payer swig l = .ok m') : Bal ks t m' := by
  unfold Verif.growFor at e
  split at e
  · obtain ⟨m1, h1, e⟩ := bind_ok_iff.mp e
    exact (h.realloc hk h1).topUp hs hk e
  · cases e; exact h

theorem Bal.shrinkBy {payer swig : Key} {l : Nat} (h : Bal ks t m) (hk : swig ∈ ks) (hp : payer ∈ ks)
    (e : shrinkBy env m payer swig l = .ok m') : Bal ks t m' := by
  unfold Verif.shrinkBy at e
  split at e
  · obtain ⟨m1, h1, e⟩ := bind_ok_iff.mp e
    have h := h.realloc hk h1
    dsimp only at e
    split at e
    · cases e
      exact h.move64 hk hp (by omega)
    · cases e; exact h
  · cases e; exact h

theorem Bal.refund {payer swig : Key} {old new : Nat} (h : Bal ks t m) (hk : swig ∈ ks) (hp : payer ∈ ks) (hr : env.RentMono)
    (hl : new ≤ old) (hx : env.rent old ≤ (m swig).lamports) : Bal ks t (removeRefund env m swig payer old new) := by
  have h1 := hr _ _ hl
  have h2 := h.le hk
  have h3 := h.small
  have e1 : sub64 (env.rent old) (env.rent new) = env.rent old - env.rent new := by unfold sub64; omega
  have e2 : sub64 (m swig).lamports (env.rent old - env.rent new) = (m swig).lamports - (env.rent old - env.rent new) := by
    unfold sub64; omega
  unfold removeRefund
  dsimp only
  rw [e1, e2]
  exact h.move64 hk hp (by omega)

/-! ## Management -/

theorem bal_add {swig payer sys : Meta} {rest : List Meta} {ix : Bytes} (hk : swig.key ∈ ks) (h : Bal ks t m)
    (hw : ∀ a ∈ swig :: payer :: sys :: rest, a.key ∈ ks)
    (e : addAuthorityV1 env m (swig :: payer :: sys :: rest) ix = .ok m') : Bal ks t m' := by
  simp only [addAuthorityV1] at e
  obtain ⟨_, _, e⟩ := bind_ok_iff.mp e
  obtain ⟨_, _, e⟩ := bind_ok_iff.mp e
  obtain ⟨_, _, e⟩ := bind_ok_iff.mp e
  obtain ⟨_, _, e⟩ := bind_ok_iff.mp e
  obtain ⟨_, _, e⟩ := bind_ok_iff.mp e
  obtain ⟨_, _, e⟩ := bind_ok_iff.mp e
  obtain ⟨⟨_, _⟩, _, e⟩ := bind_ok_iff.mp e
  obtain ⟨_, _, e⟩ := bind_ok_iff.mp e
  obtain ⟨_, _, e⟩ := bind_ok_iff.mp e
  obtain ⟨_, _, e⟩ := bind_ok_iff.mp e
  obtain ⟨m1, h1, e⟩ := bind_ok_iff.mp e
  obtain ⟨m2, h2, e⟩ := bind_ok_iff.mp e
  obtain ⟨_, _, e⟩ := bind_ok_iff.mp e
  cases e
  exact (((h.setData hk _).realloc hk h1).topUp (hw _ (by simp)) (hw _ (by simp)) h2).setData hk _

theorem bal_remove {swig payer sys : Meta} {rest : List Meta} {ix : Bytes} (hk : swig.key ∈ ks) (h : Bal ks t m)
    (hp : payer.key ∈ ks) (hr : env.RentMono) (hx : Exempt env m swig.key)
    (_ : ∀ a ∈ swig :: payer :: sys :: rest, a.key ∈ ks)
    (e : removeAuthorityV1 env m (swig :: payer :: sys :: rest) ix = .ok m') : Bal ks t m' := by
  simp only [removeAuthorityV1] at e
  obtain ⟨_, _, e⟩ := bind_ok_iff.mp e
  obtain ⟨_, _, e⟩ := bind_ok_iff.mp e
  obtain ⟨_, _, e⟩ := bind_ok_iff.mp e
  obtain ⟨_, _, e⟩ := bind_ok_iff.mp e
  obtain ⟨_, _, e⟩ := bind_ok_iff.mp e
  obtain ⟨_, _, e⟩ := bind_ok_iff.mp e
  obtain ⟨⟨_, _⟩, _, e⟩ := bind_ok_iff.mp e
  obtain ⟨_, _, e⟩ := bind_ok_iff.mp e
  obtain ⟨_, _, e⟩ := bind_ok_iff.mp e
  obtain ⟨_, _, e⟩ := bind_ok_iff.mp e
  obtain ⟨_, _, e⟩ := bind_ok_iff.mp e
  obtain ⟨⟨s, b, removed⟩, _, e⟩ := bind_ok_iff.mp e
  obtain ⟨m1, h1, e⟩ := bind_ok_iff.mp e
  obtain ⟨_, _, e⟩ := bind_ok_iff.mp e
  cases e
  refine Bal.setData (Bal.realloc ?_ hk h1) hk _
  refine (h.setData hk _).refund hk hp hr (Nat.sub_le _ _) ?_
  simpa [Exempt] using hx

theorem bal_update {swig payer sys : Meta} {rest : List Meta} {ix : Bytes} (hk : swig.key ∈ ks) (h : Bal ks t m)
    (hp : payer.key ∈ ks) (hw : ∀ a ∈ swig :: payer :: sys :: rest, a.key ∈ ks)
    (e : updateAuthorityV1 env m (swig :: payer :: sys :: rest) ix = .ok m') : Bal ks t m' := by
  simp only [updateAuthorityV1] at e
  obtain ⟨_, _, e⟩ := bind_ok_iff.mp e
  obtain ⟨_, _, e⟩ := bind_ok_iff.mp e
  obtain ⟨_, _, e⟩ := bind_ok_iff.mp e
  obtain ⟨_, _, e⟩ := bind_ok_iff.mp e
  obtain ⟨_, _, e⟩ := bind_ok_iff.mp e
  obtain ⟨⟨_, _⟩, _, e⟩ := bind_ok_iff.mp e
  obtain ⟨_, _, e⟩ := bind_ok_iff.mp e
  obtain ⟨_, _, e⟩ := bind_ok_iff.mp e
  obtain ⟨⟨_, _, _⟩, _, e⟩ := bind_ok_iff.mp e
  obtain ⟨m1, h1, e⟩ := bind_ok_iff.mp e
  obtain ⟨⟨_, _⟩, _, e⟩ := bind_ok_iff.mp e
  obtain ⟨m2, h2, e⟩ := bind_ok_iff.mp e
  obtain ⟨_, _, e⟩ := bind_ok_iff.mp e
  cases e
  exact Bal.setData (Bal.shrinkBy (((h.setData hk _).growFor hk (hw _ (by simp)) h1).setData hk _) hk hp h2) hk _

theorem bal_append {swig payer : Meta} {roleId : Nat} {acts : Bytes} (hk : swig.key ∈ ks) (h : Bal ks t m) (hp : payer.key ∈ ks)
    (e : appendActions env m swig payer roleId acts = .ok m') : Bal ks t m' := by
  simp only [appendActions] at e
  obtain ⟨_, _, e⟩ := bind_ok_iff.mp e
  obtain ⟨_, _, e⟩ := bind_ok_iff.mp e
  obtain ⟨⟨_, _, _⟩, _, e⟩ := bind_ok_iff.mp e
  obtain ⟨m1, h1, e⟩ := bind_ok_iff.mp e
  obtain ⟨⟨_, _⟩, _, e⟩ := bind_ok_iff.mp e
  cases e
  exact (h.growFor hk hp h1).setData hk _

theorem bal_claimer {swig payer sys : Meta} {rest : List Meta} {ix : Bytes} (hk : swig.key ∈ ks) (h : Bal ks t m)
    (hw : ∀ a ∈ swig :: payer :: sys :: rest, a.key ∈ ks)
    (e : setRentClaimerV1 env m (swig :: payer :: sys :: rest) ix = .ok m') : Bal ks t m' := by
  simp only [setRentClaimerV1] at e
  obtain ⟨_, _, e⟩ := bind_ok_iff.mp e
  obtain ⟨_, _, e⟩ := bind_ok_iff.mp e
  obtain ⟨_, _, e⟩ := bind_ok_iff.mp e
  obtain ⟨_, _, e⟩ := bind_ok_iff.mp e
  obtain ⟨_, _, e⟩ := bind_ok_iff.mp e
  obtain ⟨_, _, e⟩ := bind_ok_iff.mp e
  obtain ⟨_, _, e⟩ := bind_ok_iff.mp e
  obtain ⟨_, _, e⟩ := bind_ok_iff.mp e
  obtain ⟨⟨_, _⟩, _, e⟩ := bind_ok_iff.mp e
  obtain ⟨_, _, e⟩ := bind_ok_iff.mp e
  obtain ⟨_, _, e⟩ := bind_ok_iff.mp e
  obtain ⟨_, _, e⟩ := bind_ok_iff.mp e
  obtain ⟨_, _, e⟩ := bind_ok_iff.mp e
  obtain ⟨_, _, e⟩ := bind_ok_iff.mp e
  obtain ⟨m1, h1, e⟩ := bind_ok_iff.mp e
  obtain ⟨m2, h2, e⟩ := bind_ok_iff.mp e
  obtain ⟨_, _, e⟩ := bind_ok_iff.mp e
  cases e
  exact (((h.setData hk _).realloc hk h1).topUp (hw _ (by simp)) (hw _ (by simp)) h2).setData hk _

theorem bal_session {swig payer sys : Meta} {rest : List Meta} {ix : Bytes} (hk : swig.key ∈ ks) (h : Bal ks t m)
    (_ : ∀ a ∈ swig :: payer :: sys :: rest, a.key ∈ ks)
    (e : createSessionV1 env m (swig :: payer :: sys :: rest) ix = .ok m') : Bal ks t m' := by
  simp only [createSessionV1] at e
  obtain ⟨_, _, e⟩ := bind_ok_iff.mp e
  obtain ⟨_, _, e⟩ := bind_ok_iff.mp e
  obtain ⟨_, _, e⟩ := bind_ok_iff.mp e
  obtain ⟨_, _, e⟩ := bind_ok_iff.mp e
  obtain ⟨_, _, e⟩ := bind_ok_iff.mp e
  obtain ⟨_, _, e⟩ := bind_ok_iff.mp e
  cases e
  exact h.setData hk _

theorem bal_replace {swig : Meta} {rest : List Meta} {ix : Bytes} (hk : swig.key ∈ ks) (h : Bal ks t m)
    (_ : ∀ a ∈ swig :: rest, a.key ∈ ks)
    (e : replaceAuthorityV1 env m (swig :: rest) ix = .ok m') : Bal ks t m' := by
  simp only [replaceAuthorityV1] at e
  obtain ⟨_, _, e⟩ := bind_ok_iff.mp e
  obtain ⟨_, _, e⟩ := bind_ok_iff.mp e
  obtain ⟨_, _, e⟩ := bind_ok_iff.mp e
  obtain ⟨⟨_, _⟩, _, e⟩ := bind_ok_iff.mp e
  obtain ⟨_, _, e⟩ := bind_ok_iff.mp e
  obtain ⟨_, _, e⟩ := bind_ok_iff.mp e
  obtain ⟨_, _, e⟩ := bind_ok_iff.mp e
  obtain ⟨_, _, e⟩ := bind_ok_iff.mp e
  cases e
  exact h.setData hk _

theorem bal_create {swig payer wallet sys : Meta} {rest : List Meta} {ix : Bytes} (h : Bal ks t m)
    (hw : ∀ a ∈ swig :: payer :: wallet :: sys :: rest, a.key ∈ ks)
    (e : createV1 env m (swig :: payer :: wallet :: sys :: rest) ix = .ok m') : Bal ks t m' := by
  simp only [createV1] at e
  obtain ⟨⟨c, al⟩, h0, e⟩ := bind_ok_iff.mp e
  obtain ⟨m1, h1, e⟩ := bind_ok_iff.mp e
  obtain ⟨m2, h2, e⟩ := bind_ok_iff.mp e
  obtain ⟨_, _, e⟩ := bind_ok_iff.mp e
  cases e
  obtain ⟨h1, hk⟩ := h.sysCreate (hw payer (by simp)) (hw swig (by simp)) h1
  exact (h1.fundWallet (hw payer (by simp)) (hw wallet (by simp)) h2).setData hk _

/-! ## Calls -/

variable (hc : cpi.Conserves)
include hc

theorem Bal.invokeSigned {outer : List Meta} {ix : CpiIx} {seeds : List Bytes} (hw : ∀ a ∈ outer, a.key ∈ ks) (h : Bal ks t m)
    (e : invokeSigned env cpi m outer ix seeds = .ok m') : Bal ks t m' := by
  have e1 := invokeSigned_cpi e
  unfold Verif.invokeSigned at e
  split at e
  · cases e
  · split at e
    · rename_i hp
      refine ⟨h.nodup, h.small, (hc _ _ _ ks h.nodup (fun a ha hwr => ?_) e1).trans h.sum⟩
      obtain ⟨o, ho, h1, _⟩ := (hp a ha).2 hwr
      exact h1 ▸ hw o ho
    · cases e

theorem Bal.execInner {metas : List Meta} {signer : Key} {seeds : List Bytes} {ix : Inner} (hw : ∀ a ∈ metas, a.key ∈ ks)
    (hq : cpi.Leaves signer) (h : Bal ks t m) (hs : (m signer).owner = systemId)
    (e : execInner env cpi m metas signer seeds ix = .ok m') : Bal ks t m' ∧ (m' signer).owner = systemId := by
  rcases execInner_cases e with e | ⟨a, d, rest, ha, hk, h1, rfl⟩
  · exact ⟨h.invokeSigned hc hw e, hq _ _ _ hs (invokeSigned_cpi e)⟩
  · exact absurd hs h1

theorem Bal.execAll {metas : List Meta} {signer : Key} {seeds : List Bytes} (hw : ∀ a ∈ metas, a.key ∈ ks) (hq : cpi.Leaves signer) :
    ∀ {ixs : List Inner} {m m' : Mem}, Bal ks t m →
    (m signer).owner = systemId → execAll env cpi metas signer seeds m ixs = .ok m' → Bal ks t m' := by
  intro ixs
  induction ixs with
  | nil => intro m m' h _ e; cases e; exact h
  | cons ix ixs ih =>
    intro m m' h hs e
    simp only [Verif.execAll] at e
    obtain ⟨m1, h1, e⟩ := bind_ok_iff.mp e
    obtain ⟨g1, g2⟩ := h.execInner hc hw hq hs h1
    exact ih g1 g2 e

theorem Bal.closeTokensGo {outer : List Meta} {program : Key} {v2 : Bool} {swig wallet dst : Key} {s1 s2 : List Bytes}
    (hw : ∀ a ∈ outer, a.key ∈ ks) : ∀ {l : List Meta} {m m' : Mem}, Bal ks t m →
    closeTokensGo env cpi outer program v2 swig wallet dst s1 s2 m l = .ok m' → Bal ks t m' := by
  intro l
  induction l with
  | nil => intro m m' h e; cases e; exact h
  | cons t l ih =>
    intro m m' h e
    simp only [Verif.closeTokensGo] at e
    obtain ⟨_, _, e⟩ := bind_ok_iff.mp e
    obtain ⟨m1, h1, e⟩ := bind_ok_iff.mp e
    exact ih (h.invokeSigned hc hw h1) e

theorem Bal.transferTokensGo {outer : List Meta} {swig wallet : Key} {seeds : List Bytes} (hw : ∀ a ∈ outer, a.key ∈ ks) :
    ∀ (n : Nat) {l : List Meta} {m m' : Mem},
    l.length ≤ n → Bal ks t m → transferTokensGo env cpi outer swig wallet seeds m l = .ok m' → Bal ks t m' := by
  intro n
  induction n with
  | zero =>
    intro l m m' hl h e
    cases l with
    | nil => unfold Verif.transferTokensGo at e; cases e; exact h
    | cons _ _ => simp at hl
  | succ n ih =>
    intro l m m' hl h e
    match l, hl, e with
    | [], _, e => unfold Verif.transferTokensGo at e; cases e; exact h
    | [_], _, e => unfold Verif.transferTokensGo at e; cases e; exact h
    | [_, _], _, e => unfold Verif.transferTokensGo at e; cases e; exact h
    | a :: b :: c :: l, hl, e =>
      unfold Verif.transferTokensGo at e
      obtain ⟨m1, h1, e⟩ := bind_ok_iff.mp e
      refine ih (by simp at hl; omega) ?_ e
      unfold transferOne at h1
      split at h1
      · exact h.invokeSigned hc hw h1
      · cases h1; exact h

theorem bal_closeToken {swig wallet dst token : Meta} {rest : List Meta} {ix : Bytes} (hk : swig.key ∈ ks) (h : Bal ks t m)
    (hw : ∀ a ∈ swig :: wallet :: dst :: token :: rest, a.key ∈ ks)
    (e : closeTokenV1 env cpi m (swig :: wallet :: dst :: token :: rest) ix = .ok m') : Bal ks t m' := by
  simp only [closeTokenV1] at e
  obtain ⟨_, _, e⟩ := bind_ok_iff.mp e
  obtain ⟨_, _, e⟩ := bind_ok_iff.mp e
  obtain ⟨_, _, e⟩ := bind_ok_iff.mp e
  obtain ⟨_, _, e⟩ := bind_ok_iff.mp e
  obtain ⟨⟨_, _⟩, _, e⟩ := bind_ok_iff.mp e
  obtain ⟨_, _, e⟩ := bind_ok_iff.mp e
  obtain ⟨_, _, e⟩ := bind_ok_iff.mp e
  obtain ⟨⟨_, _⟩, _, e⟩ := bind_ok_iff.mp e
  obtain ⟨_, _, e⟩ := bind_ok_iff.mp e
  obtain ⟨_, _, e⟩ := bind_ok_iff.mp e
  obtain ⟨_, _, e⟩ := bind_ok_iff.mp e
  obtain ⟨_, _, e⟩ := bind_ok_iff.mp e
  obtain ⟨_, _, e⟩ := bind_ok_iff.mp e
  obtain ⟨_, _, e⟩ := bind_ok_iff.mp e
  exact Bal.closeTokensGo hc hw (h.setData hk _) e

theorem bal_transferAssets {swig wallet payer sys : Meta} {rest : List Meta} {ix : Bytes} (hk : swig.key ∈ ks) (h : Bal ks t m)
    (hp : wallet.key ∈ ks) (hw : ∀ a ∈ swig :: wallet :: payer :: sys :: rest, a.key ∈ ks)
    (e : transferAssetsV1 env cpi m (swig :: wallet :: payer :: sys :: rest) ix = .ok m') : Bal ks t m' := by
  simp only [transferAssetsV1] at e
  obtain ⟨_, _, e⟩ := bind_ok_iff.mp e
  obtain ⟨_, _, e⟩ := bind_ok_iff.mp e
  obtain ⟨_, _, e⟩ := bind_ok_iff.mp e
  obtain ⟨_, _, e⟩ := bind_ok_iff.mp e
  obtain ⟨_, _, e⟩ := bind_ok_iff.mp e
  obtain ⟨⟨_, _⟩, _, e⟩ := bind_ok_iff.mp e
  obtain ⟨_, _, e⟩ := bind_ok_iff.mp e
  obtain ⟨_, _, e⟩ := bind_ok_iff.mp e
  refine Bal.transferTokensGo hc hw _ (Nat.le_refl _) ?_ e
  unfold transferSol
  dsimp only
  split
  · rename_i hl
    refine (h.setData hk _).move64 hk hp ?_
    simp at hl ⊢
    omega
  · exact h.setData hk _

omit hc in
theorem bal_closeSwig {swig wallet dst sys : Meta} {rest : List Meta} {ix : Bytes} (hk : swig.key ∈ ks) (h : Bal ks t m)
    (hp : dst.key ∈ ks) (hr : env.RentMono) (hx : Exempt env m swig.key) (hne : dst.key ≠ swig.key)
    (hw : ∀ a ∈ swig :: wallet :: dst :: sys :: rest, a.key ∈ ks)
    (e : closeSwigV1 env m (swig :: wallet :: dst :: sys :: rest) ix = .ok m') : Bal ks t m' := by
  simp only [closeSwigV1] at e
  obtain ⟨_, hso, e⟩ := bind_ok_iff.mp e
  have hso := require_ok_iff.mp hso
  obtain ⟨_, _, e⟩ := bind_ok_iff.mp e
  obtain ⟨_, _, e⟩ := bind_ok_iff.mp e
  obtain ⟨_, hopen, e⟩ := bind_ok_iff.mp e
  obtain ⟨_, _, e⟩ := bind_ok_iff.mp e
  obtain ⟨⟨_, _⟩, _, e⟩ := bind_ok_iff.mp e
  obtain ⟨_, _, e⟩ := bind_ok_iff.mp e
  obtain ⟨⟨_, _⟩, _, e⟩ := bind_ok_iff.mp e
  obtain ⟨_, _, e⟩ := bind_ok_iff.mp e
  obtain ⟨_, _, e⟩ := bind_ok_iff.mp e
  obtain ⟨_, _, e⟩ := bind_ok_iff.mp e
  obtain ⟨_, _, e⟩ := bind_ok_iff.mp e
  obtain ⟨_, _, e⟩ := bind_ok_iff.mp e
  obtain ⟨m1, h1, e⟩ := bind_ok_iff.mp e
  obtain ⟨m2, h2, e⟩ := bind_ok_iff.mp e
  cases e
  refine Bal.setData (Bal.realloc ?_ hk h2) hk _
  have g : Bal ks t m1 := by
    unfold drainWallet at h1
    split at h1
    · exact (h.setData hk _).signedTransfer (hw wallet (by simp)) (hw dst (by simp)) h1
    · cases h1; exact h.setData hk _
  have hold : (m1 swig.key).lamports = (m swig.key).lamports := by
    unfold drainWallet at h1
    split at h1
    · unfold signedTransfer at h1
      split at h1
      · cases h1
      · obtain ⟨_, ho, _, _, rfl⟩ := sysTransfer_ok h1
        have hwk : swig.key ≠ wallet.key := by
          intro hh
          simp only [Mem.setData_owner] at ho
          rw [← hh, hso] at ho
          revert ho; decide
        simp [Mem.setLamports, Mem.set, hne.symm, hwk, Mem.setData]
    · cases h1; simp
  have hone : env.rent 1 ≤ (m swig.key).lamports := by
    refine Nat.le_trans (hr _ _ ?_) hx
    unfold openSwig at hopen
    split at hopen
    · cases hopen
    · exact List.length_pos_iff.mpr (by assumption)
  unfold closeLamports
  dsimp only
  rw [← hold] at hone ⊢
  exact g.move64 hk hp (by omega)

omit hc in
theorem bal_migrate {swig auth payer wallet sys : Meta} {rest : List Meta} {ix : Bytes} (hk : swig.key ∈ ks) (h : Bal ks t m)
    (hw : ∀ a ∈ swig :: auth :: payer :: wallet :: sys :: rest, a.key ∈ ks)
    (e : migrateV1 env m (swig :: auth :: payer :: wallet :: sys :: rest) ix = .ok m') : Bal ks t m' := by
  simp only [migrateV1] at e
  obtain ⟨_, _, e⟩ := bind_ok_iff.mp e
  obtain ⟨_, _, e⟩ := bind_ok_iff.mp e
  obtain ⟨_, _, e⟩ := bind_ok_iff.mp e
  obtain ⟨_, _, e⟩ := bind_ok_iff.mp e
  obtain ⟨_, _, e⟩ := bind_ok_iff.mp e
  obtain ⟨⟨_, _⟩, _, e⟩ := bind_ok_iff.mp e
  obtain ⟨_, _, e⟩ := bind_ok_iff.mp e
  obtain ⟨_, _, e⟩ := bind_ok_iff.mp e
  obtain ⟨_, _, e⟩ := bind_ok_iff.mp e
  obtain ⟨_, _, e⟩ := bind_ok_iff.mp e
  obtain ⟨_, _, e⟩ := bind_ok_iff.mp e
  obtain ⟨_, _, e⟩ := bind_ok_iff.mp e
  exact (h.setData hk _).fundWallet (hw payer (by simp)) (hw wallet (by simp)) e

/-! ## Sub-accounts -/

omit hc in
theorem bal_createSubV1 {swig payer sub sys : Meta} {rest : List Meta} {ix : Bytes} (hk : swig.key ∈ ks) (h : Bal ks t m)
    (hw : ∀ a ∈ swig :: payer :: sub :: sys :: rest, a.key ∈ ks)
    (e : createSubV1 env m (swig :: payer :: sub :: sys :: rest) ix = .ok m') : Bal ks t m' := by
  simp only [createSubV1] at e
  obtain ⟨_, _, e⟩ := bind_ok_iff.mp e
  obtain ⟨_, _, e⟩ := bind_ok_iff.mp e
  obtain ⟨_, _, e⟩ := bind_ok_iff.mp e
  obtain ⟨_, _, e⟩ := bind_ok_iff.mp e
  obtain ⟨⟨_, _⟩, _, e⟩ := bind_ok_iff.mp e
  obtain ⟨_, _, e⟩ := bind_ok_iff.mp e
  obtain ⟨_, _, e⟩ := bind_ok_iff.mp e
  obtain ⟨_, _, e⟩ := bind_ok_iff.mp e
  obtain ⟨m1, h1, e⟩ := bind_ok_iff.mp e
  cases e
  exact ((h.setData hk _).fundWallet (hw payer (by simp)) (hw sub (by simp)) h1).setData hk _

omit hc in
theorem Bal.checkRent {k : Key} {a : Mem} (h : Bal ks t m) (e : checkRent env m k = .ok a) : Bal ks t a := by
  unfold Verif.checkRent at e
  split at e
  · cases e
  · cases e; exact h

theorem bal_subSignV1 {swig sub sys : Meta} {rest : List Meta} {ix : Bytes} (hk : swig.key ∈ ks) (h : Bal ks t m)
    (hw : ∀ a ∈ swig :: sub :: sys :: rest, a.key ∈ ks) (hq : cpi.Leaves sub.key)
    (e : subSignV1 env cpi m (swig :: sub :: sys :: rest) ix = .ok m') : Bal ks t m' := by
  simp only [subSignV1] at e
  obtain ⟨_, _, e⟩ := bind_ok_iff.mp e
  obtain ⟨_, _, e⟩ := bind_ok_iff.mp e
  obtain ⟨_, hs, e⟩ := bind_ok_iff.mp e
  have hs := require_ok_iff.mp hs
  obtain ⟨_, _, e⟩ := bind_ok_iff.mp e
  obtain ⟨_, _, e⟩ := bind_ok_iff.mp e
  obtain ⟨⟨_, _⟩, _, e⟩ := bind_ok_iff.mp e
  obtain ⟨_, _, e⟩ := bind_ok_iff.mp e
  obtain ⟨_, _, e⟩ := bind_ok_iff.mp e
  obtain ⟨_, _, e⟩ := bind_ok_iff.mp e
  obtain ⟨_, hx, e⟩ := bind_ok_iff.mp e
  obtain ⟨m1, h1, e⟩ := bind_ok_iff.mp e
  exact Bal.checkRent (Bal.execAll hc hw hq (h.setData hk _) (by simpa using hs) h1) e

omit hc in
theorem bal_toggleSubV1 {swig payer sub : Meta} {rest : List Meta} {ix : Bytes} (hk : swig.key ∈ ks) (h : Bal ks t m)
    (_ : ∀ a ∈ swig :: payer :: sub :: rest, a.key ∈ ks)
    (e : toggleSubV1 env m (swig :: payer :: sub :: rest) ix = .ok m') : Bal ks t m' := by
  simp only [toggleSubV1] at e
  obtain ⟨_, _, e⟩ := bind_ok_iff.mp e
  obtain ⟨_, _, e⟩ := bind_ok_iff.mp e
  obtain ⟨_, _, e⟩ := bind_ok_iff.mp e
  obtain ⟨_, _, e⟩ := bind_ok_iff.mp e
  obtain ⟨_, _, e⟩ := bind_ok_iff.mp e
  obtain ⟨⟨_, _⟩, _, e⟩ := bind_ok_iff.mp e
  obtain ⟨_, _, e⟩ := bind_ok_iff.mp e
  obtain ⟨_, _, e⟩ := bind_ok_iff.mp e
  obtain ⟨_, _, e⟩ := bind_ok_iff.mp e
  cases e
  exact h.setData hk _

theorem Bal.withdrawTokenV1 {metas : List Meta} {sub wallet : Key} {n : Nat} {seeds : List Bytes} (hw : ∀ a ∈ metas, a.key ∈ ks) (h : Bal ks t m)
    (e : withdrawTokenV1 env cpi m metas sub wallet n seeds = .ok m') : Bal ks t m' := by
  unfold Verif.withdrawTokenV1 at e
  obtain ⟨_, _, e⟩ := bind_ok_iff.mp e
  obtain ⟨_, _, e⟩ := bind_ok_iff.mp e
  obtain ⟨_, _, e⟩ := bind_ok_iff.mp e
  obtain ⟨_, _, e⟩ := bind_ok_iff.mp e
  obtain ⟨_, _, e⟩ := bind_ok_iff.mp e
  obtain ⟨_, _, e⟩ := bind_ok_iff.mp e
  obtain ⟨_, _, e⟩ := bind_ok_iff.mp e
  exact h.invokeSigned hc hw e

omit hc in
theorem Bal.withdrawSol {sub wallet : Meta} {n : Nat} {seeds : List Bytes} (h : Bal ks t m) (h1 : sub.key ∈ ks) (h2 : wallet.key ∈ ks)
    (e : withdrawSol env m sub wallet n seeds = .ok m') : Bal ks t m' := by
  unfold Verif.withdrawSol at e
  split at e
  · cases e
  · exact h.signedTransfer h1 h2 e

theorem bal_withdrawSubV1 {swig auth sub x3 wallet x5 : Meta} {rest : List Meta} {ix : Bytes} (hk : swig.key ∈ ks) (h : Bal ks t m)
    (hw : ∀ a ∈ swig :: auth :: sub :: x3 :: wallet :: x5 :: rest, a.key ∈ ks)
    (e : withdrawSubV1 env cpi m (swig :: auth :: sub :: x3 :: wallet :: x5 :: rest) ix = .ok m') : Bal ks t m' := by
  simp only [withdrawSubV1] at e
  obtain ⟨_, _, e⟩ := bind_ok_iff.mp e
  obtain ⟨_, _, e⟩ := bind_ok_iff.mp e
  obtain ⟨_, _, e⟩ := bind_ok_iff.mp e
  obtain ⟨_, _, e⟩ := bind_ok_iff.mp e
  obtain ⟨_, _, e⟩ := bind_ok_iff.mp e
  obtain ⟨⟨_, _⟩, _, e⟩ := bind_ok_iff.mp e
  obtain ⟨_, _, e⟩ := bind_ok_iff.mp e
  obtain ⟨⟨_, _⟩, _, e⟩ := bind_ok_iff.mp e
  obtain ⟨_, _, e⟩ := bind_ok_iff.mp e
  obtain ⟨⟨_, _⟩, _, e⟩ := bind_ok_iff.mp e
  split at e
  · exact Bal.withdrawTokenV1 hc hw (h.setData hk _) e
  · exact (h.setData hk _).withdrawSol (hw sub (by simp)) (hw wallet (by simp)) e

omit hc in
theorem bal_createSubV2 {swig payer state sub sys : Meta} {rest : List Meta} {ix : Bytes} (hk : swig.key ∈ ks) (h : Bal ks t m)
    (hw : ∀ a ∈ swig :: payer :: state :: sub :: sys :: rest, a.key ∈ ks)
    (e : createSubV2 env m (swig :: payer :: state :: sub :: sys :: rest) ix = .ok m') : Bal ks t m' := by
  simp only [createSubV2] at e
  obtain ⟨_, _, e⟩ := bind_ok_iff.mp e
  obtain ⟨_, h0, e⟩ := bind_ok_iff.mp e
  obtain ⟨_, _, e⟩ := bind_ok_iff.mp e
  obtain ⟨_, _, e⟩ := bind_ok_iff.mp e
  obtain ⟨_, _, e⟩ := bind_ok_iff.mp e
  obtain ⟨_, _, e⟩ := bind_ok_iff.mp e
  obtain ⟨⟨_, _, _⟩, _, e⟩ := bind_ok_iff.mp e
  obtain ⟨_, _, e⟩ := bind_ok_iff.mp e
  obtain ⟨_, _, e⟩ := bind_ok_iff.mp e
  obtain ⟨m1, h1, e⟩ := bind_ok_iff.mp e
  obtain ⟨m2, h2, e⟩ := bind_ok_iff.mp e
  obtain ⟨m3, h3, e⟩ := bind_ok_iff.mp e
  have g1 := (h.setData hk _).fundState (hw payer (by simp)) (hw state (by simp)) h1
  have hs : state.key ∈ ks := hw state (by simp)
  have g2 : Bal ks t m2 := by
    rw [sysAllocAssign_ok h2]; exact g1.congr (fun x _ => by by_cases hx : x = state.key <;> simp [Mem.set, hx])
  have g3 := (g2.setData hs _).fundEmpty (hw payer (by simp)) (hw sub (by simp)) h3
  unfold grantAll at e
  split at e
  · cases e; exact g3
  · exact bal_append hk g3 (hw payer (by simp)) e

theorem bal_subSignV2 {swig state sub sys : Meta} {rest : List Meta} {ix : Bytes} (hk : swig.key ∈ ks) (h : Bal ks t m)
    (hw : ∀ a ∈ swig :: state :: sub :: sys :: rest, a.key ∈ ks) (hq : cpi.Leaves sub.key)
    (e : subSignV2 env cpi m (swig :: state :: sub :: sys :: rest) ix = .ok m') : Bal ks t m' := by
  simp only [subSignV2] at e
  obtain ⟨_, _, e⟩ := bind_ok_iff.mp e
  obtain ⟨_, _, e⟩ := bind_ok_iff.mp e
  obtain ⟨_, hs, e⟩ := bind_ok_iff.mp e
  have hs := require_ok_iff.mp hs
  obtain ⟨_, _, e⟩ := bind_ok_iff.mp e
  obtain ⟨⟨_, _⟩, _, e⟩ := bind_ok_iff.mp e
  obtain ⟨_, _, e⟩ := bind_ok_iff.mp e
  obtain ⟨_, hx, e⟩ := bind_ok_iff.mp e
  obtain ⟨m1, h1, e⟩ := bind_ok_iff.mp e
  exact Bal.checkRent (Bal.execAll hc hw hq (h.setData hk _) (by simpa using hs) h1) e

theorem bal_withdrawSubV2 {swig auth state sub wallet x6 x7 : Meta} {rest : List Meta} {ix : Bytes} (hk : swig.key ∈ ks) (h : Bal ks t m)
    (hw : ∀ a ∈ swig :: auth :: state :: sub :: wallet :: x6 :: x7 :: rest, a.key ∈ ks)
    (e : withdrawSubV2 env cpi m (swig :: auth :: state :: sub :: wallet :: x6 :: x7 :: rest) ix = .ok m') : Bal ks t m' := by
  simp only [withdrawSubV2] at e
  obtain ⟨_, _, e⟩ := bind_ok_iff.mp e
  obtain ⟨_, _, e⟩ := bind_ok_iff.mp e
  obtain ⟨_, _, e⟩ := bind_ok_iff.mp e
  obtain ⟨_, _, e⟩ := bind_ok_iff.mp e
  obtain ⟨⟨_, _⟩, _, e⟩ := bind_ok_iff.mp e
  obtain ⟨_, _, e⟩ := bind_ok_iff.mp e
  obtain ⟨_, _, e⟩ := bind_ok_iff.mp e
  unfold withdrawV2 at e
  split at e
  · obtain ⟨_, _, e⟩ := bind_ok_iff.mp e
    obtain ⟨_, _, e⟩ := bind_ok_iff.mp e
    obtain ⟨_, _, e⟩ := bind_ok_iff.mp e
    obtain ⟨_, _, e⟩ := bind_ok_iff.mp e
    exact Bal.invokeSigned hc hw (h.setData hk _) e
  · split at e
    · exact (h.setData hk _).withdrawSol (hw sub (by simp)) (hw wallet (by simp)) e
    · cases e

omit hc in
theorem bal_toggleSubV2 {swig auth state : Meta} {rest : List Meta} {ix : Bytes} (hk : swig.key ∈ ks)
    (h : Bal ks t m) (hp : state.key ∈ ks)
    (e : toggleSubV2 env m (swig :: auth :: state :: rest) ix = .ok m') : Bal ks t m' := by
  simp only [toggleSubV2] at e
  obtain ⟨_, _, e⟩ := bind_ok_iff.mp e
  obtain ⟨_, _, e⟩ := bind_ok_iff.mp e
  obtain ⟨_, _, e⟩ := bind_ok_iff.mp e
  obtain ⟨_, _, e⟩ := bind_ok_iff.mp e
  obtain ⟨⟨_, _⟩, _, e⟩ := bind_ok_iff.mp e
  obtain ⟨_, h1, e⟩ := bind_ok_iff.mp e
  cases e
  exact (h.setData hk _).setData hp _

/-! ## SignV2 -/

omit hc in
theorem Bal.write {l : ActLoc} {ty o : Nat} {acts : Bytes} {f : Bytes → R Bytes} (hk : l.swig ∈ ks) (h : Bal ks t m)
    (e : l.write m ty acts f o = .ok m') : Bal ks t m' := by
  unfold ActLoc.write at e
  obtain ⟨_, _, e⟩ := bind_ok_iff.mp e
  cases e; exact h.setData hk _

omit hc in
theorem Bal.charge {l : ActLoc} {ty : Nat} {key : Bytes} {f : Bytes → R Bytes} (hk : l.swig ∈ ks) (h : Bal ks t m)
    (e : l.charge m ty key f = .ok (some m')) : Bal ks t m' := by
  unfold ActLoc.charge at e
  obtain ⟨_, _, e⟩ := bind_ok_iff.mp e
  obtain ⟨o, _, e⟩ := bind_ok_iff.mp e
  cases o with
  | none => cases e
  | some o =>
    obtain ⟨m1, h1, e⟩ := bind_ok_iff.mp e
    cases e; exact h.write hk h1

variable {x : SignCtx}

omit hc in
theorem Bal.chargeEither {ty1 ty2 : Nat} {key : Bytes} {f1 f2 : Bytes → R Bytes} {b : Bool} (hk : x.loc.swig ∈ ks) (h : Bal ks t m)
    (e : chargeEither x m ty1 ty2 key f1 f2 = .ok (m', b)) : Bal ks t m' := by
  unfold Verif.chargeEither at e
  obtain ⟨r, h1, e⟩ := bind_ok_iff.mp e
  cases r with
  | some m1 => cases e; exact h.charge hk h1
  | none =>
    obtain ⟨r, h2, e⟩ := bind_ok_iff.mp e
    cases r with
    | some m1 => cases e; exact h.charge hk h2
    | none => cases e; exact h

omit hc in
theorem Bal.chargeDests {one : Mem → Key → Nat → R (Mem × Bool)} (h1 : ∀ m d n m' b, Bal ks t m → one m d n = .ok (m', b) → Bal ks t m') :
    ∀ {ts : List (Key × Nat)} {m m' : Mem} {sum sum' : Nat}, Bal ks t m → chargeDests one m sum ts = .ok (m', sum') → Bal ks t m' := by
  intro ts
  induction ts with
  | nil => intro m m' sum sum' h e; cases e; exact h
  | cons t ts ih =>
    intro m m' sum sum' h e
    obtain ⟨d, n⟩ := t
    simp only [Verif.chargeDests] at e
    obtain ⟨_, _, e⟩ := bind_ok_iff.mp e
    obtain ⟨⟨m1, ok⟩, h2, e⟩ := bind_ok_iff.mp e
    obtain ⟨_, _, e⟩ := bind_ok_iff.mp e
    exact ih (h1 _ _ _ _ _ h h2) e

omit hc in
theorem Bal.settleDests {has : Bool} {one : Mem → Key → Nat → R (Mem × Bool)} {spent : Nat} {ts : List (Key × Nat)} {b : Bool}
    (h1 : ∀ m d n m' b, Bal ks t m → one m d n = .ok (m', b) → Bal ks t m') (h : Bal ks t m)
    (e : settleDests has one m spent ts = .ok (m', b)) : Bal ks t m' := by
  unfold Verif.settleDests at e
  split at e
  · obtain ⟨⟨m1, s⟩, h2, e⟩ := bind_ok_iff.mp e
    obtain ⟨_, _, e⟩ := bind_ok_iff.mp e
    cases e
    exact Bal.chargeDests h1 h h2
  · cases e; exact h

omit hc in
theorem Bal.settleSol {spent : Nat} (hk : x.loc.swig ∈ ks) (h : Bal ks t m) (e : settleSol x m spent = .ok m') : Bal ks t m' := by
  unfold Verif.settleSol at e
  obtain ⟨⟨m1, _⟩, h1, e⟩ := bind_ok_iff.mp e
  obtain ⟨_, _, e⟩ := bind_ok_iff.mp e
  obtain ⟨_, _, e⟩ := bind_ok_iff.mp e
  obtain ⟨⟨m2, _⟩, h2, e⟩ := bind_ok_iff.mp e
  obtain ⟨_, _, e⟩ := bind_ok_iff.mp e
  cases e
  exact Bal.settleDests (fun _ _ _ _ _ g k => g.chargeEither hk k) (h.chargeEither hk h1) h2

omit hc in
theorem Bal.settleTokenSpent {src mint : Bytes} {spent : Nat} (hk : x.loc.swig ∈ ks) (h : Bal ks t m)
    (e : settleTokenSpent x m src mint spent = .ok m') : Bal ks t m' := by
  unfold Verif.settleTokenSpent at e
  obtain ⟨⟨m1, _⟩, h1, e⟩ := bind_ok_iff.mp e
  obtain ⟨_, _, e⟩ := bind_ok_iff.mp e
  obtain ⟨_, _, e⟩ := bind_ok_iff.mp e
  obtain ⟨⟨m2, _⟩, h2, e⟩ := bind_ok_iff.mp e
  obtain ⟨_, _, e⟩ := bind_ok_iff.mp e
  cases e
  exact Bal.settleDests (fun _ _ _ _ _ g k => g.chargeEither hk k) (h.chargeEither hk h1) h2

omit hc in
theorem Bal.settleOne {a : Meta} {c : Class} {hh : Option Bytes} {total : Nat} (hk : x.loc.swig ∈ ks) (h : Bal ks t m)
    (e : settleOne x m a c hh total = .ok m') : Bal ks t m' := by
  unfold Verif.settleOne at e
  split at e
  · unfold settleSwig at e
    obtain ⟨_, _, e⟩ := bind_ok_iff.mp e
    obtain ⟨_, _, e⟩ := bind_ok_iff.mp e
    split at e
    · cases e; exact h
    · exact h.settleSol hk e
  · unfold settleToken at e
    split at e
    · unfold settleClosed at e
      obtain ⟨_, _, e⟩ := bind_ok_iff.mp e
      obtain ⟨_, _, e⟩ := bind_ok_iff.mp e
      obtain ⟨_, _, e⟩ := bind_ok_iff.mp e
      cases e; exact h
    · obtain ⟨_, _, e⟩ := bind_ok_iff.mp e
      obtain ⟨_, _, e⟩ := bind_ok_iff.mp e
      obtain ⟨_, _, e⟩ := bind_ok_iff.mp e
      obtain ⟨_, _, e⟩ := bind_ok_iff.mp e
      split at e
      · cases e; exact h
      · exact h.settleTokenSpent hk e
  · unfold settleStake at e
    obtain ⟨_, _, e⟩ := bind_ok_iff.mp e
    split at e
    · cases e; exact h
    · unfold settleStakeSpent at e
      obtain ⟨_, _, e⟩ := bind_ok_iff.mp e
      split at e
      · cases e; exact h
      · obtain ⟨⟨m1, _⟩, h1, e⟩ := bind_ok_iff.mp e
        obtain ⟨_, _, e⟩ := bind_ok_iff.mp e
        cases e
        exact h.chargeEither hk h1
  · unfold settleScope at e
    obtain ⟨_, _, e⟩ := bind_ok_iff.mp e
    obtain ⟨_, _, e⟩ := bind_ok_iff.mp e
    obtain ⟨_, _, e⟩ := bind_ok_iff.mp e
    obtain ⟨_, _, e⟩ := bind_ok_iff.mp e
    split at e
    · cases e; exact h
    · unfold settleScopeSpent at e
      obtain ⟨r, h1, e⟩ := bind_ok_iff.mp e
      have := orErr_ok e
      subst this
      exact h.charge hk h1
  · cases e; exact h

omit hc in
theorem Bal.settleAll {total : Nat} (hk : x.loc.swig ∈ ks) : ∀ {l : List (Meta × Class)} {hs : List (Option Bytes)} {m m' : Mem}, Bal ks t m →
    settleAll x total m l hs = .ok m' → Bal ks t m' := by
  intro l
  induction l with
  | nil => intro hs m m' h e; unfold Verif.settleAll at e; cases e; exact h
  | cons t l ih =>
    intro hs m m' h e
    obtain ⟨a, c⟩ := t
    cases hs with
    | nil => unfold Verif.settleAll at e; cases e; exact h
    | cons hh hs =>
      unfold Verif.settleAll at e
      obtain ⟨m1, h1, e⟩ := bind_ok_iff.mp e
      exact ih (h.settleOne hk h1) e

theorem Bal.runIxs (hw : ∀ a ∈ x.metas, a.key ∈ ks) (hq : cpi.Leaves x.wallet) : ∀ {ixs : List Inner} {m m' : Mem}
    {l l' : List (Meta × Class)} {n n' : Nat}, Bal ks t m →
    (m x.wallet).owner = systemId → runIxs x cpi m l n ixs = .ok (m', l', n') → Bal ks t m' := by
  intro ixs
  induction ixs with
  | nil => intro m m' l l' n n' h _ e; cases e; exact h
  | cons ix ixs ih =>
    intro m m' l l' n n' h hs e
    simp only [Verif.runIxs] at e
    obtain ⟨_, _, e⟩ := bind_ok_iff.mp e
    obtain ⟨_, _, e⟩ := bind_ok_iff.mp e
    obtain ⟨m1, h1, e⟩ := bind_ok_iff.mp e
    obtain ⟨_, _, e⟩ := bind_ok_iff.mp e
    obtain ⟨g1, g2⟩ := h.execInner hc hw hq hs h1
    exact ih g1 g2 e

theorem bal_sign {swig wallet x3 : Meta} {rest : List Meta} {cls : List Class} {ix : Bytes} (hk : swig.key ∈ ks) (h : Bal ks t m)
    (hq : cpi.Leaves wallet.key)
    (hcls : classifyAll m (swig :: wallet :: x3 :: rest) = .ok cls) (hw : ∀ a ∈ swig :: wallet :: x3 :: rest, a.key ∈ ks)
    (e : signV2 env cpi m (swig :: wallet :: x3 :: rest) cls ix = .ok m') : Bal ks t m' := by
  simp only [signV2] at e
  obtain ⟨_, _, e⟩ := bind_ok_iff.mp e
  obtain ⟨_, _, e⟩ := bind_ok_iff.mp e
  obtain ⟨_, h0, e⟩ := bind_ok_iff.mp e
  have hs : (m wallet.key).owner = systemId := by
    have h0 := require_ok_iff.mp h0
    obtain ⟨c, cs, rfl, _, h3, h4⟩ := classifyAll_rest hcls
    cases cs with
    | nil => simp at h3
    | cons c1 cs =>
      simp at h0
      subst h0
      have h5 := (h4 (wallet, .wallet) (by simp)).1
      cases h5; assumption
  obtain ⟨_, _, e⟩ := bind_ok_iff.mp e
  obtain ⟨_, _, e⟩ := bind_ok_iff.mp e
  obtain ⟨⟨_, _⟩, _, e⟩ := bind_ok_iff.mp e
  obtain ⟨_, hx, e⟩ := bind_ok_iff.mp e
  unfold signWith at e
  obtain ⟨_, _, e⟩ := bind_ok_iff.mp e
  split at e
  · exact Bal.execAll hc hw hq (h.setData hk _) (by simpa using hs) e
  · obtain ⟨_, _, e⟩ := bind_ok_iff.mp e
    obtain ⟨_, _, e⟩ := bind_ok_iff.mp e
    unfold signLimited at e
    obtain ⟨_, _, e⟩ := bind_ok_iff.mp e
    obtain ⟨⟨m1, acc, total⟩, h1, e⟩ := bind_ok_iff.mp e
    exact Bal.settleAll (by exact hk) (Bal.runIxs hc hw hq (h.setData hk _) (by simpa [signCtx] using hs) h1) e

/-! ## Every instruction -/

/-- A request leaves the sum of the balances alone. -/
theorem process_bal {metas : List Meta} {ix : Bytes} (hw : ∀ a ∈ metas, a.key ∈ ks)
    (hq : ∀ s, metas[1]? = some s ∨ metas[2]? = some s → cpi.Leaves s.key) (hr : env.RentMono)
    (hx : rd ix 0 2 = 2 ∨ rd ix 0 2 = 15 → ∀ s, metas[0]? = some s → Exempt env m s.key)
    (hd : rd ix 0 2 = 15 → ∀ s d, metas[0]? = some s → metas[2]? = some d → d.key ≠ s.key)
    (h : Bal ks t m) (e : process env cpi m metas ix = .ok m') : Bal ks t m' := by
  unfold process at e
  obtain ⟨_, _, e⟩ := bind_ok_iff.mp e
  obtain ⟨cls, hcls, e⟩ := bind_ok_iff.mp e
  unfold dispatch at e
  split at e
  · cases e
  have ho : ∀ (i : Nat) (a : Meta), metas[i]? = some a → a.key ∈ ks := fun i a ha => hw a (List.mem_of_getElem? ha)
  generalize hn : rd ix 0 2 = n at e hd hx
  split at e
  · unfold addAuthorityV1 at e; split at e
    · exact bal_add (ho 0 _ rfl) h hw e
    · cases e
  · unfold removeAuthorityV1 at e; split at e
    · exact bal_remove (ho 0 _ rfl) h (ho 1 _ rfl) hr (hx (.inl rfl) _ rfl) hw e
    · cases e
  · unfold updateAuthorityV1 at e; split at e
    · exact bal_update (ho 0 _ rfl) h (ho 1 _ rfl) hw e
    · cases e
  · cases e
  · unfold createSessionV1 at e; split at e
    · exact bal_session (ho 0 _ rfl) h hw e
    · cases e
  · unfold createSubV1 at e; split at e
    · exact bal_createSubV1 (ho 0 _ rfl) h hw e
    · cases e
  · unfold withdrawSubV1 at e; split at e
    · exact bal_withdrawSubV1 hc (ho 0 _ rfl) h hw e
    · cases e
  · unfold subSignV1 at e; split at e
    · exact bal_subSignV1 hc (ho 0 _ rfl) h hw (hq _ (.inl rfl)) e
    · cases e
  · unfold toggleSubV1 at e; split at e
    · exact bal_toggleSubV1 (ho 0 _ rfl) h hw e
    · cases e
  · unfold signV2 at e; split at e
    · exact bal_sign hc (ho 0 _ rfl) h (hq _ (.inl rfl)) hcls hw e
    · cases e
  · unfold migrateV1 at e; split at e
    · exact bal_migrate (ho 0 _ rfl) h hw e
    · cases e
  · unfold transferAssetsV1 at e; split at e
    · exact bal_transferAssets hc (ho 0 _ rfl) h (ho 1 _ rfl) hw e
    · cases e
  · unfold closeTokenV1 at e; split at e
    · exact bal_closeToken hc (ho 0 _ rfl) h hw e
    · cases e
  · unfold closeSwigV1 at e; split at e
    · exact bal_closeSwig (ho 0 _ rfl) h (ho 2 _ rfl) hr (hx (.inr rfl) _ rfl) (hd rfl _ _ rfl rfl) hw e
    · cases e
  · unfold replaceAuthorityV1 at e; split at e
    · exact bal_replace (ho 0 _ rfl) h hw e
    · cases e
  · unfold setRentClaimerV1 at e; split at e
    · exact bal_claimer (ho 0 _ rfl) h hw e
    · cases e
  · unfold createSubV2 at e; split at e
    · exact bal_createSubV2 (ho 0 _ rfl) h hw e
    · cases e
  · unfold toggleSubV2 at e; split at e
    · exact bal_toggleSubV2 (ho 0 _ rfl) h (ho 2 _ rfl) e
    · cases e
  · unfold subSignV2 at e; split at e
    · exact bal_subSignV2 hc (ho 0 _ rfl) h hw (hq _ (.inr rfl)) e
    · cases e
  · unfold withdrawSubV2 at e; split at e
    · exact bal_withdrawSubV2 hc (ho 0 _ rfl) h hw e
    · cases e
  · unfold createV1 at e; split at e
    · exact bal_create h hw e
    · cases e

end
end Verif
