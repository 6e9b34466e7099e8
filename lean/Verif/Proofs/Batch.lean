import Verif.Spec.Batch
import Verif.Spec.Evolve
import Verif.Proofs.LiveSign
import Verif.Proofs.More
import Verif.Props.Compact

/-! # Lemmas for property C120 -/

namespace Verif

section
variable {env : Env} {cpi : Cpi} {m m' : Mem} {swig : Meta} {rest : List Meta} {w : Wallet} {r : Role} {id : Nat} {cs : List CompactIx}
  {cred : Bytes}

theorem signReq_fields (hid : id < 2 ^ 32) (hc : (compactBytes cs).length < 2 ^ 16) :
    rd (signReq id cs cred) 0 2 = 11 ∧ ¬ (signReq id cs cred).length < 2 ∧
      parseSign (signReq id cs cred) = .ok ⟨id, compactBytes cs, cred⟩ := by
  have h0 : rd (signReq id cs cred) 0 2 = 11 := by
    have := rd_full 2 11 (by decide) [] (natLE 2 (compactBytes cs).length ++ natLE 4 id ++ compactBytes cs ++ cred) (i := 0) (by simp)
    simpa [signReq, List.append_assoc] using this
  have h2 : rd (signReq id cs cred) 2 2 = (compactBytes cs).length := by
    have := rd_full 2 (compactBytes cs).length (by simpa using hc) (natLE 2 11) (natLE 4 id ++ compactBytes cs ++ cred) (i := 2) (by simp)
    simpa [signReq, List.append_assoc] using this
  have h4 : rd (signReq id cs cred) 4 4 = id := by
    have := rd_full 4 id (by simpa using hid) (natLE 2 11 ++ natLE 2 (compactBytes cs).length) (compactBytes cs ++ cred) (i := 4) (by simp)
    simpa [signReq, List.append_assoc] using this
  have hs : sl (signReq id cs cred) 8 (8 + (compactBytes cs).length) = compactBytes cs := by
    have := sl_mid (natLE 2 11 ++ natLE 2 (compactBytes cs).length ++ natLE 4 id) (compactBytes cs) cred (i := 8)
      (j := 8 + (compactBytes cs).length) (by simp) (by simp)
    simpa [signReq, List.append_assoc] using this
  have hd : (signReq id cs cred).drop (8 + (compactBytes cs).length) = cred := by
    unfold signReq
    rw [List.drop_append_of_le_length (by simp; omega), List.drop_of_length_le (by simp; omega)]
    rfl
  have hl : (signReq id cs cred).length = 8 + (compactBytes cs).length + cred.length := by simp [signReq]; omega
  refine ⟨h0, by omega, ?_⟩
  unfold parseSign
  rw [if_neg (by omega)]
  dsimp only
  rw [h2, if_neg (by omega), hs, hd, h4]

/-- The credential of such a role is accepted or not whatever is signed and whatever the ledger holds, and stays as it is. -/
theorem actsAs_any {m1 : Mem} {metas : List Meta} {payload d d' : Bytes} (ht : SignsTransaction r) (h : ActsAs env m metas w id payload d r) :
    ActsAs env m1 metas w id payload d' r := by
  refine ⟨h.1, ?_⟩
  have h2 := h.2
  rcases ht with ht | ht
  · rw [ht] at h2 ⊢
    exact h2
  · unfold authRole at h2 ⊢
    rw [if_pos ht] at h2 ⊢
    exact h2

theorem used_same (hw : w.WF) (hr : w.role? id = some r) (ht : SignsTransaction r) : w.used id = w := by
  have hne : r.authType ≠ 3 ∧ r.authType ≠ 5 := by
    rcases ht with ht | ht
    · omega
    · unfold sessionBased at ht
      constructor <;> intro h <;> rw [h] at ht <;> simp at ht
  obtain ⟨hm, hid⟩ := role?_mem hr
  have huniq : ∀ x ∈ w.roles, x.id = id → x = r := by
    intro x hx hxi
    exact List.inj_on_of_nodup_map hw.idsNodup hx hm (hxi.trans hid.symm)
  unfold Wallet.used Wallet.mapRole
  have : (w.roles.map fun x => if x.id = id then { x with auth := usedCred x.authType x.auth } else x) = w.roles := by
    rw [List.map_congr_left (g := fun x => x)]
    · simp
    · intro x hx
      split
      · rename_i h
        rw [huniq x hx h]
        unfold usedCred
        rw [if_neg (by omega)]
      · rfl
  rw [this]

theorem setData_same (m : Mem) (k : Key) : m.setData k (m k).data = m := by
  funext x
  unfold Mem.setData Mem.set
  split
  · rename_i h; subst h; rfl
  · rfl

/-- What an accepted request of such a role has passed: none of it depends on the instructions. -/
structure Admitted (env : Env) (m : Mem) (swig : Meta) (rest : List Meta) (w : Wallet) (r : Role) (id : Nat) (cred : Bytes)
    (wallet x3 : Meta) (more : List Meta) : Prop where
  split : rest = wallet :: x3 :: more
  height : env.stackHeight = 1
  count : (swig :: rest).length ≤ 254
  classes : ∃ n tl, classifyAll m (swig :: rest) = .ok (.thisSwig n :: .wallet :: tl)
  acts : ActsAs env m (swig :: rest) w id cred [] r

theorem free_unrestricted (hf : Free r) : ¬ Restricted { r with auth := usedCred r.authType r.auth } := by
  intro h
  rcases hf with e | e <;>
  · obtain ⟨a, ha, e⟩ := e
    first | exact (h a ha).1 e | exact (h a ha).2 e

theorem decode_sent {metas : List Meta} {signer : Key} (hs : Sendable metas cs) :
    ∃ ixs, decodeIxs metas signer [] (compactBytes cs) = .ok ixs ∧ All2 (Denotes metas signer []) cs ixs :=
  C33_decodes hs.count hs.parts hs.accounts

theorem free_passes (ho : Open m swig.key w) (hid : id < 2 ^ 32) (hs : Sendable (swig :: rest) cs) (hr : w.role? id = some r)
    (ht : SignsTransaction r) (e : process env cpi m (swig :: rest) (signReq id cs cred) = .ok m') :
    ∃ wallet x3 more, Admitted env m swig rest w r id cred wallet x3 more := by
  obtain ⟨f1, f2, f3⟩ := signReq_fields (cred := cred) hid hs.size
  unfold process at e
  obtain ⟨_, hl, e⟩ := bind_ok_iff.mp e
  obtain ⟨cls, hcls, e⟩ := bind_ok_iff.mp e
  unfold dispatch at e
  rw [if_neg f2, f1] at e
  have e : signV2 env cpi m (swig :: rest) cls (signReq id cs cred) = .ok m' := e
  match rest, hs, hl, hcls, e with
  | wallet :: x3 :: more, hs, hl, hcls, e =>
    obtain ⟨a, r', before, after, ixs, g1, g2, g3, g4, g5, _⟩ := signV2_enc ho.wf ho.data e
    cases f3.symm.trans g1
    cases hr.symm.trans g5.1
    refine ⟨wallet, x3, more, rfl, g2, require_ok_iff.mp hl, ?_, actsAs_any ht g5⟩
    match cls, hcls, g3, g4 with
    | c0 :: c1 :: tl, hcls, g3, g4 =>
      simp at g3 g4
      subst g4
      cases c0 <;> simp [Class.isSwig] at g3
      exact ⟨_, _, hcls⟩
    | [_], _, _, g4 => simp at g4
    | [], _, _, g4 => simp at g4
  | [_], _, _, _, e => cases e
  | [], _, _, _, e => cases e

theorem free_runs (ho : Open m swig.key w) (hid : id < 2 ^ 32) (hs : Sendable (swig :: rest) cs) (ht : SignsTransaction r) (hf : Free r)
    {wallet x3 : Meta} {more : List Meta} (hp : Admitted env m swig rest w r id cred wallet x3 more) {ixs : List Inner}
    (hd : decodeIxs (swig :: rest) wallet.key [] (compactBytes cs) = .ok ixs) :
    process env cpi m (swig :: rest) (signReq id cs cred) =
      execAll env cpi (swig :: rest) wallet.key (walletSeeds swig.key ++ [[w.walletBump]]) m ixs := by
  obtain ⟨f1, f2, f3⟩ := signReq_fields (cred := cred) hid hs.size
  obtain ⟨rfl, hst, hl, ⟨n, tl, hcls⟩, hact⟩ := hp
  obtain ⟨before, after, hpl, e⟩ := signV2_reach (cpi := cpi) (tl := tl) (n := n) ho.wf ho.data hst f3 (actsAs_any ht hact) hd
  unfold process
  rw [require_of hl, ok_bind, hcls, ok_bind]
  unfold dispatch
  rw [if_neg f2, f1]
  show signV2 env cpi m (swig :: wallet :: x3 :: more) (.thisSwig n :: .wallet :: tl) (signReq id cs cred) = _
  rw [e, signWith_free hpl (Mem.setData_data ..) (free_unrestricted hf)]
  dsimp only
  rw [used_same ho.wf hact.1 ht, ← ho.data, setData_same]

theorem execAll_append {metas : List Meta} {signer : Key} {seeds : List Bytes} :
    ∀ {xs ys : List Inner} {m : Mem}, execAll env cpi metas signer seeds m (xs ++ ys) =
      (do let m1 ← execAll env cpi metas signer seeds m xs; execAll env cpi metas signer seeds m1 ys) := by
  intro xs
  induction xs with
  | nil => intro ys m; rfl
  | cons x xs ih =>
    intro ys m
    simp only [List.cons_append, execAll]
    cases h : execInner env cpi m metas signer seeds x with
    | error e => rfl
    | ok m1 => simp only [ok_bind]; exact ih

end

end Verif
