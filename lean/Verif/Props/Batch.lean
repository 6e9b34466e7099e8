import Verif.Proofs.Batch
import Verif.Spec.SampleSign
import Verif.Spec.SampleCpi

/-!
# Property C120: instructions sent in one signing request or in several

Vocabulary: Spec/Batch.lean.
-/

namespace Verif

section
variable {env : Env} {cpi : Cpi} {m m1 m2 : Mem} {swig : Meta} {rest : List Meta} {w : Wallet} {r : Role} {id : Nat} {cs1 cs2 : List CompactIx}
  {cred : Bytes}

theorem Sendable.left {metas : List Meta} (h : Sendable metas (cs1 ++ cs2)) : Sendable metas cs1 where
  count := by have := h.count; simp at this; omega
  parts c hc := h.parts c (List.mem_append_left _ hc)
  accounts c hc := h.accounts c (List.mem_append_left _ hc)
  size := by have := h.size; simp [compactBytes] at this ⊢; omega

theorem Sendable.right {metas : List Meta} (h : Sendable metas (cs1 ++ cs2)) : Sendable metas cs2 where
  count := by have := h.count; simp at this; omega
  parts c hc := h.parts c (List.mem_append_right _ hc)
  accounts c hc := h.accounts c (List.mem_append_right _ hc)
  size := by have := h.size; simp [compactBytes] at this ⊢; omega

theorem Sendable.none {metas : List Meta} : Sendable metas [] := ⟨by simp, by simp, by simp, by simp [compactBytes]⟩

theorem kept_open {signer : Key} {seeds : List Bytes} {ixs : List Inner} (hkeep : cpi.Keeps swig.key) (ho : Open m swig.key w)
    (e : execAll env cpi (swig :: rest) signer seeds m ixs = .ok m1) : Open m1 swig.key w := by
  obtain ⟨h1, h2⟩ := execAll_keeps hkeep e
  exact ⟨h2.trans ho.owner, ho.wf, h1.trans ho.data⟩

/-- Partial (roles that may do everything, or everything but manage roles; limited roles: `C120_refuted`): what two requests in a row do, one
request with all the instructions does. -/
theorem C120_together_partial (ho : Open m swig.key w) (hid : id < 2 ^ 32) (hs : Sendable (swig :: rest) (cs1 ++ cs2)) (hr : w.role? id = some r)
    (ht : SignsTransaction r) (hf : Free r) (hkeep : cpi.Keeps swig.key)
    (e1 : process env cpi m (swig :: rest) (signReq id cs1 cred) = .ok m1)
    (e2 : process env cpi m1 (swig :: rest) (signReq id cs2 cred) = .ok m2) :
    process env cpi m (swig :: rest) (signReq id (cs1 ++ cs2) cred) = .ok m2 := by
  obtain ⟨wallet, x3, more, hp⟩ := free_passes ho hid hs.left hr ht e1
  obtain ⟨i1, d1, a1⟩ := decode_sent (signer := wallet.key) hs.left
  obtain ⟨i2, d2, a2⟩ := decode_sent (signer := wallet.key) hs.right
  have d : decodeIxs (swig :: rest) wallet.key [] (compactBytes (cs1 ++ cs2)) = .ok (i1 ++ i2) := by
    have := C33_round_trip hs.count hs.parts (All2.append a1 a2) []
    rwa [List.append_nil] at this
  rw [free_runs ho hid hs.left ht hf hp d1] at e1
  have ho1 := kept_open hkeep ho e1
  obtain ⟨wallet', x3', more', hp'⟩ := free_passes ho1 hid hs.right hr ht e2
  cases hp.split.symm.trans hp'.split
  rw [free_runs ho1 hid hs.right ht hf hp' d2] at e2
  rw [free_runs ho hid hs ht hf hp d, execAll_append, e1, ok_bind, e2]

/-- Partial (the same roles): what one request does, its first instructions and then the others do, each in their own request, provided that after the first
instructions the role can sign at all (the accounts are still ones a signing request may name). -/
theorem C120_apart_partial (ho : Open m swig.key w) (hid : id < 2 ^ 32) (hs : Sendable (swig :: rest) (cs1 ++ cs2)) (hr : w.role? id = some r)
    (ht : SignsTransaction r) (hf : Free r) (hkeep : cpi.Keeps swig.key)
    (e : process env cpi m (swig :: rest) (signReq id (cs1 ++ cs2) cred) = .ok m2) :
    ∃ m1, process env cpi m (swig :: rest) (signReq id cs1 cred) = .ok m1 ∧
      ((∃ x, process env cpi m1 (swig :: rest) (signReq id [] cred) = .ok x) →
        process env cpi m1 (swig :: rest) (signReq id cs2 cred) = .ok m2) := by
  obtain ⟨wallet, x3, more, hp⟩ := free_passes ho hid hs hr ht e
  obtain ⟨i1, d1, a1⟩ := decode_sent (signer := wallet.key) hs.left
  obtain ⟨i2, d2, a2⟩ := decode_sent (signer := wallet.key) hs.right
  have d : decodeIxs (swig :: rest) wallet.key [] (compactBytes (cs1 ++ cs2)) = .ok (i1 ++ i2) := by
    have := C33_round_trip hs.count hs.parts (All2.append a1 a2) []
    rwa [List.append_nil] at this
  rw [free_runs ho hid hs ht hf hp d, execAll_append] at e
  obtain ⟨m1, e1, e2⟩ := bind_ok_iff.mp e
  refine ⟨m1, ?_, ?_⟩
  · rw [free_runs ho hid hs.left ht hf hp d1, e1]
  · rintro ⟨x, hx⟩
    have ho1 := kept_open hkeep ho e1
    obtain ⟨wallet', x3', more', hp'⟩ := free_passes ho1 hid Sendable.none hr ht hx
    cases hp.split.symm.trans hp'.split
    rw [free_runs ho1 hid hs.right ht hf hp' d2, e2]

/-- A request without instructions changes nothing. -/
theorem C120_nothing (ho : Open m swig.key w) (hid : id < 2 ^ 32) (hr : w.role? id = some r) (ht : SignsTransaction r) (hf : Free r)
    (e : process env cpi m (swig :: rest) (signReq id [] cred) = .ok m1) : m1 = m := by
  obtain ⟨wallet, x3, more, hp⟩ := free_passes ho hid Sendable.none hr ht e
  rw [free_runs ho hid Sendable.none ht hf hp (ixs := []) rfl] at e
  cases e
  rfl

end

namespace Sample

/-- Transfer of `n` lamports from the wallet address to `K 40`, and from the user `K 11` to the wallet address. -/
def payC (n : Nat) : CompactIx := ⟨2, [1, 5], natLE 4 2 ++ natLE 8 n⟩
def fundC (n : Nat) : CompactIx := ⟨2, [4, 1], natLE 4 2 ++ natLE 8 n⟩

/-- Role 1 may spend 6000000000 lamports. -/
def richActs : List Act := [⟨1, natLE 8 6000000000⟩, ⟨3, systemId⟩]

/-- Calls to the System program only, for transfers; they leave data and owners alone. -/
def moveCpi : Cpi := fun m ix =>
  match ix.accounts with
  | a :: b :: _ => if ix.program = systemId ∧ rd ix.data 0 4 = 2 then demoTransfer m a b (rd ix.data 4 8) else .error .runtime
  | _ => .error .runtime

theorem moveCpi_keeps (k : Key) : moveCpi.Keeps k := by
  intro m ix m' e
  unfold moveCpi at e
  split at e
  · split at e
    · unfold demoTransfer at e
      split at e
      · unfold sysTransfer at e
        split at e
        · cases e
        · split at e
          · cases e
          · split at e
            · cases e
            · cases e; simp
      · cases e
    · cases e
  · cases e

def batchMetas : List Meta := signSwig :: signAddr :: signRest

theorem batch_sendable (cs : List CompactIx) (h : decide (cs.length ≤ 255 ∧ (∀ c ∈ cs, c.accounts.length ≤ 254 ∧ c.data.length < 2 ^ 16) ∧
    (∀ c ∈ cs, c.program.toNat < batchMetas.length ∧ ∀ x ∈ c.accounts, x.toNat < batchMetas.length) ∧ (compactBytes cs).length < 2 ^ 16) = true) :
    Sendable batchMetas cs := by
  obtain ⟨h1, h2, h3, h4⟩ := of_decide_eq_true h
  exact ⟨h1, h2, h3, h4⟩

/-- The hypotheses of C120_together_partial and C120_apart_partial hold: role 1 has the permission All, pays 600 lamports and is paid 200. -/
example : ∃ m1 m2, Open (signMem [⟨P.all, []⟩]) (K 1) (signWallet [⟨P.all, []⟩]) ∧ Sendable batchMetas ([payC 600] ++ [fundC 200]) ∧
    (∃ r, (signWallet [⟨P.all, []⟩]).role? 1 = some r ∧ SignsTransaction r ∧ Free r) ∧ moveCpi.Keeps (K 1) ∧
    process signEnv moveCpi (signMem [⟨P.all, []⟩]) batchMetas (signReq 1 [payC 600] [4]) = .ok m1 ∧
    process signEnv moveCpi m1 batchMetas (signReq 1 [fundC 200] [4]) = .ok m2 ∧
    process signEnv moveCpi (signMem [⟨P.all, []⟩]) batchMetas (signReq 1 ([payC 600] ++ [fundC 200]) [4]) = .ok m2 ∧
    (∃ x, process signEnv moveCpi m1 batchMetas (signReq 1 [] [4]) = .ok x) ∧ (m2 (K 2)).lamports + 400 = (signMem [⟨P.all, []⟩] (K 2)).lamports := by
  have key : (match process signEnv moveCpi (signMem [⟨P.all, []⟩]) batchMetas (signReq 1 [payC 600] [4]) with
    | .ok m1 => (match process signEnv moveCpi m1 batchMetas (signReq 1 [fundC 200] [4]), process signEnv moveCpi m1 batchMetas (signReq 1 [] [4]) with
      | .ok m2, .ok _ => decide ((m2 (K 2)).lamports + 400 = (signMem [⟨P.all, []⟩] (K 2)).lamports)
      | _, _ => false) | _ => false) = true := by
    decide +kernel
  have ho : Open (signMem [⟨P.all, []⟩]) (K 1) (signWallet [⟨P.all, []⟩]) := ⟨rfl, by decide +kernel, rfl⟩
  have hs : Sendable batchMetas ([payC 600] ++ [fundC 200]) := batch_sendable _ (by decide +kernel)
  have hf : ∃ r, (signWallet [⟨P.all, []⟩]).role? 1 = some r ∧ SignsTransaction r ∧ Free r :=
    ⟨_, rfl, .inl rfl, .inl ⟨⟨P.all, []⟩, by decide, rfl⟩⟩
  split at key
  · rename_i m1 h1
    split at key
    · rename_i m2 x h2 h3
      obtain ⟨r, f1, f2, f3⟩ := hf
      have h4 := C120_together_partial (swig := signSwig) (rest := signAddr :: signRest) (id := 1) (cs1 := [payC 600]) (cs2 := [fundC 200]) (cred := [4])
        ho (by decide) hs f1 f2 f3 (moveCpi_keeps _) h1 h2
      have h5 := of_decide_eq_true key
      exact ⟨m1, m2, ho, hs, ⟨r, f1, f2, f3⟩, moveCpi_keeps _, h1, h2, h4, ⟨x, h3⟩, h5⟩
    · cases key
  · cases key

end Sample

open Sample in
/-- C120 is false for roles with limits: role 1, which may spend 6000000000 lamports, pays out all but 10 lamports and is paid 2000000 by somebody else in one request;
as a request of its own the payment is refused, because each request must leave the wallet address its rent minimum. -/
theorem C120_refuted : ∃ (env : Env) (cpi : Cpi) (m m2 : Mem) (metas : List Meta) (id : Nat) (c1 c2 : CompactIx) (cred : Bytes) (w : Wallet) (k : Key),
    Open m k w ∧ Sendable metas [c1, c2] ∧ process env cpi m metas (signReq id [c1, c2] cred) = .ok m2 ∧
    ∀ m1, process env cpi m metas (signReq id [c1] cred) ≠ .ok m1 := by
  obtain ⟨m2, h2⟩ := exists_of_ok (x := process signEnv moveCpi (signMem richActs) batchMetas (signReq 1 [payC 4999999990, fundC 2000000] [4])) (by decide +kernel)
  refine ⟨signEnv, moveCpi, signMem richActs, m2, batchMetas, 1, payC 4999999990, fundC 2000000, [4], signWallet richActs, K 1,
    ⟨rfl, by decide +kernel, rfl⟩, batch_sendable _ (by decide +kernel), h2, ?_⟩
  intro m1 h1
  have key : ok (process signEnv moveCpi (signMem richActs) batchMetas (signReq 1 [payC 4999999990] [4])) = false := by decide +kernel
  rw [h1] at key
  cases key

end Verif
