import Verif.Proofs.Sysvar
import Verif.Proofs.Auth
import Verif.Spec.SampleSign

/-!
# C108: approvals by a program

A program-execution role is used by an approval: an earlier instruction of the same transaction, executed by the program of the role, with the role's
prefix, and with the wallet's two addresses as its first accounts.  An approval is good for one wallet, but not for one request.
-/

namespace Verif

/-- The instruction is an approval for a role with the given program and prefix and the wallet with the given addresses. -/
structure Approval (program : Key) (pfx : Bytes) (config wallet : Key) (ix : TxIx) : Prop where
  program : ix.program = program
  pfx : pfx <+: ix.data
  accounts : ∃ m0 m1 rest, ix.accounts = m0 :: m1 :: rest ∧ m0.key = config ∧ m1.key = wallet

theorem prefix_iff_take {pfx d : Bytes} {n : Nat} (hn : pfx.length = n) : pfx <+: d ↔ n ≤ d.length ∧ d.take n = pfx := by
  constructor
  · intro ⟨t, ht⟩
    subst ht
    exact ⟨by simp [hn], by rw [← hn, List.take_left]⟩
  · intro ⟨_, h⟩
    exact ⟨d.drop n, by rw [← h, List.take_append_drop]⟩

theorem getOr_iff {α : Type} {l : List α} {i : Nat} {e : Err} {a : α} : getOr l i e = .ok a ↔ l[i]? = some a := by
  unfold getOr
  cases h : l[i]? with
  | none => simp
  | some b => simp

/-- Exactly when a request of a program-execution role is accepted, if it names the earlier instruction: that instruction is an approval, and its first two
bytes, read as a number, are at least 2 (the defect of C62).  Nothing else counts, in particular nothing of what is requested. -/
theorem C108_exact (env : Env) (a : Auth) {program : Key} {plen : UInt8} {pad buf : Bytes} (metas : List Meta) {ixs : List TxIx} {cur : Nat}
    {s t : UInt8} (data : Bytes) {ix : TxIx} {m0 m1 : Meta} {rest : List Meta} (hw : a.WF) (hc : a.cred = .exec program plen pad buf)
    (hp : plen.toNat ≤ 40) (hx : TxOk ixs cur) (hix : ixs[t.toNat]? = some ix) (h2 : 2 ≤ ix.data.length) (hacc : ix.accounts = m0 :: m1 :: rest) :
    authenticate env a.ty a.encode metas (sysvarEncode ixs cur) [s, t] data = .ok a.encode ↔
      t.toNat < cur ∧ (∃ sys, metas[s.toNat]? = some sys ∧ sys.key = instructionsSysvarId) ∧
      (∃ config wallet, metas[0]? = some config ∧ metas[1]? = some wallet ∧
        Approval program (buf.take plen.toNat) config.key wallet.key ix) ∧ 2 ≤ rd ix.data 0 2 := by
  rw [authenticate_exec hc]
  have hwc := hw.cred
  rw [hc] at hwc
  obtain ⟨hpl, hpadl, hbl⟩ := hwc
  obtain ⟨rest', hrest⟩ : ∃ rest, a.encode = program ++ [plen] ++ pad ++ buf ++ rest :=
    ⟨_, by unfold Auth.encode; rw [hc]; rfl⟩
  have f1 : sl a.encode 0 32 = program := by
    rw [hrest]; simp only [List.append_assoc]
    rw [sl_left _ _ _ _ (by omega), ← hpl, sl_full]
  have f2 : a.encode.getD 32 0 = plen := by
    rw [hrest]; simp [List.getD, hpl]
  have f3 : sl a.encode 40 80 = buf := by
    rw [hrest]
    have := sl_mid (program ++ [plen] ++ pad) buf rest' (i := 40) (j := 80) (by simp [hpl, hpadl]) (by simp [hpl, hpadl, hbl])
    simpa [List.append_assoc] using this
  obtain ⟨hlt, hix'⟩ := List.getElem?_eq_some_iff.mp hix
  have hsplit : ixs = ixs.take t.toNat ++ ix :: ixs.drop (t.toNat + 1) := by
    rw [← hix', List.getElem_cons_drop, List.take_append_drop]
  have htl : (ixs.take t.toNat).length = t.toNat := by simp; omega
  have hx' : TxOk (ixs.take t.toNat ++ ix :: ixs.drop (t.toNat + 1)) cur := by rw [← hsplit]; exact hx
  obtain ⟨pre, post, he, ho, _⟩ := sysIxOff_enc hx'
  rw [htl, ← hsplit] at ho
  rw [← hsplit] at he
  have hok := hx'.ix
  obtain ⟨g1, g2, g3⟩ := ix_fields hok pre post
  have e0 := ix_meta hok pre post (j := 0) (m := m0) (by rw [hacc]; rfl)
  have e1 := ix_meta hok pre post (j := 1) (m := m1) (by rw [hacc]; rfl)
  have e2 := ix_data_u16 hok pre post h2
  have hbuf : (buf.take plen.toNat).length = plen.toNat := by simp [hbl]; omega
  have hback : ∀ x : R Unit, (do x; (.ok a.encode : R Bytes)) = .ok a.encode ↔ x = .ok () := by
    intro x; cases x with
    | ok u => cases u; simp [ok_bind]
    | error e => constructor <;> intro h <;> cases h
  rw [hback]
  unfold execAuthenticate
  rw [if_neg (by simp), f1, f2, f3]
  unfold programExecAuth
  constructor
  · intro h
    obtain ⟨sys, q0, h⟩ := bind_ok_iff.mp h
    split at h
    · cases h
    rename_i hsys
    obtain ⟨config, q1, h⟩ := bind_ok_iff.mp h
    obtain ⟨wallet, q2, h⟩ := bind_ok_iff.mp h
    rw [sysCurrent_enc hx, ok_bind] at h
    obtain ⟨i, q3, h⟩ := bind_ok_iff.mp h
    have hi : t.toNat < cur ∧ i = t.toNat := by
      simp only [execTarget, List.length_cons, List.length_nil, if_true, List.getD_cons_succ, List.getD_cons_zero] at q3
      split at q3
      · cases q3
      · cases q3; exact ⟨by omega, rfl⟩
    obtain ⟨hcur, rfl⟩ := hi
    rw [ho, ok_bind, he, g2, ok_bind] at h
    simp only at h
    rw [e2, ok_bind] at h
    split at h
    · cases h
    rename_i hnum
    rw [g1, ok_bind] at h
    split at h
    · cases h
    rename_i hprog
    rw [g3, ok_bind] at h
    split at h
    · cases h
    rename_i hdl
    rw [slice_ok (by omega) (by omega), ok_bind] at h
    split at h
    · cases h
    rename_i hpre
    rw [e0, ok_bind, e1, ok_bind] at h
    split at h
    · cases h
    rename_i k0
    split at h
    · cases h
    rename_i k1
    refine ⟨hcur, ⟨sys, getOr_iff.mp q0, Decidable.of_not_not hsys⟩, ⟨config, wallet, getOr_iff.mp q1, getOr_iff.mp q2,
      Decidable.of_not_not hprog, (prefix_iff_take hbuf).mpr ⟨by omega, by simpa [sl] using hpre⟩,
      m0, m1, rest, hacc, Decidable.of_not_not k0, Decidable.of_not_not k1⟩, by omega⟩
  · rintro ⟨hcur, ⟨sys, q0, hsys⟩, ⟨config, wallet, q1, q2, ap⟩, hnum⟩
    obtain ⟨p1, p2⟩ := (prefix_iff_take hbuf).mp ap.pfx
    obtain ⟨n0, n1, rest2, hacc2, k0, k1⟩ := ap.accounts
    rw [hacc] at hacc2
    cases hacc2
    have q3 : execTarget cur (if List.length [s, t] = 2 then some (List.getD [s, t] 1 0).toNat else none) = .ok t.toNat := by
      have : ¬ (t.toNat ≥ cur) := by omega
      simp [execTarget, this]
    have q0' : getOr metas (List.getD [s, t] 0 0).toNat E.au_invalidAuthorityPayload = .ok sys := getOr_iff.mpr q0
    rw [q0', ok_bind, if_neg (by simpa using hsys), getOr_iff.mpr q1, ok_bind, getOr_iff.mpr q2, ok_bind, sysCurrent_enc hx, ok_bind, q3, ok_bind,
      ho, ok_bind, he, g2, ok_bind]
    simp only
    rw [e2, ok_bind, if_neg (by omega), g1, ok_bind, if_neg (by simpa using ap.program), g3, ok_bind, if_neg (by omega),
      slice_ok (by omega) (by omega), ok_bind, if_neg (by simpa [sl] using p2), e0, ok_bind, e1, ok_bind,
      if_neg (by simpa using k0), if_neg (by simpa using k1)]

/-- What was accepted once is accepted again, any number of times, for every other request of the same wallet later in the transaction. -/
theorem C108_reusable (env env' : Env) (a : Auth) {program : Key} {plen : UInt8} {pad buf : Bytes} {metas metas' : List Meta} {ixs : List TxIx}
    {cur cur' : Nat} {s s' t : UInt8} (data data' : Bytes) {ix : TxIx} {m0 m1 : Meta} {rest : List Meta} (hw : a.WF)
    (hc : a.cred = .exec program plen pad buf) (hp : plen.toNat ≤ 40) (hx : TxOk ixs cur) (hx' : TxOk ixs cur')
    (hix : ixs[t.toNat]? = some ix) (h2 : 2 ≤ ix.data.length) (hacc : ix.accounts = m0 :: m1 :: rest)
    (h : authenticate env a.ty a.encode metas (sysvarEncode ixs cur) [s, t] data = .ok a.encode)
    (hcur : cur ≤ cur') (hsame : ∀ i, i < 2 → (metas'[i]?).map Meta.key = (metas[i]?).map Meta.key)
    (hsys : ∃ sys, metas'[s'.toNat]? = some sys ∧ sys.key = instructionsSysvarId) :
    authenticate env' a.ty a.encode metas' (sysvarEncode ixs cur') [s', t] data' = .ok a.encode := by
  obtain ⟨h1, _, ⟨config, wallet, g1, g2, g3⟩, g4⟩ := (C108_exact env a metas data hw hc hp hx hix h2 hacc).mp h
  refine (C108_exact env' a metas' data' hw hc hp hx' hix h2 hacc).mpr ⟨by omega, hsys, ?_, g4⟩
  have k0 := hsame 0 (by omega)
  have k1 := hsame 1 (by omega)
  rw [g1] at k0
  rw [g2] at k1
  obtain ⟨c', e0, e1⟩ := Option.map_eq_some_iff.mp k0
  obtain ⟨w', e2, e3⟩ := Option.map_eq_some_iff.mp k1
  exact ⟨c', w', e0, e2, by rw [e1, e3]; exact g3⟩

/-- What does hold: an approval is for one wallet. -/
theorem C108_one_wallet_partial (env env' : Env) (a a' : Auth) {program program' : Key} {plen plen' : UInt8} {pad buf pad' buf' : Bytes}
    {metas metas' : List Meta} {ixs : List TxIx} {cur cur' : Nat} {s s' t : UInt8} {data data' : Bytes} {ix : TxIx} {m0 m1 : Meta} {rest : List Meta}
    (hw : a.WF) (hc : a.cred = .exec program plen pad buf) (hp : plen.toNat ≤ 40) (hw' : a'.WF) (hc' : a'.cred = .exec program' plen' pad' buf')
    (hp' : plen'.toNat ≤ 40) (hx : TxOk ixs cur) (hx' : TxOk ixs cur')
    (hix : ixs[t.toNat]? = some ix) (h2 : 2 ≤ ix.data.length) (hacc : ix.accounts = m0 :: m1 :: rest)
    (h : authenticate env a.ty a.encode metas (sysvarEncode ixs cur) [s, t] data = .ok a.encode)
    (h' : authenticate env' a'.ty a'.encode metas' (sysvarEncode ixs cur') [s', t] data' = .ok a'.encode) :
    program = program' ∧ ∀ i, i < 2 → (metas'[i]?).map Meta.key = (metas[i]?).map Meta.key := by
  obtain ⟨_, _, ⟨config, wallet, g1, g2, g3⟩, _⟩ := (C108_exact env a metas data hw hc hp hx hix h2 hacc).mp h
  obtain ⟨_, _, ⟨config', wallet', k1, k2, k3⟩, _⟩ := (C108_exact env' a' metas' data' hw' hc' hp' hx' hix h2 hacc).mp h'
  obtain ⟨n0, n1, r1, e1, e2, e3⟩ := g3.accounts
  obtain ⟨n0', n1', r1', e1', e2', e3'⟩ := k3.accounts
  rw [e1] at e1'
  cases e1'
  refine ⟨by rw [← g3.program, ← k3.program], fun i hi => ?_⟩
  match i, hi with
  | 0, _ => rw [g1, k1]; simp [← e2, ← e2']
  | 1, _ => rw [g2, k2]; simp [← e3, ← e3']

namespace Sample

/-- Role 1: every program of `K 32` whose instruction starts with 9 9 approves. -/
def apprAuth : Auth := ⟨.exec (K 32) 2 (zeros 7) ([9, 9] ++ zeros 38), none⟩
def apprWallet : Wallet := { wallet with roles := [root, ⟨7, 1, apprAuth.encode, acts1⟩] }
def apprMetas : List Meta := [signSwig, signAddr, ⟨systemId, false, false⟩, ⟨instructionsSysvarId, false, false⟩, ⟨K 40, false, true⟩]
/-- Role 1 pays `n` lamports to `K 40`; the approval is instruction 0. -/
def apprIx (n : Nat) : Bytes :=
  natLE 2 11 ++ natLE 2 19 ++ natLE 4 1 ++ (1 :: ([2, 2, 1, 4] ++ natLE 2 12 ++ natLE 4 2 ++ natLE 8 n)) ++ [3, 0]
/-- The approval, then three payments. -/
def apprTx : List TxIx :=
  [⟨K 32, [signSwig, signAddr], [9, 9, 1]⟩, ⟨swigId, apprMetas, apprIx 200⟩, ⟨swigId, apprMetas, apprIx 200⟩, ⟨swigId, apprMetas, apprIx 100⟩]

/-- The ledger while instruction `i` of the transaction is executed. -/
def duringIx (m : Mem) (ixs : List TxIx) (i : Nat) : Mem := m.set instructionsSysvarId ⟨zeros 32, 1, sysvarEncode ixs i⟩

/-- The whole transaction. -/
def runTx : Mem → List TxIx → Nat → List TxIx → R Mem
  | m, _, _, [] => .ok m
  | m, all, i, ix :: rest => do
    let m' ← if ix.program = swigId then process signEnv demoCpi (duringIx m all i) ix.accounts ix.data else .ok m
    runTx m' all (i + 1) rest

end Sample

open Sample in
/-- C108 is false of the code: one approval, three payments of together 500 lamports. -/
theorem C108_refuted : ∃ m', runTx (mem apprWallet) apprTx 0 apprTx = .ok m' ∧ apprAuth.WF ∧ apprWallet.WF ∧
    (apprTx.filter fun ix => decide (ix.program = K 32)).length = 1 ∧
    (m' (K 2)).lamports + 500 = (mem apprWallet (K 2)).lamports ∧ (m' (K 40)).lamports = (mem apprWallet (K 40)).lamports + 500 := by
  have h : (match runTx (mem apprWallet) apprTx 0 apprTx with
    | .ok m' => decide (apprWallet.WF ∧ (apprTx.filter fun ix => decide (ix.program = K 32)).length = 1 ∧
      (m' (K 2)).lamports + 500 = (mem apprWallet (K 2)).lamports ∧ (m' (K 40)).lamports = (mem apprWallet (K 40)).lamports + 500)
    | .error _ => false) = true := by decide +kernel
  split at h
  · rename_i m' hm
    obtain ⟨h1, h2, h3, h4⟩ := of_decide_eq_true h
    exact ⟨m', hm, ⟨⟨by decide, by decide, by decide⟩, by intro s h; cases h⟩, h1, h2, h3, h4⟩
  · cases h

namespace Sample

/-- The hypotheses of `C108_exact`, `C108_reusable` and `C108_one_wallet_partial`: the approval at the first and at the third payment. -/
example : apprAuth.WF ∧ apprAuth.cred = .exec (K 32) 2 (zeros 7) ([9, 9] ++ zeros 38) ∧ (2 : UInt8).toNat ≤ 40 ∧ TxOk apprTx 1 ∧ TxOk apprTx 3 ∧
    apprTx[(0 : UInt8).toNat]? = some ⟨K 32, [signSwig, signAddr], [9, 9, 1]⟩ ∧
    authenticate signEnv apprAuth.ty apprAuth.encode apprMetas (sysvarEncode apprTx 1) [3, 0] (apprIx 200) = .ok apprAuth.encode ∧
    ∃ sys, apprMetas[(3 : UInt8).toNat]? = some sys ∧ sys.key = instructionsSysvarId :=
  ⟨⟨⟨by decide, by decide, by decide⟩, by intro s h; cases h⟩, rfl, by decide, ⟨by decide, by decide +kernel, by decide +kernel⟩,
    ⟨by decide, by decide +kernel, by decide +kernel⟩, rfl, by decide +kernel, ⟨_, rfl, rfl⟩⟩

/-- An instruction of another program, a wrong prefix, a later instruction and a wrong wallet are refused. -/
example : ∀ tx ∈ [(⟨K 33, [signSwig, signAddr], [9, 9, 1]⟩ : TxIx), ⟨K 32, [signSwig, signAddr], [9, 8, 1]⟩, ⟨K 32, [signAddr, signSwig], [9, 9, 1]⟩],
    authenticate signEnv apprAuth.ty apprAuth.encode apprMetas (sysvarEncode [tx, ⟨swigId, apprMetas, apprIx 200⟩] 1) [3, 0] (apprIx 200) ≠
      .ok apprAuth.encode := by decide +kernel

end Sample
end Verif
