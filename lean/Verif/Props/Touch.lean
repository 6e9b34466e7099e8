import Verif.Proofs.Touch
import Verif.Props.ClientRefused
import Verif.Props.Isolation
import Verif.Props.Sub
import Verif.Spec.SampleSdk

/-!
# Property C87: a request changes only accounts it was given, and what the client library builds is given writable what it changes

`process` is the program alone; the runtime in addition refuses an instruction that changes an account not passed writable.
`C87_library` and `C87_sub_sign` show that this rule never refuses what the client library builds.
-/

namespace Verif

variable {env : Env} {cpi : Cpi} {m m' : Mem} {metas : List Meta} {ix : Bytes}

/-- Every request, whatever its data: an account that is not among its accounts stays as it is.  The called programs may do
anything the runtime lets them do. -/
theorem C87_passed (hc : cpi.Respects) (h : process env cpi m metas ix = .ok m') {k : Key} (hk : m' k ≠ m k) :
    ∃ a ∈ metas, a.key = k := by
  apply Classical.byContradiction
  intro hn
  have hv : ∀ a ∈ metas, k ≠ a.key := fun a ha hh => hn ⟨a, ha, hh.symm⟩
  exact hk (process_same (acc := m k) hc (fun a ha _ => hv a ha) (fun i _ a ha => hv a (List.mem_of_getElem? ha)) (fun s _ => .inl hv) rfl h)

/-- Every request, whatever its data: a changed account was passed writable, or is one of the few the request writes itself. -/
theorem C87_writable (hc : cpi.Respects) (hl : ∀ s, metas[1]? = some s ∨ metas[2]? = some s → cpi.Leaves s.key)
    (h : process env cpi m metas ix = .ok m') {k : Key} (hk : m' k ≠ m k) :
    Writable metas k ∨ ∃ i ∈ ownWrites (rd ix 0 2), ∃ a, metas[i]? = some a ∧ a.key = k := by
  apply Classical.byContradiction
  intro hn
  have hv : ∀ a ∈ metas, Off k a := fun a ha hw hh => hn (.inl ⟨a, ha, hh.symm, hw⟩)
  exact hk (process_same (acc := m k) hc hv (fun i hi a ha hh => hn (.inr ⟨i, hi, a, ha, hh.symm⟩)) (fun s hs => .inr (hl s hs)) rfl h)

/-! ## Requests of the client library -/

open Client

/-- What a library request writes itself it asks to be writable; the exception is signing for a V1 sub-account, which passes the
configuration account read-only. -/
theorem library_own {swig : Key} {c : Caller} {b : Built} (h : Library env swig c b) :
    (rd b.data 0 2 = 9 ∧ ∃ payer sub role inner, b = Client.subSignV1 env swig payer sub role inner c) ∨
    ∀ i ∈ ownWrites (rd b.data 0 2), ∃ a, b.accounts[i]? = some a ∧ a.writable = true := by
  have num : ∀ n : Nat, n < 2 ^ 16 → ∀ x : Bytes, rd (natLE 2 n ++ x) 0 2 = n := fun n hn x => rd_number hn x
  have one : ∀ {k : Key} {s : Bool} {l acc : List Meta} {n : Nat}, ownWrites n = [0] → acc = ⟨k, s, true⟩ :: l → ∀ i ∈ ownWrites n,
      ∃ a, acc[i]? = some a ∧ a.writable = true := by
    intro k s l acc n h ha i hi
    rw [h] at hi
    simp at hi
    subst hi
    exact ⟨_, by rw [ha]; rfl, rfl⟩
  have two : ∀ {k k' : Key} {s s' : Bool} {l acc : List Meta} {n : Nat}, ownWrites n = [0, 1] → acc = ⟨k, s, true⟩ :: ⟨k', s', true⟩ :: l →
      ∀ i ∈ ownWrites n, ∃ a, acc[i]? = some a ∧ a.writable = true := by
    intro k k' s s' l acc n h ha i hi
    rw [h] at hi
    simp at hi
    rcases hi with rfl | rfl <;> exact ⟨_, by rw [ha]; rfl, rfl⟩
  have third : ∀ {k k' : Key} {s s' : Bool} {x : Meta} {l acc : List Meta} {n : Nat}, ownWrites n = [0, 2] →
      acc = ⟨k, s, true⟩ :: x :: ⟨k', s', true⟩ :: l → ∀ i ∈ ownWrites n, ∃ a, acc[i]? = some a ∧ a.writable = true := by
    intro k k' s s' x l acc n h ha i hi
    rw [h] at hi
    simp at hi
    rcases hi with rfl | rfl <;> exact ⟨_, by rw [ha]; rfl, rfl⟩
  cases h
  case subSignV1 payer sub role inner =>
    left
    refine ⟨?_, payer, sub, role, inner, rfl⟩
    cases c <;> simp only [Client.subSignV1, byEd, byK1Old, byR1Old, byExec, subSignData, List.append_assoc, num 9 (by decide)]
  case create => right; simp only [Client.create, List.append_assoc, num 0 (by decide)]; intro i hi; cases hi
  case add =>
    right
    cases c <;> simp only [addAuthority, Client.addData, manageBy, managing, byEd, byK1, byR1, byExec, List.append_assoc, num 1 (by decide)] <;> exact one (by decide) rfl
  case remove =>
    right
    cases c <;> simp only [removeAuthority, removeData, manageBy, managing, byEd, byK1, byR1, byExec, List.append_assoc, num 2 (by decide)] <;> exact two (by decide) rfl
  case update =>
    right
    cases c <;> simp only [updateAuthority, Client.updateData, manageBy, managing, byEd, byK1, byR1, byExec, List.append_assoc, num 3 (by decide)] <;> exact two (by decide) rfl
  case session =>
    right
    cases c <;> simp only [createSession, sessionData, manageBy, managing, byEd, byK1, byR1, byExec, List.append_assoc, num 5 (by decide)] <;> exact one (by decide) rfl
  case claimer hb =>
    right
    cases c <;> simp only [setRentClaimer, Option.some.injEq, reduceCtorEq] at hb <;> subst hb <;>
      simp only [claimerData, manageBy, managing, byEd, byK1, byR1, List.append_assoc, num 17 (by decide)] <;> exact one (by decide) rfl
  case replace hb =>
    right
    unfold replaceAuthority replaceData at hb
    split at hb
    · simp only [Option.bind_some] at hb
      cases c
      case exec p t => cases t <;> simp only [Option.some.injEq, reduceCtorEq] at hb; subst hb; simp only [byExec, List.append_assoc, num 16 (by decide)]; exact one (by decide) rfl
      all_goals simp only [Option.some.injEq] at hb; subst hb; simp only [byEd, byK1, byR1, List.append_assoc, num 16 (by decide)]; exact one (by decide) rfl
    · cases hb
  case sign wallet payer role inner signers =>
    right
    have pre : ∀ (a : Meta) (l : List Meta), ∃ t, (compactInstructions [swig] (a :: l) [inner]).1 = a :: (l ++ t) := fun a l => by
      obtain ⟨t, ht⟩ := compactLoop_prefix [swig] [inner] (a :: l) (KeyMap.ofMetas 0 (a :: l) [])
      exact ⟨t, by simpa [compactInstructions] using ht.symm⟩
    cases c <;> simp only [Client.signV2, signData, byEd, byK1, byR1, byExec, List.append_assoc, num 11 (by decide)]
    case exec =>
      obtain ⟨t, ht⟩ := pre (w swig) [w wallet, ws payer]
      exact one (k := swig) (s := false) (by decide) (by rw [ht]; rfl)
    case ed25519 k =>
      obtain ⟨t, ht⟩ := pre (w swig) [w wallet, ros k]
      refine one (k := swig) (s := signers.contains swig) (by decide) (by rw [ht]; simp only [markSigners, List.map_cons]; congr 1; by_cases hq : swig ∈ signers <;> simp [w, hq])
    case secp256k1 =>
      obtain ⟨t, ht⟩ := pre (w swig) [w wallet, ro systemId]
      refine one (k := swig) (s := signers.contains swig) (by decide) (by rw [ht]; simp only [markSigners, List.map_cons]; congr 1; by_cases hq : swig ∈ signers <;> simp [w, hq])
    case secp256r1 =>
      obtain ⟨t, ht⟩ := pre (w swig) [w wallet, ro systemId, ro instructionsSysvarId]
      refine one (k := swig) (s := signers.contains swig) (by decide) (by rw [ht]; simp only [markSigners, List.map_cons]; congr 1; by_cases hq : swig ∈ signers <;> simp [w, hq])
  case createSubV1 =>
    right
    cases c <;> simp only [Client.createSubV1, createSubData, byEd, byK1Old, byR1Old, byExec, List.append_assoc, num 6 (by decide)] <;> exact one (by decide) rfl
  case withdrawSubV1 =>
    right
    cases c <;> simp only [Client.withdrawSubV1, withdrawSubData, byEd, byK1Old, byR1, byExec, List.append_assoc, num 7 (by decide)] <;> exact one (by decide) rfl
  case withdrawSubTokenV1 =>
    right
    cases c <;> simp only [Client.withdrawSubTokenV1, withdrawSubData, byEd, byK1Old, byR1Old, byExec, List.append_assoc, num 7 (by decide)] <;> exact one (by decide) rfl
  case toggleSubV1 =>
    right
    cases c <;> simp only [Client.toggleSubV1, toggleSubData, byEd, byK1Old, byR1Old, byExec, List.append_assoc, num 10 (by decide)] <;> exact one (by decide) rfl
  case transferAssets =>
    right
    cases c <;> simp only [Client.transferAssets, roleData, byEd, byK1Old, byR1Old, byExec, List.append_assoc, num 13 (by decide)] <;> exact two (by decide) rfl
  case closeTokens hb =>
    right
    cases c <;> simp only [Client.closeTokens, Option.some.injEq, reduceCtorEq] at hb <;> subst hb <;>
      simp only [roleData, byEd, byK1, byR1, List.append_assoc, num 14 (by decide)] <;> exact one (by decide) rfl
  case closeSwig hb =>
    right
    cases c <;> simp only [Client.closeSwig, Option.some.injEq, reduceCtorEq] at hb <;> subst hb <;>
      simp only [roleData, byEd, byK1, byR1, List.append_assoc, num 15 (by decide)] <;> exact third (by decide) rfl
  case createSubV2 hb =>
    right
    cases c <;> simp only [Client.createSubV2, Option.some.injEq, reduceCtorEq] at hb <;> subst hb <;>
      simp only [createSubV2Data, byEd, byK1, byR1, List.append_assoc, num 18 (by decide)] <;> exact one (by decide) rfl
  case toggleSubV2 hb =>
    right
    cases c <;> simp only [Client.toggleSubV2, Option.some.injEq, reduceCtorEq] at hb <;> subst hb <;>
      simp only [toggleSubV2Data, byEd, byK1, byR1, List.append_assoc, num 19 (by decide)] <;> exact third (by decide) rfl
  case subSignV2 state sub role id inner hb =>
    right
    have pre : ∀ (a : Meta) (l : List Meta), ∃ t, (compactInstructions [swig, sub] (a :: l) inner).1 = a :: (l ++ t) := fun a l => by
      obtain ⟨t, ht⟩ := compactLoop_prefix [swig, sub] inner (a :: l) (KeyMap.ofMetas 0 (a :: l) [])
      exact ⟨t, by simpa [compactInstructions] using ht.symm⟩
    cases c <;> simp only [Client.subSignV2, Option.some.injEq, reduceCtorEq] at hb <;> subst hb <;>
      simp only [subSignV2Data, byEd, byK1, byR1, List.append_assoc, num 20 (by decide)]
    case ed25519 k =>
      obtain ⟨t, ht⟩ := pre (w swig) [ro state, w sub, ro systemId, ros k]
      exact one (k := swig) (s := false) (by decide) (by rw [ht]; rfl)
    case secp256k1 =>
      obtain ⟨t, ht⟩ := pre (w swig) [ro state, w sub, ro systemId]
      exact one (k := swig) (s := false) (by decide) (by rw [ht]; rfl)
    case secp256r1 =>
      obtain ⟨t, ht⟩ := pre (w swig) [ro state, w sub, ro systemId, ro instructionsSysvarId]
      exact one (k := swig) (s := false) (by decide) (by rw [ht]; rfl)
  case withdrawSubV2 hb =>
    right
    cases c <;> simp only [Client.withdrawSubV2, Option.some.injEq, reduceCtorEq] at hb <;> subst hb <;>
      simp only [withdrawSubV2Data, byEd, byK1, byR1, List.append_assoc, num 21 (by decide)] <;> exact one (by decide) rfl

/-- What the client library builds passes the runtime rule: every account such a request changes is passed writable (the
System program's own address, which the runtime never lets anybody write, left aside). -/
theorem C87_library {swig : Key} {c : Caller} {b : Built} (hb : Library env swig c b) (h9 : rd b.data 0 2 ≠ 9) (hp : Promoted b.accounts metas)
    (hc : cpi.Respects) (hl : ∀ s, metas[1]? = some s ∨ metas[2]? = some s → cpi.Leaves s.key)
    (h : process env cpi m metas b.data = .ok m') {k : Key} (hs : k ≠ systemId) (hk : m' k ≠ m k) : Writable metas k := by
  rcases C87_writable hc hl h hk with h1 | ⟨i, hi, a, ha, rfl⟩
  · exact h1
  · rcases library_own hb with ⟨h2, _⟩ | h2
    · exact absurd h2 h9
    · obtain ⟨x, hx, hxw⟩ := h2 i hi
      obtain ⟨y, h3, h4, _⟩ := hp.at hx
      obtain rfl : y = a := by rw [ha] at h3; exact (Option.some.inj h3).symm
      obtain ⟨z, h5, h6⟩ := hp.writables i x hx hxw (by rw [← h4]; exact hs)
      obtain rfl : z = y := by rw [ha] at h5; exact (Option.some.inj h5).symm
      exact ⟨z, List.mem_of_getElem? ha, rfl, h6⟩

/-- A payload of one byte proves no credential that counts its uses. -/
theorem authRole_short {env : Env} {ty : Nat} {auth out payload data sysvar : Bytes} (hp : payload.length < 17)
    (h : authRole env ty auth metas sysvar payload data = .ok out) : out = auth := by
  unfold authRole at h
  split at h
  · obtain ⟨_, _, h⟩ := bind_ok_iff.mp h
    cases h; rfl
  · unfold authenticate at h
    split at h
    · split at h
      · cases h
      · obtain ⟨_, _, h⟩ := bind_ok_iff.mp h
        cases h; rfl
    · split at h
      · unfold k1Authenticate at h
        rw [if_pos (by omega)] at h
        cases h
      · split at h
        · unfold r1Authenticate at h
          rw [if_pos hp] at h
          cases h
        · obtain ⟨_, _, h⟩ := bind_ok_iff.mp h
          cases h; rfl

/-- A use that leaves the stored credential as it is leaves the wallet as it is. -/
theorem used_of_same {w : Wallet} {id : Nat} {r : Role} (hw : w.WF) (hr : w.role? id = some r) (h : usedCred r.authType r.auth = r.auth) :
    w.used id = w := by
  have hm := role?_mem hr
  have : w.roles.map (fun x => if x.id = id then { x with auth := usedCred x.authType x.auth } else x) = w.roles := by
    conv => rhs; rw [← List.map_id w.roles]
    apply List.map_congr_left
    intro x hx
    split
    · rename_i hi
      have : x = r := by
        obtain ⟨b, a, e⟩ := List.append_of_mem hm.1
        have ho := hw.others e
        rw [e] at hx
        rcases List.mem_append.mp hx with h1 | h1
        · exact absurd (hi.trans hm.2.symm) (ho.1 x h1)
        · rcases List.mem_cons.mp h1 with h1 | h1
          · exact h1
          · exact absurd (hi.trans hm.2.symm) (ho.2 x h1)
      subst this
      simp [h]
    · rfl
  simp only [Wallet.used, Wallet.mapRole, this]

theorem setData_self (m : Mem) (k : Key) : m.setData k (m k).data = m := by
  funext x
  unfold Mem.setData Mem.set
  split
  · rename_i h; subst h; rfl
  · rfl

/-- Signing for a V1 sub-account with a key, the one case in which the client library passes the configuration account read-only: it is
not changed. -/
theorem C87_sub_sign {swig payer sub k0 : Key} {w : Wallet} {role : Nat} {inner : List FullIx} (hw : w.WF) (hd : (m swig).data = w.encode)
    (hr : role < 2 ^ 32) (hlen : sub.length = 32)
    (hsmall : (Client.subSignV1 env swig payer sub role inner (.ed25519 k0)).data.length ≤ 1232)
    (hp : Promoted (Client.subSignV1 env swig payer sub role inner (.ed25519 k0)).accounts metas)
    (hc : cpi.Respects) (hl : ∀ s, metas[1]? = some s ∨ metas[2]? = some s → cpi.Leaves s.key)
    (h : process env cpi m metas (Client.subSignV1 env swig payer sub role inner (.ed25519 k0)).data = .ok m') {k : Key} (hk : m' k ≠ m k) :
    Writable metas k := by
  apply Classical.byContradiction
  intro hn
  have hv : ∀ a ∈ metas, Off k a := fun a ha hw' hh => hn ⟨a, ha, hh.symm, hw'⟩
  generalize hx : compactInstructions [swig, sub] [ro swig, Client.w sub, ro systemId, ros k0] inner = x at *
  have hb : Client.subSignV1 env swig payer sub role inner (.ed25519 k0) = byEd x.1 (subSignData role (compactBytes x.2)) 3 := by
    simp only [Client.subSignV1, hx]
  rw [hb] at h hp hsmall
  have hsmall : (compactBytes x.2).length < 2 ^ 16 := by
    simp only [byEd, subSignData, List.length_append, natLE_length, List.length_cons, List.length_nil] at hsmall
    omega
  obtain ⟨l, hkeys⟩ := compact_keys [swig, sub] [ro swig, Client.w sub, ro systemId, ros k0] inner
  rw [hx] at hkeys
  have hk' : metas.map Meta.key = swig :: sub :: ([systemId, k0] ++ l) := by
    rw [hp.keys]; exact hkeys
  simp only [byEd] at h
  generalize compactBytes x.2 = bytes at *
  obtain ⟨r0, hr0, _⟩ := subSign_acts hw hd hr hk' hlen hsmall h
  obtain ⟨cls, h⟩ := process_dispatch h
  have hl2 : (subSignData role bytes).length = 16 + bytes.length := by simp [subSignData]; omega
  unfold dispatch at h
  rw [if_neg (by simp [hl2]; omega), show rd (subSignData role bytes ++ [3]) 0 2 = 9 by
    simp only [subSignData, List.append_assoc]; exact rd_number (by decide) _] at h
  match metas, hk', h with
  | a :: b :: s :: rest, hk', h =>
    simp only [List.map_cons, List.cons.injEq] at hk'
    obtain ⟨rfl, rfl, _⟩ := hk'
    have e4 : rd (subSignData role bytes ++ [3]) 4 4 = role := by
      have := rd_full 4 role (by simpa using hr) (natLE 2 9 ++ natLE 2 bytes.length) (zeros 8 ++ bytes ++ [3]) (i := 4) (by simp)
      simpa [List.append_assoc, subSignData] using this
    obtain ⟨q, r, act, ixs, m1, hq, _, _, hown, hacts, _, _, _, hdec, hexec, hrent⟩ := subSignV1_enc hw hd hlen h
    have hqr : q.role = role := by
      unfold parseSubSign at hq
      dsimp only at hq
      split at hq
      · cases hq
      · split at hq
        · cases hq
        · cases hq; exact e4
    rw [hqr] at hacts hexec
    have hrr : r = r0 := by
      have := hacts.1.symm.trans hr0.1
      exact Option.some.inj this
    subst hrr
    have hsame : usedCred r.authType r.auth = r.auth := authRole_short (by simp) hr0.2
    rw [used_of_same hw hr0.1 hsame, ← hd, setData_self] at hexec
    exact hk (Same.checkRent (Same.execAll hc hv (.inr (hl b (.inl rfl))) (decodeIxs_mem hdec) rfl (.inr hown) hexec) hrent)

/-! ## The hypotheses are met -/

section
open Sample SampleClient

/-- A System program that only knows `Transfer`. -/
def payCpi : Cpi := fun m ix =>
  match ix.accounts with
  | a :: b :: _ => if ix.program = systemId ∧ rd ix.data 0 4 = 2 then demoTransfer m a b (rd ix.data 4 8) else .error .runtime
  | _ => .error .runtime

theorem payCpi_ok {m m' : Mem} {ix : CpiIx} (h : payCpi m ix = .ok m') :
    ∃ a b l n, ix.accounts = a :: b :: l ∧ sysTransfer m a b n = .ok m' := by
  unfold payCpi at h
  split at h
  · rename_i a b l e
    split at h
    · unfold demoTransfer at h
      split at h
      · exact ⟨a, b, l, _, e, h⟩
      · cases h
    · cases h
  · cases h

theorem payCpi_respects : payCpi.Respects := by
  intro m ix m' h k hk
  obtain ⟨a, b, l, n, e, h⟩ := payCpi_ok h
  apply Classical.byContradiction
  intro hn
  have ha : Off k a := fun hw hh => hn ⟨a, by rw [e]; simp, hh.symm, hw⟩
  have hb : Off k b := fun hw hh => hn ⟨b, by rw [e]; simp, hh.symm, hw⟩
  exact hk (Same.sysTransfer (acc := m k) rfl ha hb h)

theorem payCpi_leaves (k : Key) : payCpi.Leaves k := by
  intro m ix m' ho h
  obtain ⟨a, b, l, n, e, h⟩ := payCpi_ok h
  obtain ⟨_, _, _, _, rfl⟩ := sysTransfer_ok h
  simpa using ho

/-- Adding a role, asked for by the owner: the configuration account changes. -/
example : ∃ b m', Library env1 (K 1) callerEd b ∧ rd b.data 0 2 ≠ 9 ∧ process env1 payCpi (memOf b) b.accounts b.data = .ok m' ∧
    m' (K 1) ≠ memOf b (K 1) := by
  have key := SampleSdk.exists_of_leads (x := process env1 payCpi (memOf (addAuthority env1 (K 1) (K 10) 0 1 (K 20) [.programAll] callerEd))
    (addAuthority env1 (K 1) (K 10) 0 1 (K 20) [.programAll] callerEd).accounts
    (addAuthority env1 (K 1) (K 10) 0 1 (K 20) [.programAll] callerEd).data) (p := fun m' => decide (m' (K 1) ≠
      memOf (addAuthority env1 (K 1) (K 10) 0 1 (K 20) [.programAll] callerEd) (K 1))) (by decide +kernel)
  obtain ⟨m', h1, h2⟩ := key
  exact ⟨_, m', .add (K 10) 0 1 (K 20) [.programAll] callerEd, by decide +kernel, h1, of_decide_eq_true h2⟩

/-- Signing for a V1 sub-account with the configuration account passed read-only. -/
example : ∃ m', (v1Wallet 1).WF ∧ (v1Mem 1 (K 1)).data = (v1Wallet 1).encode ∧
    (Client.subSignV1 subEnv (K 1) (K 10) (K 3) 1 [⟨systemId, [⟨K 3, true, true⟩, ⟨K 40, false, true⟩], natLE 4 2 ++ natLE 8 5⟩] (.ed25519 (K 11))).accounts[0]? =
      some ⟨K 1, false, false⟩ ∧
    process subEnv payCpi (v1Mem 1)
      (Client.subSignV1 subEnv (K 1) (K 10) (K 3) 1 [⟨systemId, [⟨K 3, true, true⟩, ⟨K 40, false, true⟩], natLE 4 2 ++ natLE 8 5⟩] (.ed25519 (K 11))).accounts
      (Client.subSignV1 subEnv (K 1) (K 10) (K 3) 1 [⟨systemId, [⟨K 3, true, true⟩, ⟨K 40, false, true⟩], natLE 4 2 ++ natLE 8 5⟩] (.ed25519 (K 11))).data = .ok m' ∧
    (m' (K 40)).lamports = (v1Mem 1 (K 40)).lamports + 5 := by
  have key := SampleSdk.exists_of_leads (x := process subEnv payCpi (v1Mem 1)
      (Client.subSignV1 subEnv (K 1) (K 10) (K 3) 1 [⟨systemId, [⟨K 3, true, true⟩, ⟨K 40, false, true⟩], natLE 4 2 ++ natLE 8 5⟩] (.ed25519 (K 11))).accounts
      (Client.subSignV1 subEnv (K 1) (K 10) (K 3) 1 [⟨systemId, [⟨K 3, true, true⟩, ⟨K 40, false, true⟩], natLE 4 2 ++ natLE 8 5⟩] (.ed25519 (K 11))).data)
    (p := fun m' => decide ((m' (K 40)).lamports = (v1Mem 1 (K 40)).lamports + 5)) (by decide +kernel)
  obtain ⟨m', h1, h2⟩ := key
  exact ⟨m', by decide +kernel, by decide +kernel, by decide +kernel, h1, of_decide_eq_true h2⟩

/-- The condition on the owner of the signing address is needed: with the wallet address assigned to the wallet program (C64) the program
itself moves lamports out of an account passed read-only.  The runtime refuses that request, the program does not. -/
theorem C87_assigned : ∃ m', process isoEnv demoCpi (isoMem ⟨swigId, 2000000000, victim.encode⟩)
      [⟨K 1, false, true⟩, ⟨K 2, false, true⟩, ⟨systemId, false, false⟩, ⟨K 10, true, true⟩, ⟨K 80, false, false⟩] (stealIx 2000000000) = .ok m' ∧
    (m' (K 80)).lamports = 0 := by
  obtain ⟨m', h1, h2⟩ := SampleSdk.exists_of_leads (x := process isoEnv demoCpi (isoMem ⟨swigId, 2000000000, victim.encode⟩)
      [⟨K 1, false, true⟩, ⟨K 2, false, true⟩, ⟨systemId, false, false⟩, ⟨K 10, true, true⟩, ⟨K 80, false, false⟩] (stealIx 2000000000))
    (p := fun m' => decide ((m' (K 80)).lamports = 0)) (by decide +kernel)
  exact ⟨m', h1, of_decide_eq_true h2⟩

end

end Verif
