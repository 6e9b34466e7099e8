import Verif.Proofs.AcceptSign
import Verif.Props.Accept
import Verif.Spec.SampleSign

/-!
# Exactly which signing requests are accepted (C111)

When the program carries out a request to have instructions executed in the name of the wallet, in both directions: for roles that may do
everything, and for roles with limits, including what is done with token accounts and with limits for destinations.  `LimitsAllow` and its
parts are in Verif/Spec/AcceptSign.lean.  Assumed as for C109; for roles with limits also that the called programs leave the configuration
account alone (what happens otherwise is C53), and 32-byte addresses.  No stake account and no target of a program scope is among the
accounts (`Plain`).
-/

namespace Verif
open Client

section
variable {env : Env} {cpi : Cpi} {m : Mem} {swig : Meta} {rest : List Meta} {ix : Bytes} {w : Wallet}

theorem classify_wallet {prev : List Meta} {cls : List Class} {cache : Option (List (Nat × Bytes))} {a : Meta}
    (h : classify m prev cls cache a = .ok .wallet) : (m a.key).owner = systemId := by
  unfold classify at h
  dsimp only at h
  by_cases h1 : (m a.key).owner = swigId
  · rw [if_pos h1] at h
    split at h
    · cases h
    · split at h
      · cases h
      · have no : ∀ b : Bool, (if b = true then (.ok .none : R Class) else .error E.invalidAccountsSwigMustBeFirst) ≠ .ok .wallet := by
          intro b h
          cases b <;> cases h
        exact absurd h (no _)
  · rw [if_neg h1] at h
    by_cases h2 : (m a.key).owner = systemId
    · exact h2
    · rw [if_neg (fun h => h2 h.1)] at h
      exfalso
      by_cases h3 : (m a.key).owner = stakeId
      · rw [if_pos h3] at h
        split at h
        · cases h
        · split at h
          · cases h
          · split at h <;> cases h
      · rw [if_neg h3] at h
        split at h
        · split at h <;> cases h
        · split at h
          · cases h
          · split at h
            · cases h
            · split at h
              · cases h
              · obtain ⟨_, _, h⟩ := bind_ok_iff.mp h
                cases h

/-- What an accepted signing request meets before anything is executed. -/
theorem sign_needs (ho : Open m swig.key w) (hi : rd ix 0 2 = 11) (h : Accepted env cpi m (swig :: rest) ix) :
    ∃ wallet x3 more r ixs, rest = wallet :: x3 :: more ∧ 8 + rd ix 2 2 ≤ ix.length ∧ env.stackHeight = 1 ∧
      (m wallet.key).owner = systemId ∧ Speaks env m (swig :: rest) w (rd ix 4 4) (ix.drop (8 + rd ix 2 2)) (innerBytes ix) r ∧
        decodeIxs (swig :: rest) wallet.key [] (innerBytes ix) = .ok ixs := by
  obtain ⟨m', h⟩ := h
  obtain ⟨swig', wallet, x3, more, cls, e, h1, h2⟩ := process_sign hi h
  simp only [List.cons.injEq] at e
  obtain ⟨rfl, rfl⟩ := e
  obtain ⟨a, r, before, after, ixs, g1, g2, _, hc, g5, g6, g7, g8⟩ := signV2_enc ho.wf ho.data h2
  obtain ⟨a1, a2, a3⟩ := parseSign_ok g1
  rw [a1, a2, a3] at g5
  rw [a2] at g6
  refine ⟨wallet, x3, more, r, ixs, rfl, ?_, g2, ?_, (speaks_iff ho.wf).mpr g5, g6⟩
  · unfold parseSign at g1
    split at g1
    · cases g1
    · dsimp only at g1
      split at g1
      · cases g1
      · omega
  · simp only [classifyAll] at h1
    obtain ⟨c0, k1, h1⟩ := bind_ok_iff.mp h1
    simp only [classifyGo] at h1
    obtain ⟨c1, k2, h1⟩ := bind_ok_iff.mp h1
    obtain ⟨c2, k3, h1⟩ := bind_ok_iff.mp h1
    obtain ⟨t, rfl⟩ := classifyGo_prefix _ _ _ _ h1
    have hc : c1 = .wallet := by simpa using hc
    subst hc
    exact classify_wallet k2

/-- Such a request is accepted if the execution succeeds. -/
theorem sign_reached (ho : Open m swig.key w) (hp : Plain m w (swig :: rest)) (hl : (swig :: rest).length ≤ 254) (hi : rd ix 0 2 = 11)
    {wallet x3 : Meta} {more : List Meta} {r : Role} {ixs : List Inner} (hr : rest = wallet :: x3 :: more) (hn : 8 + rd ix 2 2 ≤ ix.length)
    (hst : env.stackHeight = 1) (hw : (m wallet.key).owner = systemId)
    (hs : Speaks env m (swig :: rest) w (rd ix 4 4) (ix.drop (8 + rd ix 2 2)) (innerBytes ix) r)
    (hdec : decodeIxs (swig :: rest) wallet.key [] (innerBytes ix) = .ok ixs) :
    ∃ before after tl, All2 (PlainClass m swig.key wallet.key) (x3 :: more) tl ∧
      Placed ⟨swig.key, 48 + (rolesSize before + 16 + r.auth.length), (encActs 0 r.actions).length⟩ (w.used (rd ix 4 4)) (rd ix 4 4)
          { r with auth := usedCred r.authType r.auth } before after ∧
      (Accepted env cpi m (swig :: rest) ix ↔ ∃ m', signWith env cpi (m.setData swig.key (w.used (rd ix 4 4)).encode) (swig :: rest)
          (.thisSwig (m swig.key).lamports :: .wallet :: tl) wallet.key (walletSeeds swig.key ++ [[w.walletBump]])
          ⟨swig.key, 48 + (rolesSize before + 16 + r.auth.length), (encActs 0 r.actions).length⟩ ixs = .ok m') := by
  subst hr
  obtain ⟨tl, hpc, e⟩ := process_plain (env := env) (cpi := cpi) (ix := ix) ho.wf ho.data ho.owner hw hp hl
  have hparse : parseSign ix = .ok ⟨rd ix 4 4, innerBytes ix, ix.drop (8 + rd ix 2 2)⟩ := by
    unfold parseSign
    rw [if_neg (by omega)]
    dsimp only
    rw [if_neg (by omega)]
    rfl
  obtain ⟨before, after, hpl, e2⟩ := signV2_reach (cpi := cpi) (tl := tl) (n := (m swig.key).lamports) ho.wf ho.data hst hparse
    ((speaks_iff ho.wf).mp hs) hdec
  refine ⟨before, after, tl, hpc, hpl, ?_⟩
  unfold Accepted
  rw [e, dispatch, if_neg (by omega), hi]
  show (∃ m', Verif.signV2 env cpi m (swig :: wallet :: x3 :: more) (.thisSwig (m swig.key).lamports :: .wallet :: tl) ix = .ok m') ↔ _
  rw [e2]

/-- A request of a role that may do everything, or everything but manage roles, is accepted exactly if the parts of the request are there,
it is not made by another program, the second account belongs to the System program, the credential of the role accepts the instructions,
they can be decoded, and they can be executed. -/
theorem C111_sign_free (ho : Open m swig.key w) (hp : Plain m w (swig :: rest)) (hl : (swig :: rest).length ≤ 254) (hi : rd ix 0 2 = 11)
    (hf : ∀ r, w.role? (rd ix 4 4) = some r → r.holds P.all ∨ r.holds P.allButManageAuthority) :
    Accepted env cpi m (swig :: rest) ix ↔
      ∃ wallet x3 more r ixs, rest = wallet :: x3 :: more ∧ 8 + rd ix 2 2 ≤ ix.length ∧ env.stackHeight = 1 ∧
        (m wallet.key).owner = systemId ∧ Speaks env m (swig :: rest) w (rd ix 4 4) (ix.drop (8 + rd ix 2 2)) (innerBytes ix) r ∧
        decodeIxs (swig :: rest) wallet.key [] (innerBytes ix) = .ok ixs ∧
        ∃ m', execAll env cpi (swig :: rest) wallet.key (walletSeeds swig.key ++ [[w.walletBump]])
          (m.setData swig.key (w.used (rd ix 4 4)).encode) ixs = .ok m' := by
  have free : ∀ r, w.role? (rd ix 4 4) = some r → ¬ Restricted { r with auth := usedCred r.authType r.auth } := by
    intro r hr h
    rcases hf r hr with e | e
    all_goals
      obtain ⟨a, ha, e⟩ := e
      first | exact (h a ha).1 e | exact (h a ha).2 e
  constructor
  · intro h
    obtain ⟨wallet, x3, more, r, ixs, h1, h2, h3, h4, h5, h6⟩ := sign_needs ho hi h
    obtain ⟨before, after, tl, k1, k2, k3⟩ := sign_reached (cpi := cpi) ho hp hl hi h1 h2 h3 h4 h5 h6
    have h := k3.mp h
    rw [signWith_free k2 (Mem.setData_data ..) (free r h5.1)] at h
    exact ⟨wallet, x3, more, r, ixs, h1, h2, h3, h4, h5, h6, h⟩
  · rintro ⟨wallet, x3, more, r, ixs, h1, h2, h3, h4, h5, h6, h⟩
    obtain ⟨before, after, tl, k1, k2, k3⟩ := sign_reached (cpi := cpi) ho hp hl hi h1 h2 h3 h4 h5 h6
    refine k3.mpr ?_
    rw [signWith_free k2 (Mem.setData_data ..) (free r h5.1)]
    exact h

/-- A request of a role with limits is accepted exactly if, as above, the parts of the request are there, it is not made by another program,
the second account belongs to the System program, the credential accepts the instructions and they can be decoded; and the limits allow them. -/
theorem C111_sign_limited (ho : Open m swig.key w) (hp : Plain m w (swig :: rest)) (hl : (swig :: rest).length ≤ 254) (hi : rd ix 0 2 = 11)
    (hf : ∀ r, w.role? (rd ix 4 4) = some r → ¬ r.holds P.all ∧ ¬ r.holds P.allButManageAuthority)
    (hk : ∀ a ∈ swig :: rest, a.key.length = 32) (hkeep : cpi.Keeps swig.key) :
    Accepted env cpi m (swig :: rest) ix ↔
      ∃ wallet x3 more r ixs, rest = wallet :: x3 :: more ∧ 8 + rd ix 2 2 ≤ ix.length ∧ env.stackHeight = 1 ∧
        (m wallet.key).owner = systemId ∧ Speaks env m (swig :: rest) w (rd ix 4 4) (ix.drop (8 + rd ix 2 2)) (innerBytes ix) r ∧
        decodeIxs (swig :: rest) wallet.key [] (innerBytes ix) = .ok ixs ∧
        ∃ m1, LimitsAllow env cpi (m.setData swig.key (w.used (rd ix 4 4)).encode) m1 (swig :: rest) swig.key wallet.key
          (walletSeeds swig.key ++ [[w.walletBump]]) r.actions ixs := by
  have res : ∀ r, w.role? (rd ix 4 4) = some r → Restricted { r with auth := usedCred r.authType r.auth } := by
    intro r hr a ha
    exact ⟨fun e => (hf r hr).1 ⟨a, ha, e⟩, fun e => (hf r hr).2 ⟨a, ha, e⟩⟩
  have key : ∀ (wallet x3 : Meta) (more : List Meta) (r : Role) (ixs : List Inner), rest = wallet :: x3 :: more →
      (m wallet.key).owner = systemId → decodeIxs (swig :: rest) wallet.key [] (innerBytes ix) = .ok ixs → w.role? (rd ix 4 4) = some r →
      ∀ (before after : List Role) (tl : List Class), All2 (PlainClass m swig.key wallet.key) (x3 :: more) tl →
      Placed ⟨swig.key, 48 + (rolesSize before + 16 + r.auth.length), (encActs 0 r.actions).length⟩ (w.used (rd ix 4 4)) (rd ix 4 4)
          { r with auth := usedCred r.authType r.auth } before after →
      ((∃ m', signWith env cpi (m.setData swig.key (w.used (rd ix 4 4)).encode) (swig :: rest)
          (.thisSwig (m swig.key).lamports :: .wallet :: tl) wallet.key (walletSeeds swig.key ++ [[w.walletBump]])
          ⟨swig.key, 48 + (rolesSize before + 16 + r.auth.length), (encActs 0 r.actions).length⟩ ixs = .ok m') ↔
        ∃ m1, LimitsAllow env cpi (m.setData swig.key (w.used (rd ix 4 4)).encode) m1 (swig :: rest) swig.key wallet.key
          (walletSeeds swig.key ++ [[w.walletBump]]) r.actions ixs) := by
    intro wallet x3 more r ixs hr hw hdec hrole before after tl hpc hpl
    subst hr
    have hsame : ∀ a ∈ x3 :: more, ∀ k, TokenOf (m.setData swig.key (w.used (rd ix 4 4)).encode) k a.key ↔ TokenOf m k a.key := by
      intro a _ k
      by_cases e : a.key = swig.key
      · constructor
        · intro t
          rcases t.program with e2 | e2 <;> rw [Mem.setData_owner, e, ho.owner] at e2 <;> exact absurd e2 (by decide +kernel)
        · intro t
          rcases t.program with e2 | e2 <;> rw [e, ho.owner] at e2 <;> exact absurd e2 (by decide +kernel)
      · have := Mem.setData_other m (w.used (rd ix 4 4)).encode e
        exact ⟨fun t => ⟨this ▸ t.program, this ▸ t.long, this ▸ t.authority⟩, fun t => ⟨this.symm ▸ t.program, this.symm ▸ t.long, this.symm ▸ t.authority⟩⟩
    have hpc2 : All2 (PlainClass (m.setData swig.key (w.used (rd ix 4 4)).encode) swig.key wallet.key) (x3 :: more) tl := by
      have : ∀ {l : List Meta} {t : List Class}, (∀ a ∈ l, ∀ k, TokenOf (m.setData swig.key (w.used (rd ix 4 4)).encode) k a.key ↔ TokenOf m k a.key) →
          All2 (PlainClass m swig.key wallet.key) l t →
          All2 (PlainClass (m.setData swig.key (w.used (rd ix 4 4)).encode) swig.key wallet.key) l t := by
        intro l t h1 h2
        induction h2 with
        | nil => exact .nil
        | cons h _ ih =>
          rename_i a c l t _
          refine .cons ⟨h.simple, fun hh => ?_, fun hh => ?_⟩ (ih fun a ha => h1 a (by simp [ha]))
          · rw [h1 a (by simp), h1 a (by simp)] at hh
            have hne : a.key ≠ swig.key := by
              intro e
              rcases hh with t | t <;> rcases t.program with e2 | e2 <;> rw [e, ho.owner] at e2 <;> exact absurd e2 (by decide +kernel)
            rw [Mem.setData_other _ _ hne]
            exact h.token hh
          · rw [h1 a (by simp), h1 a (by simp)] at hh
            exact h.other hh
      exact this hsame hpc
    have hprog : ∀ i ∈ ixs, i.program.length = 32 := by
      obtain ⟨cs', y', _, _, _, h4⟩ := (decodeIxs_iff _).mp hdec
      intro i hi
      have : ∀ {cs : List CompactIx} {l : List Inner}, All2 (Denotes (swig :: wallet :: x3 :: more) wallet.key []) cs l → ∀ i ∈ l, i.program.length = 32 := by
        intro cs l h
        induction h with
        | nil => intro i hi; simp at hi
        | cons hd _ ih =>
          intro i hi
          rcases List.mem_cons.mp hi with rfl | hi
          · obtain ⟨o, ho, e⟩ := hd.program
            rw [e]
            exact hk o (List.mem_of_getElem? ho)
          · exact ih i hi
      exact this h4 i hi
    have hu : ∀ i ∈ ixs, (i.usesSigner = true ↔ ∃ a ∈ i.accounts, a.key = wallet.key) := by
      intro i hi
      obtain ⟨f1, f2⟩ := C35_no_forged_signature hdec i hi
      rw [f2]
      refine ⟨fun ⟨a, ha, e, _⟩ => ⟨a, ha, e⟩, fun ⟨a, ha, e⟩ => ⟨a, ha, e, ?_⟩⟩
      obtain ⟨o, _, _, _, f⟩ := f1 a ha
      exact f.mpr ⟨.inl e, by simp⟩
    rw [show walletSeeds swig.key = walletSeeds (ActLoc.swig ⟨swig.key, 48 + (rolesSize before + 16 + r.auth.length), (encActs 0 r.actions).length⟩) from rfl,
      signWith_limited hpl (Mem.setData_data ..) (res r hrole)]
    exact signLimited_iff (r0 := { r with auth := usedCred r.authType r.auth }) (r := { r with auth := usedCred r.authType r.auth }) hpl rfl rfl (Mem.setData_data ..) (by rw [Mem.setData_owner]; exact ho.owner) (by rw [Mem.setData_owner]; exact hw)
      hkeep (fun a ha => hk a (by simp only [List.mem_cons] at ha ⊢; exact .inr (.inr ha))) (inner_keys hk hdec) hprog hu hpc2
  constructor
  · intro h
    obtain ⟨wallet, x3, more, r, ixs, h1, h2, h3, h4, h5, h6⟩ := sign_needs ho hi h
    obtain ⟨before, after, tl, k1, k2, k3⟩ := sign_reached (cpi := cpi) ho hp hl hi h1 h2 h3 h4 h5 h6
    exact ⟨wallet, x3, more, r, ixs, h1, h2, h3, h4, h5, h6, (key wallet x3 more r ixs h1 h4 h6 h5.1 before after tl k1 k2).mp (k3.mp h)⟩
  · rintro ⟨wallet, x3, more, r, ixs, h1, h2, h3, h4, h5, h6, h⟩
    obtain ⟨before, after, tl, k1, k2, k3⟩ := sign_reached (cpi := cpi) ho hp hl hi h1 h2 h3 h4 h5 h6
    exact k3.mpr ((key wallet x3 more r ixs h1 h4 h6 h5.1 before after tl k1 k2).mpr h)

end

/-! ## The hypotheses are met, and both sides occur -/

section
open Sample

/-- The demonstration programs, in a runtime that lets nobody but its owner write the configuration account. -/
def guardedCpi : Cpi := fun m ix =>
  match demoCpi m ix with
  | .ok m' => if (m' (K 1)).data = (m (K 1)).data ∧ (m' (K 1)).owner = (m (K 1)).owner then .ok m' else .error .runtime
  | .error e => .error e

theorem guardedCpi_keeps : guardedCpi.Keeps (K 1) := by
  intro m ix m' h
  unfold guardedCpi at h
  split at h
  · split at h
    · rename_i h1; cases h; exact h1
    · cases h
  · cases h

/-- What the theorems assume of the ledger and the accounts. -/
theorem signing_met : ∀ acts ∈ ([Sample.acts1, acts2, acts3, acts4, Sample.acts5, [⟨P.all, []⟩]] : List (List Act)), Open (signMem acts) (K 1) (signWallet acts) ∧
    Plain (signMem acts) (signWallet acts) (signSwig :: signAddr :: signRest) ∧ (signSwig :: signAddr :: signRest).length ≤ 254 ∧
    (∀ a ∈ signSwig :: signAddr :: signRest, a.key.length = 32) ∧ rd (signIx [paySol 1]) 0 2 = 11 := by
  intro acts h
  have hw : ∀ acts ∈ [Sample.acts1, acts2, acts3, acts4, Sample.acts5, [(⟨P.all, []⟩ : Act)]], (signMem acts (K 1)).owner = swigId ∧ (signWallet acts).WF ∧
      (signMem acts (K 1)).data = (signWallet acts).encode := by decide +kernel
  have hp : ∀ acts ∈ [Sample.acts1, acts2, acts3, acts4, Sample.acts5, [(⟨P.all, []⟩ : Act)]], ∀ a ∈ signSwig :: signAddr :: signRest,
      (signMem acts a.key).owner ≠ stakeId ∧ ∀ r ∈ (signWallet acts).roles, ∀ x ∈ r.actions, x.ty ≠ P.programScope := by decide +kernel
  exact ⟨⟨(hw acts h).1, (hw acts h).2.1, (hw acts h).2.2⟩, fun a ha => ⟨(hp acts h a ha).1, fun r hr x hx e => absurd e ((hp acts h a ha).2 r hr x hx)⟩,
    by decide +kernel, by decide +kernel, by decide +kernel⟩

/-- A role with limits: lamports and tokens at the limit, and one more of either; payments to a destination with a limit, at it and above
it; to fund the wallet without any limit, and to pay from it; a token account closed with the permission to close and without; and a role
that may do everything. -/
example : (∀ e ∈ [(Sample.acts1, [paySol 500, payToken 100]), (acts3, [paySol 300, paySol 200, payToken 90]), (acts4, [fundSol 100]),
      (Sample.acts5, [closeToken]), ([⟨P.all, []⟩], [paySol 700])],
      Accepted signEnv guardedCpi ((signMem e.1).setData (K 30) (tokenAcct (K 2) (if e.1 = Sample.acts5 then 0 else 1000)).data)
        (signSwig :: signAddr :: signRest) (signIx e.2)) ∧
    (∀ e ∈ [(Sample.acts1, [paySol 501, payToken 100]), (Sample.acts1, [paySol 500, payToken 101]), (acts3, [paySol 300, paySol 201]), (acts4, [paySol 1])],
      ¬ Accepted signEnv guardedCpi (signMem e.1) (signSwig :: signAddr :: signRest) (signIx e.2)) ∧
    ¬ Accepted signEnv guardedCpi ((signMem acts4).setData (K 30) (tokenAcct (K 2) 0).data) (signSwig :: signAddr :: signRest)
      (signIx [closeToken]) := by
  have acc : ∀ {env cpi m metas ix}, ok (process env cpi m metas ix) = true → Accepted env cpi m metas ix := exists_of_ok
  have rej : ∀ {env cpi m metas ix}, ok (process env cpi m metas ix) = false → ¬ Accepted env cpi m metas ix := by
    rintro env cpi m metas ix h ⟨m', e⟩
    rw [e] at h
    cases h
  refine ⟨fun e he => acc ?_, fun e he => rej ?_, rej (by decide +kernel)⟩
  · revert e; decide +kernel
  · revert e; decide +kernel

end

end Verif
