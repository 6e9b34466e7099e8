import Verif.Proofs.Lawful
import Verif.Props.Total

/-!
# Property C97: the program takes lamports from, and rewrites, only accounts it owns

`process` is the program alone; the runtime in addition refuses an instruction in which the program takes lamports from, or rewrites, an
account of another program.  `C97_lawful` shows that this rule never refuses what the program accepts, under the conditions of C88.
-/

namespace Verif

section
variable {env : Env} {cpi : Cpi} {m m' : Mem} {metas : List Meta} {ix : Bytes}

/-- Every request, whatever its data, is a run of changes the wallet program makes to its own accounts, changes the System program makes to
accounts of the System program, gifts of lamports, and calls. -/
theorem C97_lawful {ks : List Key} (hh : cpi.Holds) (hl : ∀ s, metas[1]? = some s ∨ metas[2]? = some s → cpi.Leaves s.key)
    (hr : env.RentMono) (hx : rd ix 0 2 = 2 ∨ rd ix 0 2 = 15 → ∀ s, metas[0]? = some s → Exempt env m s.key)
    (hd : rd ix 0 2 = 15 → ∀ s d, metas[0]? = some s → metas[2]? = some d → d.key ≠ s.key)
    (hn : ks.Nodup) (hw : ∀ a ∈ metas, a.key ∈ ks) (hs : total ks m < 2 ^ 64)
    (h : process env cpi m metas ix = .ok m') : Runs cpi m m' :=
  (process_lw (ok := fun _ => True) hh ⟨hn, hs, rfl⟩ hw hl hr hx hd (fun _ _ _ => trivial) (fun _ _ _ _ _ _ _ => trivial)
    (fun _ _ _ _ _ _ => trivial) h).runs

/-- An account of a third program, which the called programs leave alone, keeps owner and data and loses no lamports. -/
theorem Runs.foreign {k : Key} (h : Runs cpi m m') (hc : ∀ m ix m', cpi m ix = .ok m' → m' k = m k) (h1 : (m k).owner ≠ swigId)
    (h2 : (m k).owner ≠ systemId) :
    (m' k).owner = (m k).owner ∧ (m' k).data = (m k).data ∧ (m k).lamports ≤ (m' k).lamports := by
  induction h with
  | start => exact ⟨rfl, rfl, Nat.le_refl _⟩
  | own _ hs ih =>
    rcases hs k with g | g | ⟨g1, g2, g3⟩
    · rw [g]; exact ih
    · exact absurd (ih.1 ▸ g) h1
    · exact ⟨g1.trans ih.1, g2.trans ih.2.1, Nat.le_trans ih.2.2 g3⟩
  | system _ hs ih =>
    rcases hs k with g | g | ⟨g1, g2, g3⟩
    · rw [g]; exact ih
    · exact absurd (ih.1 ▸ g) h2
    · exact ⟨g1.trans ih.1, g2.trans ih.2.1, Nat.le_trans ih.2.2 g3⟩
  | call _ _ hs ih => rw [hc _ _ _ hs]; exact ih

/-- Every request: token accounts, stake accounts and any other account of a third program change only through a call of a program; by
itself a request can at most give them lamports. -/
theorem C97_foreign {ks : List Key} {k : Key} (hh : cpi.Holds) (hl : ∀ s, metas[1]? = some s ∨ metas[2]? = some s → cpi.Leaves s.key)
    (hr : env.RentMono) (hx : rd ix 0 2 = 2 ∨ rd ix 0 2 = 15 → ∀ s, metas[0]? = some s → Exempt env m s.key)
    (hd : rd ix 0 2 = 15 → ∀ s d, metas[0]? = some s → metas[2]? = some d → d.key ≠ s.key)
    (hn : ks.Nodup) (hw : ∀ a ∈ metas, a.key ∈ ks) (hs : total ks m < 2 ^ 64)
    (hc : ∀ m ix m', cpi m ix = .ok m' → m' k = m k) (h1 : (m k).owner ≠ swigId) (h2 : (m k).owner ≠ systemId)
    (h : process env cpi m metas ix = .ok m') :
    (m' k).owner = (m k).owner ∧ (m' k).data = (m k).data ∧ (m k).lamports ≤ (m' k).lamports :=
  (C97_lawful hh hl hr hx hd hn hw hs h).foreign hc h1 h2

/-- The rules of the runtime on one instruction together: only accounts passed writable change, the balances add up, and every change is
made by a program to accounts it may change. -/
structure RuntimeAccepts (cpi : Cpi) (metas : List Meta) (m m' : Mem) : Prop where
  writable : ∀ k, k ≠ systemId → m' k ≠ m k → Writable metas k
  balanced : ∀ ks : List Key, ks.Nodup → (∀ a ∈ metas, a.key ∈ ks) → total ks m < 2 ^ 64 → total ks m' = total ks m
  lawful : Runs cpi m m'

open Client in
/-- What the client library builds and the program accepts, the runtime accepts: C87, C88 and C97 together. -/
theorem C97_library {swig : Key} {c : Caller} {b : Built} {ks : List Key} (hb : Library env swig c b) (h9 : rd b.data 0 2 ≠ 9)
    (hp : Promoted b.accounts metas) (hc : cpi.Respects) (hv : cpi.Conserves) (hh : cpi.Holds)
    (hl : ∀ s, metas[1]? = some s ∨ metas[2]? = some s → cpi.Leaves s.key) (hr : env.RentMono)
    (hx : ∀ s, metas[0]? = some s → Exempt env m s.key)
    (hd : rd b.data 0 2 = 15 → ∀ s d, metas[0]? = some s → metas[2]? = some d → d.key ≠ s.key)
    (hn : ks.Nodup) (hw : ∀ a ∈ metas, a.key ∈ ks) (hs : total ks m < 2 ^ 64)
    (h : process env cpi m metas b.data = .ok m') : RuntimeAccepts cpi metas m m' :=
  ⟨fun _ h1 h2 => C87_library hb h9 hp hc hl h h1 h2, fun _ h1 h2 h3 => C88_total hv hl hr (fun _ => hx) hd h1 h2 h3 h,
    C97_lawful hh hl hr (fun _ => hx) hd hn hw hs h⟩

end

/-! ## The hypotheses are met, and the conditions are needed -/

section
open Sample SampleClient

theorem payCpi_holds : payCpi.Holds := by
  intro m ix m' k ho h
  obtain ⟨a, b, l, n, e, h⟩ := payCpi_ok h
  obtain ⟨_, _, _, _, rfl⟩ := sysTransfer_ok h
  simpa using ho

/-- The request of the owner to add a role. -/
def addOne : Client.Built := Client.addAuthority env1 (K 1) (K 10) 0 1 (K 20) [.programAll] callerEd

/-- Adding a role: all hypotheses of `C97_library` hold, the payer pays rent and the configuration account grows. -/
example : ∃ m' ks, Library env1 (K 1) callerEd addOne ∧ rd addOne.data 0 2 ≠ 9 ∧ ks.Nodup ∧ (∀ a ∈ addOne.accounts, a.key ∈ ks) ∧
    total ks (memOf addOne) < 2 ^ 64 ∧ payCpi.Respects ∧ payCpi.Conserves ∧ payCpi.Holds ∧ (∀ k, payCpi.Leaves k) ∧
    Exempt env1 (memOf addOne) (K 1) ∧ process env1 payCpi (memOf addOne) addOne.accounts addOne.data = .ok m' ∧
    (memOf addOne (K 1)).data.length < (m' (K 1)).data.length := by
  obtain ⟨m', h1, h2⟩ := SampleSdk.exists_of_leads (x := process env1 payCpi (memOf addOne) addOne.accounts addOne.data)
    (p := fun m' => decide ((memOf addOne (K 1)).data.length < (m' (K 1)).data.length)) (by decide +kernel)
  exact ⟨m', (addOne.accounts.map Meta.key).eraseDups, .add (K 10) 0 1 (K 20) [.programAll] callerEd, by decide +kernel, by decide +kernel,
    by decide +kernel, by decide +kernel, payCpi_respects, payCpi_conserves, payCpi_holds, payCpi_leaves, by unfold Exempt; decide +kernel, h1,
    of_decide_eq_true h2⟩

/-- A token account passed along with the removal of a role: the hypotheses of `C97_foreign` hold for it. -/
example : ∃ m' ks, ks.Nodup ∧ (∀ a ∈ metas (K 10) ++ [⟨K 77, false, true⟩], a.key ∈ ks) ∧ payCpi.Holds ∧ env.RentMono ∧
    Exempt env ((mem wallet).set (K 77) ⟨tokenId, 5, zeros 165⟩) (K 1) ∧ total ks ((mem wallet).set (K 77) ⟨tokenId, 5, zeros 165⟩) < 2 ^ 64 ∧
    process env (fun _ _ => .error .runtime) ((mem wallet).set (K 77) ⟨tokenId, 5, zeros 165⟩) (metas (K 10) ++ [⟨K 77, false, true⟩]) removeIx = .ok m' ∧
    (m' (K 77)).lamports = 5 := by
  obtain ⟨m', h1, h2⟩ := SampleSdk.exists_of_leads (x := process env (fun _ _ => .error .runtime) ((mem wallet).set (K 77) ⟨tokenId, 5, zeros 165⟩)
      (metas (K 10) ++ [⟨K 77, false, true⟩]) removeIx)
    (p := fun m' => decide ((m' (K 77)).lamports = 5)) (by decide +kernel)
  exact ⟨m', ((metas (K 10) ++ [(⟨K 77, false, true⟩ : Meta)]).map Meta.key).eraseDups, by decide +kernel, by decide +kernel, payCpi_holds, env_mono,
    by unfold Exempt; decide +kernel, by decide +kernel, h1, of_decide_eq_true h2⟩

end
end Verif
