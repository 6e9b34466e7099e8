import Verif.Proofs.Total
import Verif.Props.Close
import Verif.Props.Touch

/-!
# Property C88: a request neither creates nor destroys lamports

`process` is the program alone; the runtime in addition refuses an instruction after which its accounts together hold more or fewer
lamports than before.  `C88_total` shows that this rule never refuses a request that does not make the program spend from an address it
no longer controls (`C88_wraps`) and does not close a wallet into its own configuration account (`C88_close_into_itself`).
-/

namespace Verif

section
variable {env : Env} {cpi : Cpi} {m m' : Mem} {metas : List Meta} {ix : Bytes}

/-- Every request, whatever its data: over any list of accounts without repetitions that has all accounts of the request, the sum of the
balances is the same before and after.  The called programs may do anything the runtime lets them do; the configuration account of a
wallet that is closed or loses a role holds its rent minimum, as the runtime demands of every account. -/
theorem C88_total {ks : List Key} (hc : cpi.Conserves) (hl : ∀ s, metas[1]? = some s ∨ metas[2]? = some s → cpi.Leaves s.key)
    (hr : env.RentMono) (hx : rd ix 0 2 = 2 ∨ rd ix 0 2 = 15 → ∀ s, metas[0]? = some s → Exempt env m s.key)
    (hd : rd ix 0 2 = 15 → ∀ s d, metas[0]? = some s → metas[2]? = some d → d.key ≠ s.key)
    (hn : ks.Nodup) (hw : ∀ a ∈ metas, a.key ∈ ks) (hs : total ks m < 2 ^ 64)
    (h : process env cpi m metas ix = .ok m') : total ks m' = total ks m :=
  (process_bal hc hw hl hr hx hd ⟨hn, hs, rfl⟩ h).sum

/-- Together with C87 on the accounts outside the list: nobody gets poorer or richer but the accounts of the request, and what these lose
together is what they get together. -/
theorem C88_within {ks : List Key} (hc : cpi.Conserves) (hp : cpi.Respects)
    (hl : ∀ s, metas[1]? = some s ∨ metas[2]? = some s → cpi.Leaves s.key)
    (hr : env.RentMono) (hx : rd ix 0 2 = 2 ∨ rd ix 0 2 = 15 → ∀ s, metas[0]? = some s → Exempt env m s.key)
    (hd : rd ix 0 2 = 15 → ∀ s d, metas[0]? = some s → metas[2]? = some d → d.key ≠ s.key)
    (hn : ks.Nodup) (hw : ∀ a ∈ metas, a.key ∈ ks) (hs : total ks m < 2 ^ 64)
    (h : process env cpi m metas ix = .ok m') : total ks m' = total ks m ∧ ∀ k, k ∉ ks → (m' k).lamports = (m k).lamports := by
  refine ⟨C88_total hc hl hr hx hd hn hw hs h, fun k hk => ?_⟩
  apply Classical.byContradiction
  intro hne
  obtain ⟨a, ha, rfl⟩ := C87_passed hp h (k := k) (fun e => hne (by rw [e]))
  exact hk (hw a ha)

end

/-! ## The hypotheses are met, and the conditions are needed -/

section
open Sample SampleClient

theorem payCpi_conserves : payCpi.Conserves := by
  intro m ix m' ks hn hw h
  obtain ⟨a, b, l, n, e, h⟩ := payCpi_ok h
  obtain ⟨wa, wb⟩ := sysTransfer_writable h
  obtain ⟨_, _, _, h1, rfl⟩ := sysTransfer_ok h
  have ha := hw a (by rw [e]; simp) wa
  have hb := hw b (by rw [e]; simp) wb
  have h1 := total_set hn ha m ((m a.key).lamports - n)
  have h2 := total_set hn hb (m.setLamports a.key ((m a.key).lamports - n)) ((m.setLamports a.key ((m a.key).lamports - n) b.key).lamports + n)
  omega

theorem env_mono : Sample.env.RentMono := fun a b h => by simp only [Sample.env]; omega

/-- A request of the client library: pay 5 lamports out of a V1 sub-account. -/
def payOutOf : Client.Built :=
  Client.subSignV1 subEnv (K 1) (K 10) (K 3) 1 [⟨systemId, [⟨K 3, true, true⟩, ⟨K 40, false, true⟩], natLE 4 2 ++ natLE 8 5⟩] (.ed25519 (K 11))

/-- A signed payment of 5 lamports out of a V1 sub-account: all hypotheses hold, and balances change. -/
example : ∃ m' ks, ks.Nodup ∧ (∀ a ∈ payOutOf.accounts, a.key ∈ ks) ∧ total ks (v1Mem 1) < 2 ^ 64 ∧ payCpi.Conserves ∧ payCpi.Respects ∧
    (∀ k, payCpi.Leaves k) ∧ process subEnv payCpi (v1Mem 1) payOutOf.accounts payOutOf.data = .ok m' ∧
    (m' (K 40)).lamports = (v1Mem 1 (K 40)).lamports + 5 := by
  obtain ⟨m', h1, h2⟩ := SampleSdk.exists_of_leads (x := process subEnv payCpi (v1Mem 1) payOutOf.accounts payOutOf.data)
    (p := fun m' => decide ((m' (K 40)).lamports = (v1Mem 1 (K 40)).lamports + 5)) (by decide +kernel)
  exact ⟨m', (payOutOf.accounts.map Meta.key).eraseDups, by decide +kernel, by decide +kernel, by decide +kernel, payCpi_conserves, payCpi_respects,
    payCpi_leaves, h1, of_decide_eq_true h2⟩

/-- Removing a role: the payer gets rent back. -/
example : ∃ m', [K 1, K 10, systemId].Nodup ∧ (∀ a ∈ metas (K 10), a.key ∈ [K 1, K 10, systemId]) ∧ env.RentMono ∧
    Exempt env (mem wallet) (K 1) ∧ total [K 1, K 10, systemId] (mem wallet) < 2 ^ 64 ∧
    process env payCpi (mem wallet) (metas (K 10)) removeIx = .ok m' ∧ (mem wallet (K 10)).lamports < (m' (K 10)).lamports := by
  obtain ⟨m', h1, h2⟩ := SampleSdk.exists_of_leads (x := process env payCpi (mem wallet) (metas (K 10)) removeIx)
    (p := fun m' => decide ((mem wallet (K 10)).lamports < (m' (K 10)).lamports)) (by decide +kernel)
  exact ⟨m', by decide +kernel, by decide +kernel, env_mono, by unfold Exempt; decide +kernel, by decide +kernel, h1, of_decide_eq_true h2⟩

/-- Closing a wallet to `K 20`. -/
example : ∃ m' ks, ks.Nodup ∧ (∀ a ∈ closeMetas (K 20), a.key ∈ ks) ∧ Exempt env (closable wallet) (K 1) ∧ total ks (closable wallet) < 2 ^ 64 ∧
    process env payCpi (closable wallet) (closeMetas (K 20)) closeIx = .ok m' ∧ (m' (K 1)).data = [255] := by
  obtain ⟨m', h1, h2⟩ := SampleSdk.exists_of_leads (x := process env payCpi (closable wallet) (closeMetas (K 20)) closeIx)
    (p := fun m' => decide ((m' (K 1)).data = [255])) (by decide +kernel)
  exact ⟨m', (closeMetas (K 20)).map Meta.key, by decide +kernel, by decide +kernel, by unfold Exempt; decide +kernel, by decide +kernel, h1,
    of_decide_eq_true h2⟩

/-- The condition on the destination is needed: a wallet closed into its own configuration account loses what the wallet address held.  The
program accepts the request, the runtime refuses it. -/
theorem C88_close_into_itself : ∃ m', process env payCpi (closable wallet) (closeMetas (K 1)) closeIx = .ok m' ∧
    total [K 1, K 2, K 10, systemId] m' + env.rent 0 = total [K 1, K 2, K 10, systemId] (closable wallet) ∧ 0 < env.rent 0 := by
  obtain ⟨m', h1, h2⟩ := SampleSdk.exists_of_leads (x := process env payCpi (closable wallet) (closeMetas (K 1)) closeIx)
    (p := fun m' => decide (total [K 1, K 2, K 10, systemId] m' + env.rent 0 = total [K 1, K 2, K 10, systemId] (closable wallet)))
    (by decide +kernel)
  exact ⟨m', h1, of_decide_eq_true h2, by decide⟩

/-- The condition on the owner of the signing address is needed: when the wallet address was assigned to another program (C64), the program
moves lamports with wrapping arithmetic, and a payment of one lamport more than there is creates 2^64 lamports. -/
theorem C88_wraps : ∃ m', process isoEnv demoCpi (isoMem ⟨swigId, 2000000000, victim.encode⟩)
      [⟨K 1, false, true⟩, ⟨K 2, false, true⟩, ⟨systemId, false, false⟩, ⟨K 10, true, true⟩, ⟨K 80, false, true⟩] (stealIx 2000000001) = .ok m' ∧
    (m' (K 80)).lamports = 2 ^ 64 - 1 := by
  obtain ⟨m', h1, h2⟩ := SampleSdk.exists_of_leads (x := process isoEnv demoCpi (isoMem ⟨swigId, 2000000000, victim.encode⟩)
      [⟨K 1, false, true⟩, ⟨K 2, false, true⟩, ⟨systemId, false, false⟩, ⟨K 10, true, true⟩, ⟨K 80, false, true⟩] (stealIx 2000000001))
    (p := fun m' => decide ((m' (K 80)).lamports = 2 ^ 64 - 1)) (by decide +kernel)
  exact ⟨m', h1, of_decide_eq_true h2⟩

end
end Verif
