import Verif.Spec.Signed
import Verif.Spec.SampleTwo
import Verif.Props.Lawful

/-!
# Property C101: a request uses no signature but those given to it and those of the addresses of its own wallet
-/

namespace Verif

section
variable {env : Env} {cpi : Cpi} {m m' : Mem} {metas : List Meta} {ix : Bytes}

/-- Every request for a wallet, whatever its data: what it makes the System program take it takes from accounts that signed the request or
are addresses of this very wallet, and it presents no other account as a signer to a called program. -/
theorem C101_signers {ks : List Key} {swig : Meta} {w : Wallet} (h0 : metas[0]? = some swig) (ho : Open m swig.key w)
    (hh : cpi.Holds) (hl : ∀ s, metas[1]? = some s ∨ metas[2]? = some s → cpi.Leaves s.key)
    (hr : env.RentMono) (hx : rd ix 0 2 = 2 ∨ rd ix 0 2 = 15 → ∀ s, metas[0]? = some s → Exempt env m s.key)
    (hd : rd ix 0 2 = 15 → ∀ s d, metas[0]? = some s → metas[2]? = some d → d.key ≠ s.key)
    (hn : ks.Nodup) (hw : ∀ a ∈ metas, a.key ∈ ks) (hs : total ks m < 2 ^ 64)
    (h : process env cpi m metas ix = .ok m') :
    RunsAs (fun k => Signed metas k ∨ OwnAddress env w.id swig.key k) cpi m m' := by
  refine process_lw hh ⟨hn, hs, rfl⟩ hw hl hr hx hd (fun a ha hs => .inl ⟨a, ha, rfl, hs⟩) ?_ ?_ h
  · intro s hs _ seeds hsd k hk
    rw [h0] at hs
    cases hs
    rw [ho.data, Wallet.encode_header ho.wf] at hsd
    exact .inr ⟨seeds, hsd, hk⟩
  · intro s hs hso
    rw [h0] at hs
    cases hs
    rw [ho.owner] at hso
    exact absurd hso (by decide)

/-- Every request on an address without a wallet (a creation): the same, with the one address derived from the id in the request. -/
theorem C101_create {ks : List Key} {swig : Meta} (h0 : metas[0]? = some swig) (ho : (m swig.key).owner = systemId)
    (hh : cpi.Holds) (hl : ∀ s, metas[1]? = some s ∨ metas[2]? = some s → cpi.Leaves s.key)
    (hr : env.RentMono) (hx : rd ix 0 2 = 2 ∨ rd ix 0 2 = 15 → ∀ s, metas[0]? = some s → Exempt env m s.key)
    (hd : rd ix 0 2 = 15 → ∀ s d, metas[0]? = some s → metas[2]? = some d → d.key ≠ s.key)
    (hn : ks.Nodup) (hw : ∀ a ∈ metas, a.key ∈ ks) (hs : total ks m < 2 ^ 64)
    (h : process env cpi m metas ix = .ok m') :
    RunsAs (fun k => Signed metas k ∨ k = swig.key ∧ ∃ bump, env.pda [ascii "swig", sl ix 8 40, [bump]] = some k) cpi m m' := by
  refine process_lw hh ⟨hn, hs, rfl⟩ hw hl hr hx hd (fun a ha hs => .inl ⟨a, ha, rfl, hs⟩) ?_ ?_ h
  · intro s hs hso
    rw [h0] at hs
    cases hs
    rw [ho] at hso
    exact absurd hso (by decide)
  · intro s hs _ c hc hp
    rw [h0] at hs
    cases hs
    refine .inr ⟨rfl, c.bump, ?_⟩
    unfold parseCreate at hc
    split at hc
    · cases hc
    · dsimp only at hc
      split at hc
      · cases hc
      · cases hc; exact hp

/-- An account not of the wallet program that is not `ok`. -/
theorem RunsAs.spared {ok : Key → Prop} {k : Key} (h : RunsAs ok cpi m m') (hc : cpi.NeedsSignature k) (hk : ¬ ok k)
    (h1 : (m k).owner ≠ swigId) : Spared m m' k := by
  induction h with
  | start => exact ⟨rfl, rfl, Nat.le_refl _⟩
  | own _ hs ih =>
    rcases hs k with g | g | ⟨g1, g2, g3⟩
    · unfold Spared; rw [g]; exact ih
    · exact absurd (ih.1 ▸ g) h1
    · exact ⟨g1.trans ih.1, g2.trans ih.2.1, Nat.le_trans ih.2.2 g3⟩
  | system _ _ hs ih =>
    rcases hs k with g | ⟨g1, g2, g3⟩
    · exact absurd g hk
    · exact ⟨g1.trans ih.1, g2.trans ih.2.1, Nat.le_trans ih.2.2 g3⟩
  | call _ _ hs he ih =>
    rcases hc _ _ _ he with ⟨g1, g2, g3⟩ | ⟨a, ha, rfl, g⟩
    · exact ⟨g1.trans ih.1, g2.trans ih.2.1, Nat.le_trans ih.2.2 g3⟩
    · exact absurd (hs a ha g) hk

/-- Bystanders: an account that did not sign the request and is no address of the wallet keeps its owner, its data and its lamports, however
it appears among the accounts of the request; unless it belongs to the wallet program itself (C64, C73), or called programs take from it
without its signature. -/
theorem C101_bystander {ks : List Key} {swig : Meta} {w : Wallet} {k : Key} (h0 : metas[0]? = some swig) (ho : Open m swig.key w)
    (hh : cpi.Holds) (hl : ∀ s, metas[1]? = some s ∨ metas[2]? = some s → cpi.Leaves s.key)
    (hr : env.RentMono) (hx : rd ix 0 2 = 2 ∨ rd ix 0 2 = 15 → ∀ s, metas[0]? = some s → Exempt env m s.key)
    (hd : rd ix 0 2 = 15 → ∀ s d, metas[0]? = some s → metas[2]? = some d → d.key ≠ s.key)
    (hn : ks.Nodup) (hw : ∀ a ∈ metas, a.key ∈ ks) (hs : total ks m < 2 ^ 64)
    (hc : cpi.NeedsSignature k) (hk : (m k).owner ≠ swigId) (hsig : ¬ Signed metas k) (hown : ¬ OwnAddress env w.id swig.key k)
    (h : process env cpi m metas ix = .ok m') :
    (m' k).owner = (m k).owner ∧ (m' k).data = (m k).data ∧ (m k).lamports ≤ (m' k).lamports :=
  (C101_signers h0 ho hh hl hr hx hd hn hw hs h).spared hc (by simp [hsig, hown]) hk

/-! ## Wallets with different ids have different addresses -/

private theorem flat3 {a b c a' b' c' : Bytes} (hl : a.length = a'.length) (hm : b.length = b'.length)
    (h : [a, b, c].flatten = [a', b', c'].flatten) : a = a' ∧ b = b' := by
  simp only [List.flatten_cons, List.flatten_nil, List.append_nil] at h
  obtain ⟨h1, h2⟩ := List.append_inj h hl
  exact ⟨h1, (List.append_inj h2 hm).1⟩

private theorem flat4 {a b c d a' b' c' d' : Bytes} (hl : a.length = a'.length) (hm : b.length = b'.length)
    (h : [a, b, c, d].flatten = [a', b', c', d'].flatten) : b = b' := by
  simp only [List.flatten_cons, List.flatten_nil, List.append_nil] at h
  exact (List.append_inj (List.append_inj h hl).2 hm).1

/-- The seeds of two wallets with different ids at different configuration accounts are never hashed alike. -/
theorem OwnSeeds.apart {id id' : Bytes} {c c' : Key} {s s' : List Bytes} (h : OwnSeeds id c s) (h' : OwnSeeds id' c' s')
    (hi : id.length = 32) (hi' : id'.length = 32) (hc : c.length = 32) (hc' : c'.length = 32) (e : s.flatten = s'.flatten) :
    id = id' ∨ c = c' := by
  have hlen := congrArg List.length e
  have a1 : (ascii "swig").length = 4 := by decide
  have a2 : (ascii "swig-wallet-address").length = 19 := by decide
  have a3 : (ascii "sub-account").length = 11 := by decide
  have a4 : (ascii "sub-account-v2-state").length = 20 := by decide
  have a5 : (ascii "sub-account-v2").length = 14 := by decide
  cases h <;> cases h' <;>
    simp only [List.flatten_cons, List.flatten_nil, List.append_nil, List.length_append, List.length_cons, List.length_nil, natLE_length,
      hi, hi', hc, hc', a1, a2, a3, a4, a5] at hlen <;> first
    | omega
    | exact .inl (flat3 (by rfl) (by omega) e).2
    | exact .inr (flat3 (by rfl) (by omega) e).2
    | exact .inl (flat4 (by rfl) (by omega) e)

/-- Two wallets: a request for the wallet `w` takes nothing from the addresses of a wallet `w'` with another id: its wallet address and its
sub-accounts, if they did not sign and are derived from no other seeds. -/
theorem C101_other_wallet {ks : List Key} {swig : Meta} {w : Wallet} {id : Bytes} {config k : Key} {seeds : List Bytes}
    (h0 : metas[0]? = some swig) (ho : Open m swig.key w) (hid : id ≠ w.id) (hcf : config ≠ swig.key)
    (h32 : id.length = 32 ∧ config.length = 32 ∧ swig.key.length = 32) (hseeds : OwnSeeds id config seeds) (honly : OnlyFrom env seeds k)
    (hh : cpi.Holds) (hl : ∀ s, metas[1]? = some s ∨ metas[2]? = some s → cpi.Leaves s.key)
    (hr : env.RentMono) (hx : rd ix 0 2 = 2 ∨ rd ix 0 2 = 15 → ∀ s, metas[0]? = some s → Exempt env m s.key)
    (hd : rd ix 0 2 = 15 → ∀ s d, metas[0]? = some s → metas[2]? = some d → d.key ≠ s.key)
    (hn : ks.Nodup) (hw : ∀ a ∈ metas, a.key ∈ ks) (hs : total ks m < 2 ^ 64)
    (hc : cpi.NeedsSignature k) (hk : (m k).owner ≠ swigId) (hsig : ¬ Signed metas k) (h : process env cpi m metas ix = .ok m') :
    (m' k).owner = (m k).owner ∧ (m' k).data = (m k).data ∧ (m k).lamports ≤ (m' k).lamports := by
  refine C101_bystander h0 ho hh hl hr hx hd hn hw hs hc hk hsig ?_ h
  rintro ⟨t, ht, hp⟩
  rcases hseeds.apart ht h32.1 ho.wf.idLen h32.2.1 h32.2.2 (honly.2 t hp).symm with g | g
  · exact hid g
  · exact hcf g

end

/-! ## Examples -/

section
open Sample SampleTwo

/-- The System program of the example takes nothing without a signature. -/
theorem payCpi_needs (k : Key) : payCpi.NeedsSignature k := by
  intro m ix m' h
  obtain ⟨a, b, l, n, e1, e2⟩ := payCpi_ok h
  obtain ⟨_, _, h1, h2⟩ := lawful_sysTransfer e2
  by_cases hk : k = a.key
  · exact .inr ⟨a, by simp [e1], hk.symm, h1⟩
  · exact .inl (h2 k hk)

/-- The accounts of a payment by role 1 from the wallet address to `K 113`, a sub-account of another wallet. -/
def giveMetas : List Meta :=
  [signSwig, signAddr, ⟨systemId, false, false⟩, ⟨tokenId, false, false⟩, ⟨K 11, true, true⟩, ⟨K 113, false, true⟩]

theorem env2_mono : env2.RentMono := env_mono

/-- `K 113` is derived from the seeds of the other wallet's sub-account only. -/
theorem only113 : OnlyFrom env2 [ascii "sub-account", K 71, natLE 4 0, [255]] (K 113) :=
  ⟨by decide +kernel, fun t ht => by
    have h : ∀ p ∈ table, p.2 = K 113 → p.1.flatten = [ascii "sub-account", K 71, natLE 4 0, [255]].flatten := by decide +kernel
    exact h _ (pda_table ht) rfl⟩

/-- A payment to the sub-account of another wallet: all hypotheses of `C101_other_wallet` (and so of `C101_bystander` and `C101_signers`) hold;
the wallet address, for which the program signs, pays. -/
example : ∃ m' ks, Open (signMem [⟨7, []⟩]) (K 1) (signWallet [⟨7, []⟩]) ∧ K 71 ≠ (signWallet [⟨7, []⟩]).id ∧ K 111 ≠ K 1 ∧
    OwnSeeds (K 71) (K 111) [ascii "sub-account", K 71, natLE 4 0, [255]] ∧ OnlyFrom env2 [ascii "sub-account", K 71, natLE 4 0, [255]] (K 113) ∧
    payCpi.Holds ∧ (∀ k, payCpi.Leaves k) ∧ env2.RentMono ∧ ks.Nodup ∧ (∀ a ∈ giveMetas, a.key ∈ ks) ∧ total ks (signMem [⟨7, []⟩]) < 2 ^ 64 ∧
    payCpi.NeedsSignature (K 113) ∧ (signMem [⟨7, []⟩] (K 113)).owner ≠ swigId ∧ ¬ Signed giveMetas (K 113) ∧
    process env2 payCpi (signMem [⟨7, []⟩]) giveMetas (signIx [paySol 5]) = .ok m' ∧
    (m' (K 2)).lamports + 5 = (signMem [⟨7, []⟩] (K 2)).lamports ∧ (m' (K 113)).lamports = 5 := by
  obtain ⟨m', h1, h2⟩ := SampleSdk.exists_of_leads (x := process env2 payCpi (signMem [⟨7, []⟩]) giveMetas (signIx [paySol 5]))
    (p := fun m' => decide ((m' (K 2)).lamports + 5 = (signMem [⟨7, []⟩] (K 2)).lamports ∧ (m' (K 113)).lamports = 5)) (by decide +kernel)
  have h2 := of_decide_eq_true h2
  refine ⟨m', (giveMetas.map Meta.key).eraseDups, ⟨by decide +kernel, by decide +kernel, by decide +kernel⟩, by decide +kernel, by decide +kernel,
    .sub 0 255, only113, payCpi_holds, payCpi_leaves, env2_mono, by decide +kernel, by decide +kernel, by decide +kernel, payCpi_needs _,
    by decide +kernel, ?_, h1, h2.1, h2.2⟩
  rintro ⟨a, ha, h⟩
  exact absurd h (by revert a; decide +kernel)

/-- A creation: all hypotheses of `C101_create` hold, and the payer, who signed, pays. -/
example : ∃ m' ks, (mem0 (K 1)).owner = systemId ∧ payCpi.Holds ∧ (∀ k, payCpi.Leaves k) ∧ env.RentMono ∧ ks.Nodup ∧
    (∀ a ∈ createMetas, a.key ∈ ks) ∧ total ks mem0 < 2 ^ 64 ∧ process env payCpi mem0 createMetas createIx = .ok m' ∧
    (m' (K 10)).lamports < (mem0 (K 10)).lamports := by
  obtain ⟨m', h1, h2⟩ := SampleSdk.exists_of_leads (x := process env payCpi mem0 createMetas createIx)
    (p := fun m' => decide ((m' (K 10)).lamports < (mem0 (K 10)).lamports)) (by decide +kernel)
  exact ⟨m', (createMetas.map Meta.key).eraseDups, by decide +kernel, payCpi_holds, payCpi_leaves, env_mono, by decide +kernel, by decide +kernel,
    by decide +kernel, h1, of_decide_eq_true h2⟩

end
end Verif
