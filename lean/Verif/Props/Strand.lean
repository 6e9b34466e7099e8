import Verif.Props.ClientMore
import Verif.Props.Signed
import Verif.Props.History
import Verif.Spec.SampleSdk

/-!
# Property C106: closing a wallet strands nothing that only the wallet could move

The claim is false: closing looks at the lamports of the wallet only, not at its token accounts and its sub-accounts.
-/

namespace Verif
open Client

/-- What closing leaves behind, for every wallet with nothing left but rent at its two addresses: the request to close it is carried out whatever
token accounts the wallet address holds and whatever its sub-accounts hold; they are left as they are; and no request for the wallet succeeds ever
after (as long as the runtime does not delete the closed account, `C43_refuted`). -/
theorem C106_left_behind {env : Env} {cpi : Cpi} {m : Mem} {metas : List Meta} {swig wallet dst : Key} {w : Wallet} {role : Nat}
    {r : Role} {a : Auth} {c : Caller} {b : Built} {pre post : List TxIx} (hh : HashLength env)
    (hb : closeSwig env swig wallet dst role c = some b)
    (hr : Ready env m swig w role r a metas b pre post) (ho : ActsFor env a metas b pre c)
    (hperm : r.holds P.all ∨ r.holds P.manageAuthority ∨ r.holds P.closeSwigAuthority)
    (hcl : w.claimer = none ∨ w.claimer = some dst) (hcan : Canonical env (walletSeeds swig) w.walletBump wallet)
    (hwal : (m wallet).owner = systemId ∧ (m wallet).data = [])
    (hkeys : dst ≠ swig ∧ dst ≠ wallet ∧ wallet ≠ systemId ∧ dst ≠ systemId)
    (h1 : (m swig).lamports ≤ env.rent w.encode.length) (h2 : (m wallet).lamports ≤ env.rent 0)
    (hrent : 0 < env.rent 1 ∧ env.rent 1 ≤ (m swig).lamports)
    (hsum : (m swig).lamports + (m wallet).lamports + (m dst).lamports < 2 ^ 64) :
    ∃ m', process env cpi m metas b.data = .ok m' ∧ (∀ k, k ≠ swig → k ≠ wallet → k ≠ dst → m' k = m k) ∧
      ∀ ok later, Steps ok swig m' later → ∀ env' cpi' s rest ix m'', s.key = swig → process env' cpi' later (s :: rest) ix ≠ .ok m'' := by
  obtain ⟨m', e, g1, _, _, _, g2, g5⟩ := C77_close (cpi := cpi) hh hb hr ho hperm hcl hcan hwal hkeys h1 h2 hrent hsum
  exact ⟨m', e, g5, fun ok later hs => (C43_stays_closed_partial ⟨g2, g1⟩ hs).2⟩

theorem RunsAs.imp {ok ok' : Key → Prop} {cpi : Cpi} {m m' : Mem} (h : RunsAs ok cpi m m') (hi : ∀ k, ok k → ok' k) : RunsAs ok' cpi m m' := by
  induction h with
  | start => exact .start _
  | own _ g ih => exact .own ih g
  | system _ g1 g2 ih => exact .system ih g1 (fun k => (g2 k).imp_left (hi k))
  | call ix _ g1 g2 ih => exact .call ix ih (fun a ha hs => hi _ (g1 a ha hs)) g2

private theorem wallet_apart {id : Bytes} {c c' : Key} {bump : UInt8} {s : List Bytes} (h : OwnSeeds id c' s) (hi : id.length = 32)
    (hc : c.length = 32) (hc' : c'.length = 32) (e : s.flatten = [ascii "swig-wallet-address", c, [bump]].flatten) : c' = c := by
  have hlen := congrArg List.length e
  have a1 : (ascii "swig").length = 4 := by decide
  have a2 : (ascii "swig-wallet-address").length = 19 := by decide
  have a3 : (ascii "sub-account").length = 11 := by decide
  have a4 : (ascii "sub-account-v2-state").length = 20 := by decide
  have a5 : (ascii "sub-account-v2").length = 14 := by decide
  cases h <;>
    simp only [List.flatten_cons, List.flatten_nil, List.append_nil, List.length_append, List.length_cons, List.length_nil, natLE_length,
      hi, hc, hc', a1, a2, a3, a4, a5] at hlen <;> try omega
  simp only [List.flatten_cons, List.flatten_nil, List.append_nil] at e
  exact (List.append_inj (List.append_inj e rfl).2 (by omega)).1

private theorem create_apart {id : Bytes} {c : Key} {bump b : UInt8} (hi : id.length ≤ 32) (hc : c.length = 32)
    (e : [ascii "swig", id, [b]].flatten = [ascii "swig-wallet-address", c, [bump]].flatten) : False := by
  have hlen := congrArg List.length e
  have a1 : (ascii "swig").length = 4 := by decide
  have a2 : (ascii "swig-wallet-address").length = 19 := by decide
  simp only [List.flatten_cons, List.flatten_nil, List.append_nil, List.length_append, List.length_cons, List.length_nil, hc, a1, a2] at hlen
  omega

/-- And nobody else can move what the wallet address holds: a request for another wallet, or one that creates a wallet, never presents the wallet
address as a signer to a called program and has nothing taken from it by the System program (it is no key, so it signs no request itself). -/
theorem C106_nobody_else {env : Env} {cpi : Cpi} {m m' : Mem} {metas : List Meta} {ix : Bytes} {ks : List Key} {swig : Meta} {config wallet : Key}
    {bump : UInt8} (h0 : metas[0]? = some swig) (hne : swig.key ≠ config) (h32 : config.length = 32 ∧ swig.key.length = 32)
    (ho : (∃ w, Open m swig.key w) ∨ (m swig.key).owner = systemId)
    (honly : OnlyFrom env [ascii "swig-wallet-address", config, [bump]] wallet) (hsig : ¬ Signed metas wallet)
    (hh : cpi.Holds) (hl : ∀ s, metas[1]? = some s ∨ metas[2]? = some s → cpi.Leaves s.key)
    (hr : env.RentMono) (hx : rd ix 0 2 = 2 ∨ rd ix 0 2 = 15 → ∀ s, metas[0]? = some s → Exempt env m s.key)
    (hd : rd ix 0 2 = 15 → ∀ s d, metas[0]? = some s → metas[2]? = some d → d.key ≠ s.key)
    (hn : ks.Nodup) (hw : ∀ a ∈ metas, a.key ∈ ks) (hs : total ks m < 2 ^ 64)
    (h : process env cpi m metas ix = .ok m') : RunsAs (· ≠ wallet) cpi m m' := by
  rcases ho with ⟨w, ho⟩ | ho
  · refine (C101_signers h0 ho hh hl hr hx hd hn hw hs h).imp ?_
    rintro k (g | ⟨s, g1, g2⟩) rfl
    · exact hsig g
    · exact hne (wallet_apart g1 ho.wf.idLen h32.1 h32.2 (honly.2 s g2))
  · refine (C101_create h0 ho hh hl hr hx hd hn hw hs h).imp ?_
    rintro k (g | ⟨_, b, g⟩) rfl
    · exact hsig g
    · exact create_apart (by simp [sl]; omega) h32.1 (honly.2 _ g)

/-! ## The counterexample -/

section
open Sample SampleClient SampleSdk

/-- The sample wallet with nothing left but rent at its two addresses, with 500 tokens in `K 32`, a token account of the wallet address, and 3000000
lamports in its sub-account `K 5`. -/
def strandMem : Mem := fun k =>
  if k = K 32 then ⟨tokenId, 2039280, K 50 ++ K 2 ++ natLE 8 500 ++ zeros 36 ++ [1] ++ zeros 56⟩
  else if k = K 4 ∨ k = K 5 then memS true k
  else closable walletS k

/-- C106 is false: the owner of a wallet that still holds 500 tokens, and whose sub-account holds 3000000 lamports, closes it.  The tokens and the lamports
are left where they are, and no request for the wallet succeeds ever after. -/
theorem C106_refuted (cpi : Cpi) : ∃ env m m' metas ix w, ∃ config wallet token state sub : Key, process env cpi m metas ix = .ok m' ∧
    Open m config w ∧ env.pda [ascii "swig-wallet-address", config, [w.walletBump]] = some wallet ∧
    (m token).owner = tokenId ∧ sl (m token).data 32 64 = wallet ∧ rd (m token).data 64 8 = 500 ∧
    SubAt env m w state sub 0 true 255 254 ∧ (m sub).lamports = 3000000 ∧
    m' token = m token ∧ m' state = m state ∧ m' sub = m sub ∧
    ∀ ok later, Steps ok config m' later → ∀ env' cpi' s rest ix m'', s.key = config → process env' cpi' later (s :: rest) ix ≠ .ok m'' := by
  obtain ⟨b, hb⟩ : ∃ b, closeSwig env1 (K 1) (K 2) (K 20) 0 callerEd = some b := ⟨_, rfl⟩
  obtain ⟨m', h1, h2, h3⟩ := C106_left_behind (cpi := cpi) (m := onLedger strandMem b) (swig := K 1) (wallet := K 2) (dst := K 20)
    (c := callerEd) (w := walletS) hash1 hb
    (by cases hb; exact ready_on walletS_wf rfl rfl (by decide +kernel) (by decide +kernel) (show walletS.role? 0 = some role0 by decide +kernel) cred_ed
                      (by decide +kernel) (by simp [byEd]) (by decide +kernel) (by decide +kernel)) acts_ed (Or.inl (by decide +kernel)) (Or.inl rfl)
    ⟨by decide +kernel, by decide, fun b hb => absurd (UInt8.lt_iff_toNat_lt.mp hb) (by have := b.toNat_lt; show ¬ 255 < b.toNat; omega)⟩
    (by cases hb; decide +kernel) (by decide +kernel) (by cases hb; decide +kernel) (by cases hb; decide +kernel) (by cases hb; decide +kernel)
    (by cases hb; decide +kernel)
  refine ⟨env1, onLedger strandMem b, m', b.accounts, b.data, walletS, K 1, K 2, K 32, K 4, K 5, h1, ⟨?_, walletS_wf, ?_⟩, by decide +kernel, ?_, ?_, ?_,
    ⟨?_, ?_, by decide +kernel, by decide +kernel, rfl, by decide⟩, ?_, h2 _ (by decide +kernel) (by decide +kernel) (by decide +kernel),
    h2 _ (by decide +kernel) (by decide +kernel) (by decide +kernel), h2 _ (by decide +kernel) (by decide +kernel) (by decide +kernel), h3⟩
  all_goals rw [onLedger_other (by decide +kernel)]
  all_goals rfl

/-- The wallet address `K 112` of the configuration account `K 111` is derived from its seeds only. -/
theorem only112 : OnlyFrom SampleTwo.env2 [ascii "swig-wallet-address", K 111, [254]] (K 112) :=
  ⟨by decide +kernel, fun t ht => by
    have h : ∀ p ∈ SampleTwo.table, p.2 = K 112 → p.1.flatten = [ascii "swig-wallet-address", K 111, [254]].flatten := by decide +kernel
    exact h _ (SampleTwo.pda_table ht) rfl⟩

open SampleTwo in
/-- A payment by another wallet meets the hypotheses of `C106_nobody_else`. -/
example : ∃ m' ks, (∃ w, Open (signMem [⟨7, []⟩]) (K 1) w) ∧ K 1 ≠ K 111 ∧ OnlyFrom env2 [ascii "swig-wallet-address", K 111, [254]] (K 112) ∧
    ¬ Signed giveMetas (K 112) ∧ payCpi.Holds ∧ (∀ k, payCpi.Leaves k) ∧ env2.RentMono ∧ ks.Nodup ∧ (∀ a ∈ giveMetas, a.key ∈ ks) ∧
    total ks (signMem [⟨7, []⟩]) < 2 ^ 64 ∧ process env2 payCpi (signMem [⟨7, []⟩]) giveMetas (signIx [paySol 5]) = .ok m' ∧
    RunsAs (· ≠ K 112) payCpi (signMem [⟨7, []⟩]) m' := by
  obtain ⟨m', h1, _⟩ := SampleSdk.exists_of_leads (x := process env2 payCpi (signMem [⟨7, []⟩]) giveMetas (signIx [paySol 5]))
    (p := fun _ => true) (by decide +kernel)
  have ho : ∃ w, Open (signMem [⟨7, []⟩]) (K 1) w := ⟨signWallet [⟨7, []⟩], by decide +kernel, by decide +kernel, by decide +kernel⟩
  have hs : ¬ Signed giveMetas (K 112) := by
    rintro ⟨a, ha, h⟩
    exact absurd h (by revert a; decide +kernel)
  have hks : (giveMetas.map Meta.key).eraseDups.Nodup ∧ (∀ a ∈ giveMetas, a.key ∈ (giveMetas.map Meta.key).eraseDups) ∧
      total (giveMetas.map Meta.key).eraseDups (signMem [⟨7, []⟩]) < 2 ^ 64 := by decide +kernel
  exact ⟨m', _, ho, by decide +kernel, only112, hs, payCpi_holds, payCpi_leaves, env2_mono, hks.1, hks.2.1, hks.2.2, h1,
    C106_nobody_else (swig := signSwig) rfl (by decide +kernel) (by decide +kernel) (.inl ho) only112 hs payCpi_holds
      (fun s _ => payCpi_leaves s.key) env2_mono (fun h => absurd h (by decide +kernel)) (fun h => absurd h (by decide +kernel)) hks.1 hks.2.1 hks.2.2 h1⟩

end
end Verif
