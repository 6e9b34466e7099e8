import Verif.Proofs.Tracked
import Verif.Proofs.Gross
import Verif.Props.Limits
import Verif.Props.SignTokens

/-!
# Properties C55 - C58: programs called, destinations, the wallet address, classification
-/

namespace Verif

section
variable {env : Env} {cpi : Cpi} {m m' : Mem} {swig wallet : Meta} {rest : List Meta} {ix : Bytes} {w : Wallet} {r : Role}

theorem inner_programs {metas : List Meta} {signer : Key} {b : Bytes} {ixs : List Inner} (hk : ∀ a ∈ metas, a.key.length = 32)
    (h : decodeIxs metas signer [] b = .ok ixs) : ∀ ix ∈ ixs, ix.program.length = 32 := by
  obtain ⟨cs, y, h1, h2, h3, h4⟩ := (decodeIxs_iff ixs).mp h
  intro ix hi
  have : ∀ (cs : List CompactIx) (is : List Inner), All2 (Denotes metas signer []) cs is → ∀ i ∈ is, i.program.length = 32 := by
    intro cs is h
    refine All2.right (p := fun _ => True) h (fun _ _ => trivial) fun c i d _ => ?_
    obtain ⟨a, e1, e2⟩ := d.program
    rw [e2]
    exact hk a (List.mem_of_getElem? e1)
  exact this _ _ h4 ix hi

/-! ## C55: only permitted programs get the wallet's signature -/

/-- What permits a call with the wallet's signature. -/
def MayCall (r : Role) (program : Key) : Prop :=
  (∃ a ∈ r.actions, a.ty = P.programAll) ∨ (∃ a ∈ r.actions, a.ty = P.program ∧ a.data = program) ∨
  ((∃ a ∈ r.actions, a.ty = P.programCurated) ∧ program ∈ curatedPrograms)

instance (r : Role) (p : Key) : Decidable (MayCall r p) := inferInstanceAs (Decidable (_ ∨ _ ∨ _))

/-- Every inner instruction that carries the wallet's signature goes to a program the role may call - as long as the configuration
account still holds the wallet (the permission is read when the instruction is reached). -/
theorem C55_permitted (h : RestrictedSign env cpi m m' swig wallet rest ix w r) :
    ∃ ixs m1, AfterCalls env cpi m (swig :: wallet :: rest) swig wallet ix w ixs m1 ∧
      ∀ pre i post, ixs = pre ++ i :: post → (∃ a ∈ i.accounts, a.key = wallet.key ∧ a.signer = true) →
        ∃ mid, execAll env cpi (swig :: wallet :: rest) wallet.key (walletSeeds swig.key ++ [[w.walletBump]])
            (m.setData swig.key (w.used (rd ix 4 4)).encode) pre = .ok mid ∧
          ((mid swig.key).data = (w.used (rd ix 4 4)).encode → MayCall r i.program) := by
  obtain ⟨ixs, m1, h1, ⟨s⟩⟩ := signed_restricted h.wf h.stored h.runtime.keys h.number h.role h.restricted h.runs
  refine ⟨ixs, m1, h1, fun pre i post he hs => ?_⟩
  obtain ⟨mid, h2, h3⟩ := s.lim.permitted pre i post he
  refine ⟨mid, h2, fun hd => ?_⟩
  have hi : i ∈ ixs := by rw [he]; simp
  have hus := ((C35_no_forged_signature h1.1 i hi).2).mpr hs
  unfold programOk at h3
  split at h3
  · rename_i ha
    rcases ha with ha | ha
    · exact .inl ((payload?_isSome_iff rfl []).mp ha)
    · rw [hus] at ha; cases ha
  · split at h3
    · rename_i hc
      right; right
      obtain ⟨hc1, hc2⟩ := hc
      simp only [signCtx, Bool.and_eq_true] at hc1
      refine ⟨(payload?_isSome_iff rfl []).mp hc1.2, ?_⟩
      unfold isCurated at hc2
      obtain ⟨c, c1, c2⟩ := List.any_eq_true.mp hc2
      rw [← of_decide_eq_true c2]
      exact c1
    · right; left
      have := s.placed.has (All2.refl' Act.Charged.refl _) mid P.program i.program (fun _ => inner_programs h.runtime.keys h1.1 i hi)
      rw [← s.placed.start (by rw [s.locSwig]; exact hd)] at this
      have h3 : s.loc.has mid P.program i.program = .ok true := h3
      rw [this] at h3
      have hsome : (payload? r.actions P.program i.program).isSome = true := Except.ok.inj h3
      obtain ⟨d, k⟩ := Option.isSome_iff_exists.mp hsome
      have hlen := payload?_len h.acts k (n := 32) rfl
      unfold payload? at k
      obtain ⟨act, f1, f2⟩ := Option.map_eq_some_iff.mp k
      have f3 := List.find?_some f1
      have f3 := of_decide_eq_true f3
      refine ⟨act, List.mem_of_find?_eq_some f1, f3.1, ?_⟩
      have f4 : act.data.take 32 = i.program := f3.2 rfl
      rw [← f4, List.take_of_length_le (by rw [f2]; omega)]

/-- In particular, if the called programs leave the configuration account alone (only the wallet program itself can write it). -/
theorem C55_foreign_programs (h : RestrictedSign env cpi m m' swig wallet rest ix w r) (hk : cpi.Keeps swig.key) :
    ∃ ixs m1, AfterCalls env cpi m (swig :: wallet :: rest) swig wallet ix w ixs m1 ∧
      ∀ i ∈ ixs, (∃ a ∈ i.accounts, a.key = wallet.key ∧ a.signer = true) → MayCall r i.program := by
  obtain ⟨ixs, m1, h1, h2⟩ := C55_permitted h
  refine ⟨ixs, m1, h1, fun i hi hs => ?_⟩
  obtain ⟨pre, post, he⟩ := List.append_of_mem hi
  obtain ⟨mid, h3, h4⟩ := h2 pre i post he hs
  exact h4 (by rw [(execAll_keeps hk h3).1]; simp)

/-! ## C56: SOL destination limits -/

/-- A role with SOL destination limits: if the wallet address lost lamports, the request itself contains System transfers out of it;
they add up to at least the loss, each goes to a destination with a limit and is charged to it in full. -/
theorem C56_destinations (h : RestrictedSign env cpi m m' swig wallet rest ix w r)
    (hd : ∃ a ∈ r.actions, a.ty = P.solDestinationLimit ∨ a.ty = P.solRecurringDestinationLimit)
    (hlost : (m' wallet.key).lamports < (m wallet.key).lamports) :
    ∃ ixs m1, AfterCalls env cpi m (swig :: wallet :: rest) swig wallet ix w ixs m1 ∧
      (ConfigClash env m m1 swig ix w ∨
      ∃ w' r' ts, StoredAs m' swig ix w' r' ∧ ts = ixs.filterMap (transferFrom wallet.key) ∧
        (m wallet.key).lamports - (m' wallet.key).lamports ≤ (ts.map Prod.snd).sum ∧
        ∀ t ∈ ts,
          (∃ d d' cs, r.limit? P.solRecurringDestinationLimit t.1 = some d ∧ r'.limit? P.solRecurringDestinationLimit t.1 = some d' ∧
            play SolRecurringDestinationLimit.charge (.of d) cs = (.of d', cs) ∧ (∀ c ∈ cs, c.slot = env.slot) ∧
            ((ts.filter fun t' => decide (t'.1 = t.1)).map Prod.snd).sum ≤ Charge.total cs) ∨
          (∃ d d', r.limit? P.solDestinationLimit t.1 = some d ∧ r'.limit? P.solDestinationLimit t.1 = some d' ∧
            rd d' 32 8 ≤ rd d 32 8 ∧
            ((ts.filter fun t' => decide (t'.1 = t.1)).map Prod.snd).sum ≤ rd d 32 8 - rd d' 32 8)) := by
  obtain ⟨ixs, m1, h1, h2 | ⟨x, cls, hs, total, acc, as', o⟩⟩ := h.out
  · exact ⟨ixs, m1, h1, .inl h2⟩
  · refine ⟨ixs, m1, h1, .inr ?_⟩
    have hle := o.lamports
    have ht : total ≠ 0 := by intro h0; omega
    have hheld : solDestHeld r.actions = true := by
      obtain ⟨act, k1, k2⟩ := hd
      exact List.any_eq_true.mpr ⟨act, k1, by simp [k2]⟩
    obtain ⟨k1, k2, k3⟩ := (o.sol ht).dest hheld
    have hts : solTransfers x.wallet x.ixs = ixs.filterMap (transferFrom wallet.key) := by
      rw [o.wallet_eq, o.ixs_eq]; rfl
    rw [hts] at k1 k2 k3
    refine ⟨_, _, ixs.filterMap (transferFrom wallet.key), o.stored, rfl, by omega, fun t htm => ?_⟩
    have hcov : ∀ ty, (∀ n, ⟨ty, t.1, n⟩ ∈ eitherSeg r.actions P.solRecurringDestinationLimit P.solDestinationLimit t.1 n) →
        (((ixs.filterMap (transferFrom wallet.key)).filter fun t' => decide (t'.1 = t.1)).map Prod.snd).sum ≤
        (amounts ((if total = 0 then [] else solSeg x r.actions total) ++ acc.flatMap fun e => segOf x m1 r.actions e.1 e.2) ty t.1).sum := by
      intro ty hty
      refine Nat.le_trans ?_ (amounts_sum_append_left _ _ _ _)
      rw [if_neg ht]
      unfold solSeg spendSeg
      refine Nat.le_trans ?_ (amounts_sum_append_right _ _ _ _)
      rw [if_pos hheld, hts]
      exact dest_amounts (kf := fun d => d) _ hty
    cases hrec : r.limit? P.solRecurringDestinationLimit t.1 with
    | some d =>
      left
      obtain ⟨d', e1, e2⟩ := (o.plays.payload h.acts).2.2 _ _ _ hrec
      have e3 := chargeList_solRecDest h.runtime.slot (payload?_len h.acts hrec (n := 64) rfl) e2
      refine ⟨d, d', _, rfl, e1, e3, ?_, ?_⟩
      · intro c hc
        obtain ⟨n, _, rfl⟩ := List.mem_map.mp hc
        rfl
      · rw [total_map]
        exact hcov _ (eitherSeg_first hrec)
    | none =>
      right
      rcases eitherSeg_some (k3 t htm) with f | f
      · rw [show payload? r.actions P.solRecurringDestinationLimit t.1 = none from hrec] at f
        cases f
      · obtain ⟨d, f⟩ := Option.isSome_iff_exists.mp f
        obtain ⟨d', e1, e2⟩ := (o.plays.payload h.acts).2.2 _ _ _ f
        have e3 := chargeList_solDest (payload?_len h.acts f (n := 40) rfl) e2
        have := hcov _ (eitherSeg_second hrec f)
        exact ⟨d, d', f, e1, by omega, by omega⟩

/-- And nothing else takes SOL: if System transfers take exactly their amount, the wallet address still belongs to the System program
whenever an inner instruction starts, and it is not one of its own destinations, then each transfer out of it loses exactly its amount
and no other inner instruction loses a lamport.  (All losses together stay below 2^64 as there are fewer lamports.) -/
theorem C56_only (h : RestrictedSign env cpi m m' swig wallet rest ix w r)
    (hd : ∃ a ∈ r.actions, a.ty = P.solDestinationLimit ∨ a.ty = P.solRecurringDestinationLimit)
    (hself : r.limit? P.solRecurringDestinationLimit wallet.key = none ∧ r.limit? P.solDestinationLimit wallet.key = none)
    (hexact : cpi.ExactTransfers wallet.key) :
    ∃ ixs m1, AfterCalls env cpi m (swig :: wallet :: rest) swig wallet ix w ixs m1 ∧
      ((∀ pre post mid, ixs = pre ++ post → execAll env cpi (swig :: wallet :: rest) wallet.key (walletSeeds swig.key ++ [[w.walletBump]])
          (m.setData swig.key (w.used (rd ix 4 4)).encode) pre = .ok mid → (mid wallet.key).owner = systemId) →
        (walletLost env cpi m (swig :: wallet :: rest) swig wallet ix w ixs).sum < 2 ^ 64 →
        ConfigClash env m m1 swig ix w ∨
        (walletLost env cpi m (swig :: wallet :: rest) swig wallet ix w ixs).sum = 0 ∨
        All2 (fun i lost => match transferFrom wallet.key i with | some (_, n) => lost = n | none => lost = 0) ixs
          (walletLost env cpi m (swig :: wallet :: rest) swig wallet ix w ixs)) := by
  obtain ⟨ixs, m1, h1, h2⟩ := h.out
  refine ⟨ixs, m1, h1, fun hown hlt => ?_⟩
  rcases h2 with h2 | ⟨x, cls, hs, total, acc, as', o⟩
  · exact .inl h2
  · right
    have hgross := o.gross
    rw [Nat.min_eq_right (by omega)] at hgross
    by_cases ht : total = 0
    · exact .inl (by omega)
    · right
      have hheld : solDestHeld r.actions = true := by
        obtain ⟨act, k1, k2⟩ := hd
        exact List.any_eq_true.mpr ⟨act, k1, by simp [k2]⟩
      obtain ⟨k1, k2, k3⟩ := (o.sol ht).dest hheld
      have hts : solTransfers x.wallet x.ixs = ixs.filterMap (transferFrom wallet.key) := by
        rw [o.wallet_eq, o.ixs_eq]; rfl
      rw [hts] at k1 k2 k3
      have ha := lostEach_transfers (env := env) (metas := swig :: wallet :: rest) (seeds := walletSeeds swig.key ++ [[w.walletBump]])
        hexact ixs hown h1.2 (fun t htm e => by
          rcases eitherSeg_some (k3 t htm) with f | f
          · rw [e, show payload? r.actions P.solRecurringDestinationLimit wallet.key = none from hself.1] at f
            cases f
          · rw [e, show payload? r.actions P.solDestinationLimit wallet.key = none from hself.2] at f
            cases f)
      refine All2.imp' (fun i l hc => ?_) ((others_zero ha).2 (by rw [k2]; exact hgross))
      cases htf : transferFrom wallet.key i with
      | none => exact hc.2 htf
      | some t => exact hc.1 t htf

/-! ## C57: the wallet address afterwards -/

/-- The wallet address keeps its rent minimum. -/
theorem C57_rent_partial (h : RestrictedSign env cpi m m' swig wallet rest ix w r) :
    ∃ ixs m1, AfterCalls env cpi m (swig :: wallet :: rest) swig wallet ix w ixs m1 ∧
      (ConfigClash env m m1 swig ix w ∨ (m' wallet.key).lamports ≥ env.rent (m' wallet.key).data.length) := by
  obtain ⟨ixs, m1, h1, h2 | ⟨x, cls, hs, total, acc, as', o⟩⟩ := h.out
  · exact ⟨ixs, m1, h1, .inl h2⟩
  · refine ⟨ixs, m1, h1, .inr ?_⟩
    have hne : wallet.key ≠ swig.key := by
      intro e
      have h3 := o.walletOwner
      have h4 := o.owner
      rw [e, h4] at h3
      exact absurd h3 (by decide)
    rw [o.other _ hne]
    exact o.rent

/-- Once the wallet address belongs to another program, nobody - not even the owner - can sign with it any more. -/
theorem C57_lost_forever {env : Env} {cpi : Cpi} {m m' : Mem} {swig wallet : Meta} {rest : List Meta} {ix : Bytes} (hix : rd ix 0 2 = 11)
    (ho : (m wallet.key).owner ≠ systemId) : process env cpi m (swig :: wallet :: rest) ix ≠ .ok m' := by
  intro h
  obtain ⟨swig', wallet', x3, rest', cls, e, hcls, h⟩ := process_sign hix h
  cases e
  obtain ⟨c, cs, k1, k2, k3, k4⟩ := classifyAll_rest hcls
  subst k1
  unfold signV2 at h
  simp only at h
  obtain ⟨_, _, h⟩ := bind_ok_iff.mp h
  obtain ⟨_, _, h⟩ := bind_ok_iff.mp h
  obtain ⟨_, h2, h⟩ := bind_ok_iff.mp h
  have h2 := require_ok_iff.mp h2
  cases cs with
  | nil => simp at k3
  | cons c2 cs =>
    have hc2 : c2 = .wallet := h2
    subst hc2
    have := (k4 (wallet, .wallet) (by simp)).1
    cases this with
    | wallet h => exact ho h

/-! ## C58: classification -/

/-- If the accounts can be classified at all and the second is taken as the wallet address, then every later token account whose
authority is the wallet address, and every later stake account whose withdraw authority it is, is tracked with its present balance. -/
theorem C58_tracked {m : Mem} {swig wallet : Meta} {rest : List Meta} {cls : List Class} {c0 : Class}
    (h : classifyAll m (swig :: wallet :: rest) = .ok (c0 :: .wallet :: cls)) {i : Nat} {a : Meta} (hi : rest[i]? = some a) :
    (((m a.key).owner = tokenId ∨ (m a.key).owner = token2022Id) → 165 ≤ (m a.key).data.length →
      sl (m a.key).data 32 64 = wallet.key → cls[i]? = some (.token (tokensOf (m a.key)) 0)) ∧
    ((m a.key).owner = stakeId → 200 ≤ (m a.key).data.length → sl (m a.key).data 44 76 = wallet.key →
      cls[i]? = some (.stake (rd (m a.key).data 0 4) (rd (m a.key).data 156 8) (m a.key).lamports 0)) := by
  obtain ⟨c', cs, e, _, h2, h3⟩ := classifyAll_ok h
  cases e
  obtain ⟨c, h4, h5⟩ := h3 (i + 1) a (by simpa using hi)
  have h4 : cls[i]? = some c := by simpa using h4
  have h5 : classify m (swig :: wallet :: rest.take i) (c0 :: .wallet :: cls.take i) (cacheOf m swig.key) a = .ok c := by simpa using h5
  refine ⟨fun t1 t2 t3 => ?_, fun t1 t2 t3 => ?_⟩
  · rw [h4, classify_token h5 t1 t2 t3]; rfl
  · rw [h4, classify_stake h5 t1 t2 t3]

end

/-! ## The hypotheses are met -/

open Sample in
/-- C55: the role may call the System and Token programs, and no others (here: the Stake program). -/
example : ∃ m', RestrictedSign signEnv demoCpi (signMem acts1) m' signSwig signAddr signRest (signIx [paySol 300, payToken 70])
    (signWallet acts1) ⟨1, 1, K 11, acts1⟩ ∧ MayCall ⟨1, 1, K 11, acts1⟩ tokenId ∧ ¬ MayCall ⟨1, 1, K 11, acts1⟩ stakeId :=
  runSign_exists acts1 [paySol 300, payToken 70]
    (fun _ => MayCall ⟨1, 1, K 11, acts1⟩ tokenId ∧ ¬ MayCall ⟨1, 1, K 11, acts1⟩ stakeId) (by decide +kernel) (by decide +kernel)

open Sample in
/-- C56: destination limit 500 for `K 40`, 300 lamports paid in two transfers. -/
example : ∃ m', RestrictedSign signEnv demoCpi (signMem acts3) m' signSwig signAddr signRest (signIx [paySol 100, paySol 200])
    (signWallet acts3) ⟨1, 1, K 11, acts3⟩ ∧
    (∃ a ∈ acts3, a.ty = P.solDestinationLimit ∨ a.ty = P.solRecurringDestinationLimit) ∧
    (m' (K 2)).lamports < (signMem acts3 (K 2)).lamports :=
  runSign_exists acts3 [paySol 100, paySol 200]
    (fun m' => (∃ a ∈ acts3, a.ty = P.solDestinationLimit ∨ a.ty = P.solRecurringDestinationLimit) ∧
      (m' (K 2)).lamports < (signMem acts3 (K 2)).lamports) (by decide +kernel) (by decide +kernel)

open Sample in
/-- `C56_only`: the demo programs make exact transfers, and the wallet address is not a destination. -/
example : demoCpi.ExactTransfers (K 2) ∧ Role.limit? ⟨1, 1, K 11, acts3⟩ P.solRecurringDestinationLimit (K 2) = none ∧
    Role.limit? ⟨1, 1, K 11, acts3⟩ P.solDestinationLimit (K 2) = none := by
  refine ⟨?_, by decide +kernel, by decide +kernel⟩
  intro m ix m' h h1 h2 h3 a d more hacc ha hd
  unfold demoCpi at h
  rw [if_pos h1] at h
  unfold demoSystem at h
  rw [hacc] at h
  simp only [h3] at h
  rw [if_neg (by omega), if_pos trivial] at h
  unfold demoTransfer at h
  split at h
  · unfold sysTransfer at h
    split at h
    · cases h
    · split at h
      · cases h
      · split at h
        · cases h
        · rename_i hlt
          cases h
          rw [ha] at hlt ⊢
          simp only [Mem.setLamports, Mem.set]
          rw [if_neg (by intro e; exact hd e.symm), if_pos trivial]
          simp only
          omega
  · cases h

open Sample in
/-- C57 as stated is false: a restricted role that may call the System program gives the wallet address away to another program.
(In this environment there are no SHA-256 collisions.) -/
theorem C57_refuted : ∃ env cpi m m' swig wallet rest ix w r, RestrictedSign env cpi m m' swig wallet rest ix w r ∧
    (∀ x y, ¬ Clash env x y) ∧ (m wallet.key).owner = systemId ∧ (m' wallet.key).owner = K 60 := by
  obtain ⟨m', h, h1, h2⟩ := runSign_exists acts1 [assignWallet (K 60)]
    (fun m' => (signMem acts1 (K 2)).owner = systemId ∧ (m' (K 2)).owner = K 60) (by decide +kernel) (by decide +kernel)
  exact ⟨_, _, _, m', _, _, _, _, _, _, h, signEnv_noClash, h1, h2⟩

open Sample in
/-- C58: the sample accounts are classified, the token account at index 4 of the rest is tracked with its 1000 tokens. -/
example : ∃ c0 cls, classifyAll (signMem acts1) (signSwig :: signAddr :: signRest) = .ok (c0 :: .wallet :: cls) ∧
    cls[4]? = some (.token 1000 0) := by
  have key : (match classifyAll (signMem acts1) (signSwig :: signAddr :: signRest) with
    | .ok (_ :: .wallet :: cls) => decide (cls[4]? = some (.token 1000 0)) | _ => false) = true := by decide +kernel
  split at key
  · rename_i c0 cls h
    exact ⟨c0, cls, h, of_decide_eq_true key⟩
  · cases key

end Verif
