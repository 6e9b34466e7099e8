import Verif.Proofs.MemorySign
import Verif.Spec.SampleSign
import Verif.Props.Moves

/-!
# Property C99: no request makes the program read outside its memory

`Err.ub` marks the places where the code reads through an unchecked pointer past the end of what it was given, or a `bool` that is neither
0 nor 1.  The claim is false in eight ways, three of them open to anybody; it holds for every request that meets the conditions `InBounds`.
-/

namespace Verif

namespace Sample

/-- A transaction with one instruction, as the runtime describes it to the program. -/
def oneIx : TxIx := ⟨swigId, [], [10, 0]⟩

/-- A ledger with that description. -/
def boundMem (m : Mem) : Mem := m.set instructionsSysvarId ⟨systemId, 0, sysvarEncode [oneIx] 0⟩

/-- ToggleSubAccountV1 with the given flag, for role 1, by role 0. -/
def flagIx (b : UInt8) : Bytes := natLE 2 10 ++ [b] ++ zeros 5 ++ natLE 4 1 ++ natLE 4 0 ++ [1]

/-- Nobody signs. -/
def nobody : List Meta := [⟨K 1, false, true⟩, ⟨K 20, false, false⟩, ⟨K 3, false, true⟩]

/-- An account of a foreign program that looks like the beginning of a wallet with one role, and ends there. -/
def crafted : Acct := ⟨K 90, 0, [1] ++ zeros 33 ++ natLE 2 1 ++ natLE 4 1 ++ zeros 8 ++ (natLE 2 1 ++ natLE 2 32 ++ natLE 2 0 ++ zeros 2 ++ natLE 4 0 ++ natLE 4 16)⟩

def craftedMetas : List Meta :=
  [⟨K 91, false, true⟩, ⟨K 20, false, false⟩, ⟨K 20, false, true⟩, ⟨K 2, false, true⟩, ⟨systemId, false, false⟩]

def craftedIx : Bytes := natLE 2 12 ++ [254, 0] ++ natLE 4 0 ++ zeros 8

/-- A System transfer without accounts. -/
def noAccounts : Bytes := [2, 0] ++ natLE 2 12 ++ natLE 4 2 ++ natLE 8 5

/-- A scope for account `K 40` whose balance field starts at 2^64 - 6 and ends at 2: eight bytes, computed with wrap around. -/
def backwards : List Act :=
  [⟨P.programScope, natLE 16 0 ++ natLE 16 9 ++ natLE 8 0 ++ natLE 8 0 ++ tokenId ++ K 40 ++ natLE 8 1 ++ natLE 8 2 ++ natLE 8 (2 ^ 64 - 6) ++ natLE 8 2⟩]

/-- A scope for account `K 40` with its balance at bytes 0 to 8; the account is empty. -/
def beyond : List Act :=
  [⟨P.programScope, natLE 16 0 ++ natLE 16 9 ++ natLE 8 0 ++ natLE 8 0 ++ tokenId ++ K 40 ++ natLE 8 0 ++ natLE 8 2 ++ natLE 8 0 ++ natLE 8 8⟩,
    ⟨P.programAll, []⟩]

/-- A called program that gives `K 40` eight bytes of data. -/
def grow : Cpi := fun m _ => .ok (m.setData (K 40) (zeros 8))

/-- The demonstration programs, in a runtime that lets none of them change `K 1`. -/
def keepCpi : Cpi := fun m c =>
  match demoCpi m c with
  | .ok m' => if (m' (K 1)).data = (m (K 1)).data ∧ (m' (K 1)).owner = (m (K 1)).owner then .ok m' else .error .runtime
  | .error _ => .error .runtime

/-- The outcome of a request. -/
def failure {α : Type} : R α → Option Err
  | .ok _ => none
  | .error e => some e

theorem failure_eq {α : Type} {x : R α} {e : Err} (h : failure x = some e) : x = .error e := by
  cases x with
  | ok _ => cases h
  | error _ => cases h; rfl

end Sample

section
open Sample

/-- The claim of C99 is false.  A valid wallet, everything else as it should be, nobody signs, and the flag of ToggleSubAccountV1 is 2: the
program makes a `bool` of it. -/
theorem C99_refuted : ∃ env cpi m metas ix k, ∃ w : Wallet, (∀ m c, cpi m c ≠ .error .ub) ∧ TxData (m instructionsSysvarId).data ∧
    metas.head?.map Meta.key = some k ∧ (m k).owner = swigId ∧ w.WF ∧ (m k).data = w.encode ∧ w.Sane m ∧
    (∀ a ∈ metas, a.signer = false ∧ a.key.length = 32) ∧ process env cpi m metas ix = .error .ub :=
  ⟨signEnv, fun _ _ => .error .invalidArgument, boundMem (mem wallet), nobody, flagIx 2, K 1, wallet, fun _ _ h => (by cases h),
    ⟨[oneIx], 0, ⟨by decide, by decide +kernel, by decide⟩, rfl⟩, rfl, by decide, by decide, rfl,
    ⟨by decide, by decide⟩, by decide, failure_eq (by decide +kernel)⟩

/-- The same for every wallet: whatever its configuration account contains, a flag that is neither 0 nor 1 is used as a `bool` before anything
is authenticated. -/
theorem C99_refuted_flag {env : Env} {cpi : Cpi} {m : Mem} {swig x sub : Meta} {rest : List Meta} {ix : Bytes} {cls : List Class}
    (hl : (swig :: x :: sub :: rest).length ≤ 254) (hc : classifyAll m (swig :: x :: sub :: rest) = .ok cls) (ho : (m swig.key).owner = swigId)
    (hs : (m sub.key).owner = systemId) (hi : 16 ≤ ix.length) (hn : rd ix 0 2 = 10) (hb : ix.getD 2 0 ≠ 0 ∧ ix.getD 2 0 ≠ 1) :
    process env cpi m (swig :: x :: sub :: rest) ix = .error .ub := by
  have hr : readBool (ix.getD 2 0) = .error .ub := by unfold readBool; rw [if_neg hb.1, if_neg hb.2]
  have h2 : ¬ ix.length < 2 := by omega
  simp only [process, require_of hl, ok_bind, hc, dispatch, if_neg h2, hn, toggleSubV1, require_of ho, require_of hs, require_of hi, hr,
    error_bind]

/-- Anybody, for an empty account of the wallet program (anybody can create one): its first byte is read although it has none. -/
theorem C99_refuted_empty : ∃ env cpi m metas ix, (m (K 1)).data = [] ∧ (∀ a ∈ metas, a.signer = false) ∧
    process env cpi m metas ix = .error .ub :=
  ⟨signEnv, demoCpi, (boundMem (mem wallet)).setData (K 1) [], nobody, flagIx 1, by decide, by decide, failure_eq (by decide +kernel)⟩

/-- Anybody, with an account of another program: MigrateToWalletAddress does not ask whose account it reads. -/
theorem C99_refuted_foreign : ∃ env cpi m metas ix, (∃ a, metas.head? = some a ∧ (m a.key).owner ≠ swigId) ∧
    (∀ a ∈ metas, a.signer = false) ∧ process env cpi m metas ix = .error .ub :=
  ⟨signEnv, demoCpi, (boundMem (mem wallet)).set (K 91) crafted, craftedMetas, craftedIx, ⟨_, rfl, by decide⟩, by decide,
    failure_eq (by decide +kernel)⟩

/-- A role that may sign: the accounts of an inner System transfer are read although the instruction names none. -/
theorem C99_refuted_transfer : runSign [⟨P.all, []⟩] [noAccounts] = .error .ub := failure_eq (by decide +kernel)

/-- Any request at all naming the account of a stored scope whose balance field ends before it starts: the accounts are classified before anything
is authenticated. -/
theorem C99_refuted_scope : (signWallet backwards).WF ∧
    process signEnv demoCpi ((signMem backwards).setData (K 40) (zeros 8)) (signSwig :: signAddr :: signRest) (signIx [paySol 4]) = .error .ub :=
  ⟨by decide +kernel, failure_eq (by decide +kernel)⟩

/-- A role with a scope whose balance field lies behind the end of the account, when the called program lengthens the account: the snapshot
compared at the end was never taken. -/
theorem C99_refuted_growth : (signWallet beyond).WF ∧
    process signEnv grow (signMem beyond) (signSwig :: signAddr :: signRest) (signIx [[3, 1, 5] ++ natLE 2 1 ++ [9]]) = .error .ub :=
  ⟨by decide +kernel, failure_eq (by decide +kernel)⟩

/-- The owner of a sub-account, withdrawing tokens to an account that is no token account: its owner field is read although it has no data. -/
theorem C99_refuted_token : process subEnv demoCpi (v1Mem 1) (v1OwnMetas ++ [⟨K 30, false, true⟩, ⟨K 31, false, true⟩, ⟨tokenId, false, false⟩])
    v1OwnIx = .error .ub := failure_eq (by decide +kernel)

/-- The holder of a sub-account permission stored with an `enabled` byte of 2, which is used as a `bool`. -/
theorem C99_refuted_enabled : (v1Wallet 2).WF ∧ process subEnv sysCpi (v1Mem 2) v1OwnMetas v1OwnIx = .error .ub :=
  ⟨by decide +kernel, failure_eq (by decide +kernel)⟩

end

/-- Partial (the conditions `InBounds`, each of which the program fails to check; `C99_refuted` and following): no request makes the program
read outside its memory or use an undefined value. -/
theorem C99_defined_partial {env : Env} {cpi : Cpi} {m : Mem} {metas : List Meta} {ix : Bytes} (h : InBounds cpi m metas ix) :
    process env cpi m metas ix ≠ .error .ub := (process_safe h).ne

/-- The search for scopes before the request is dispatched, which ignores all errors: it does not read outside its memory either. -/
theorem C99_search_partial {cpi : Cpi} {m : Mem} {metas : List Meta} {ix : Bytes} (h : InBounds cpi m metas ix) {a : Meta}
    (ha : metas.head? = some a) (hc : isConfig m a.key = true) (id : Nat) : getRole (m a.key).data id ≠ .error .ub := by
  obtain ⟨w, hw, hd, _⟩ : ∃ w : Wallet, w.WF ∧ (m a.key).data = w.encode ∧ w.Sane m := by
    simp only [isConfig, Bool.and_eq_true, decide_eq_true_eq, beq_iff_eq] at hc
    exact (h.first a ha hc.1.1).wallet hc.2
  rw [hd]
  rcases getRole_wallet hw id with ⟨_, e⟩ | ⟨_, _, _, e, _⟩ <;> rw [e] <;> intro h <;> cases h

open Sample in
/-- A signature that meets the conditions, by a role with limits, and is accepted. -/
example : InBounds keepCpi (boundMem (signMem acts1)) (signSwig :: signAddr :: signRest) (signIx [paySol 400, payToken 40]) ∧
    ok (process signEnv keepCpi (boundMem (signMem acts1)) (signSwig :: signAddr :: signRest) (signIx [paySol 400, payToken 40])) = true := by
  refine ⟨⟨by decide, fun m c h => ?_, ⟨[oneIx], 0, ⟨by decide, by decide +kernel, by decide⟩, rfl⟩, fun a ha _ => ?_, fun h => absurd h (by decide),
    fun h => absurd h (by decide), fun h => absurd h (by decide), fun k b ixs h e => ?_, fun _ a ha m c m' h => ?_⟩, by decide +kernel⟩
  · unfold keepCpi at h
    split at h
    · split at h <;> cases h
    · cases h
  · cases ha
    have hd : (boundMem (signMem acts1) (K 1)).data = (signWallet acts1).encode := by decide +kernel
    refine ⟨?_, fun _ => ⟨signWallet acts1, by decide +kernel, hd, by decide, by decide⟩⟩
    show (boundMem (signMem acts1) (K 1)).data ≠ []
    rw [hd]; decide +kernel
  · have e0 : innerOf (signSwig :: signAddr :: signRest) (signIx [paySol 400, payToken 40]) =
      some (K 2, [2] ++ paySol 400 ++ payToken 40) := by decide +kernel
    rw [e0] at h
    cases h
    have e1 : (match decodeIxs (signSwig :: signAddr :: signRest) (K 2) [] ([2] ++ paySol 400 ++ payToken 40) with
      | .ok ixs => decide (∀ i ∈ ixs, 2 ≤ i.accounts.length) | _ => false) = true := by decide +kernel
    rw [e] at e1
    exact fun i hi _ _ _ => of_decide_eq_true e1 i hi
  · cases ha
    unfold keepCpi at h
    split at h
    · split at h
      · rename_i hk; cases h; exact hk
      · cases h
    · cases h

end Verif
