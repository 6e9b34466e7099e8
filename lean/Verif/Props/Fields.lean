import Verif.Proofs.Requests
import Verif.Props.Lifetime

/-!
# Property C118: every record is exactly its fields in order, and programs and clients mean the same bytes by them

Vocabulary: Spec/Layout.lean (`Record`, `NoPadding`, `bytesAt`, `numAt`), Spec/Requests.lean (`args`, `fixedPart`, `namedRole`).
Model/Records.lean is generated from the struct declarations of the repository by tools/gen_records.py.
-/

namespace Verif

/-! ## The padding check -/

/-- The check made by the derive macro is right: it accepts a record exactly if every byte of it belongs to a field. -/
theorem C118_no_padding (r : Record) (hv : r.Valid) :
    r.NoPadding ↔ ∀ k, k < r.size → ∃ i, i < r.fields.length ∧ (r.span i).1 ≤ k ∧ k < (r.span i).1 + (r.span i).2 := by
  have hr := le_roundUp (n := endFrom 0 r.fields) hv.alignment
  constructor
  · intro h k hk
    have ht := h.tight hv
    have hs : r.size = sizes r.fields := h
    obtain ⟨i, hi, h1, h2⟩ := covered r.fields k (by omega)
    have ho := offset_tight hv.2 0 i hi ht
    refine ⟨i, hi, ?_, ?_⟩
    · show (offsetsFrom 0 r.fields).getD i 0 ≤ k; omega
    · show k < (offsetsFrom 0 r.fields).getD i 0 + (r.fields.getD i ⟨0, 1⟩).size; omega
  · intro h
    have h1 := le_endFrom hv.2 0
    by_cases h2 : endFrom 0 r.fields = 0 + sizes r.fields
    · by_cases h3 : r.size = endFrom 0 r.fields
      · show r.size = sizes r.fields; omega
      · have h4 : endFrom 0 r.fields < r.size := by unfold Record.size at *; omega
        obtain ⟨i, hi, _, g2⟩ := h _ h4
        have := (offset_bounds hv.2 0 i hi).2
        have g3 : endFrom 0 r.fields < (offsetsFrom 0 r.fields).getD i 0 + (r.fields.getD i ⟨0, 1⟩).size := g2
        omega
    · obtain ⟨k, _, g2, g3⟩ := gap hv.2 0 (by omega)
      obtain ⟨i, hi, g4⟩ := h k (by unfold Record.size; omega)
      exact (g3 i hi g4).elim

/-- A record without padding is its fields one after the other: whatever bytes stand for the fields, the field number `i` is found at its
offset, also when more bytes follow; two fields never overlap. -/
theorem C118_reads (r : Record) (hv : r.Valid) (hn : r.NoPadding) (vs : List Bytes) (rest : Bytes)
    (hs : vs.map List.length = r.fields.map Field.size) :
    vs.flatten.length = r.size ∧ ∀ i, i < r.fields.length → bytesAt (vs.flatten ++ rest) (r.span i) = vs.getD i [] := by
  refine ⟨?_, fun i hi => ?_⟩
  · rw [List.length_flatten, hs]; exact hn.symm
  · have ho : r.offset i = 0 + sizes (r.fields.take i) := offset_tight hv.2 0 i hi (hn.tight hv)
    unfold bytesAt Record.span
    dsimp only
    rw [ho, Nat.zero_add]
    exact sl_flatten hs i hi rest

/-- Every record declared `NoPadding` in the repository has none (so the crate compiles), and the scope record has none either where the
compiler aligns 128-bit numbers to 16 bytes. -/
theorem C118_records : (∀ r ∈ Rec.checked, r.Valid ∧ r.NoPadding) ∧
    (let r : Record := ⟨8, Rec.ProgramScope.fields.map fun f => if f.size = 16 then ⟨16, 16⟩ else f⟩
     r.NoPadding ∧ r.size = Rec.ProgramScope.size ∧ ∀ i, i < 10 → r.span i = Rec.ProgramScope.span i) := by
  unfold Record.Valid Record.NoPadding
  decide +kernel

/-! ## Requests -/

/-- An accepted request contains its whole record and the parts whose lengths the record states (for any accounts, including
creation). -/
theorem C118_within {env : Env} {cpi : Cpi} {m m' : Mem} {metas : List Meta} {ix : Bytes} (e : process env cpi m metas ix = .ok m') :
    fixedPart ix ≤ ix.length := by
  unfold process at e
  obtain ⟨_, _, e⟩ := bind_ok_iff.mp e
  obtain ⟨cls, _, e⟩ := bind_ok_iff.mp e
  unfold dispatch at e
  split at e
  · cases e
  unfold fixedPart
  split at e <;> try rename_i hx
  · rw [hx]; exact add_fits e
  · rw [hx]; exact remove_fits e
  · rw [hx]; exact update_fits e
  · cases e
  · rw [hx]; exact session_fits e
  · rw [hx]; exact createSubV1_fits e
  · rw [hx]; exact withdrawSubV1_fits e
  · rw [hx]; exact subSignV1_fits e
  · rw [hx]; exact toggleSubV1_fits e
  · rw [hx]; exact sign_fits e
  · rw [hx]; exact migrate_fits e
  · rw [hx]; exact transfer_fits e
  · rw [hx]; exact closeToken_fits e
  · rw [hx]; exact closeSwig_fits e
  · rw [hx]; exact replace_fits e
  · rw [hx]; exact claimer_fits e
  · rw [hx]; exact createSubV2_fits e
  · rw [hx]; exact toggleSubV2_fits e
  · rw [hx]; exact subSignV2_fits e
  · rw [hx]; exact withdrawSubV2_fits e
  · have ha : args (rd ix 0 2) = ⟨Rec.CreateV1Args, (0, 0), [Rec.CreateV1Args.authority_data_len]⟩ := by
      unfold args; split <;> first | rfl | contradiction
    rw [ha]; exact create_fits e

/-- An accepted request for an existing wallet acts as the role its record names, and the credential that authenticates it is what
follows the record and the parts it announces. -/
theorem C118_acts {env : Env} {cpi : Cpi} {m m' : Mem} {swig : Meta} {rest : List Meta} {ix : Bytes} {w : Wallet} (ho : Open m swig.key w)
    (hf : Fine env cpi m (swig :: rest) ix) (e : process env cpi m (swig :: rest) ix = .ok m') :
    ∃ (r : Role) (a : Auth), w.role? (namedRole ix) = some r ∧ a.WF ∧ a.ty = r.authType ∧ a.encode = r.auth ∧
      match (if rd ix 0 2 = 5 then none else a.session) with
      | some s => env.slot ≤ s.expiry ∧ ∃ i more, ix.drop (fixedPart ix) = i :: more ∧ SignedBy (swig :: rest) i.toNat s.key
      | none => ∃ b, authenticate env a.ty a.encode (swig :: rest) (m instructionsSysvarId).data (ix.drop (fixedPart ix)) (signedPart ix) = .ok b := by
  have hk : namedRole ix = actingRole ix ∧ fixedPart ix = credentialAt ix := by
    have hn : ∀ n, n ∈ [1, 2, 3, 5, 6, 7, 9, 10, 11, 12, 13, 14, 15, 16, 17, 18, 19, 20, 21] → rd ix 0 2 = n →
        namedRole ix = actingRole ix ∧ fixedPart ix = credentialAt ix := by
      intro n hn hx
      simp only [List.mem_cons, List.not_mem_nil, or_false] at hn
      unfold namedRole fixedPart actingRole credentialAt
      rw [hx]
      rcases hn with rfl | rfl | rfl | rfl | rfl | rfl | rfl | rfl | rfl | rfl | rfl | rfl | rfl | rfl | rfl | rfl | rfl | rfl | rfl <;>
        refine ⟨rfl, ?_⟩ <;> first
          | rfl
          | exact (Nat.add_assoc 16 _ _).symm
    unfold process at e
    obtain ⟨_, _, e1⟩ := bind_ok_iff.mp e
    clear e
    obtain ⟨cls, _, e⟩ := bind_ok_iff.mp e1
    clear e1
    unfold dispatch at e
    split at e
    · cases e
    split at e <;> try (rename_i hx; exact hn _ (by decide) hx)
    · cases e
    · unfold createV1 at e
      split at e
      · rename_i heq
        cases heq
        obtain ⟨_, hq, _⟩ := bind_ok_iff.mp e
        unfold createChecks at hq
        obtain ⟨_, h1, hq⟩ := bind_ok_iff.mp hq
        have h2 := require_ok_iff.mp h1
        rw [ho.owner] at h2
        exact absurd h2 (by decide +kernel)
      · cases e
  rw [hk.1, hk.2]
  exact C76_authenticates ho hf e

/-- Each parsed request holds the fields of its record. -/
theorem C118_fields (ix : Bytes) :
    (∀ a, parseCreate ix = .ok a → a.authType = numAt ix Rec.CreateV1Args.authority_type ∧ a.bump.toNat = numAt ix Rec.CreateV1Args.bump ∧
      a.walletBump.toNat = numAt ix Rec.CreateV1Args.wallet_address_bump ∧ a.id = bytesAt ix Rec.CreateV1Args.id ∧
      a.authData.length = numAt ix Rec.CreateV1Args.authority_data_len ∧ ix = ix.take Rec.CreateV1Args.size ++ a.authData ++ a.actions) ∧
    (∀ a, parseAdd ix = .ok a → a.newType = numAt ix Rec.AddAuthorityV1Args.new_authority_type ∧
      a.acting = numAt ix Rec.AddAuthorityV1Args.acting_role_id ∧ a.authData.length = numAt ix Rec.AddAuthorityV1Args.new_authority_data_len ∧
      a.actions.length = numAt ix Rec.AddAuthorityV1Args.actions_data_len ∧
      a.dataPayload = ix.take Rec.AddAuthorityV1Args.size ++ a.authData ++ a.actions ∧ ix = a.dataPayload ++ a.authPayload) ∧
    (∀ a, parseRemove ix = .ok a → a.acting = numAt ix Rec.RemoveAuthorityV1Args.acting_role_id ∧
      a.target = numAt ix Rec.RemoveAuthorityV1Args.authority_to_remove_id ∧ a.dataPayload = ix.take Rec.RemoveAuthorityV1Args.size ∧
      ix = a.dataPayload ++ a.authPayload) ∧
    (∀ a, parseUpdate ix = .ok a → a.acting = numAt ix Rec.UpdateAuthorityV1Args.acting_role_id ∧
      a.target = numAt ix Rec.UpdateAuthorityV1Args.authority_to_update_id ∧
      a.dataPayload.length = Rec.UpdateAuthorityV1Args.size + numAt ix Rec.UpdateAuthorityV1Args.actions_data_len ∧
      ix = a.dataPayload ++ a.authPayload ∧
      ∃ op, updateOp op (a.dataPayload.drop Rec.UpdateAuthorityV1Args.size) = .ok a.op ∧ op.toNat = numAt ix Rec.UpdateAuthorityV1Args.num_actions) ∧
    (∀ a, parseSession ix = .ok a → a.role = numAt ix Rec.CreateSessionV1Args.role_id ∧
      a.duration = numAt ix Rec.CreateSessionV1Args.session_duration ∧ a.key = bytesAt ix Rec.CreateSessionV1Args.session_key ∧
      a.dataPayload = ix.take Rec.CreateSessionV1Args.size ∧ ix = a.dataPayload ++ a.authPayload) ∧
    (∀ a, parseReplace ix = .ok a → a.acting = numAt ix Rec.ReplaceAuthorityV1Args.acting_role_id ∧
      a.target = numAt ix Rec.ReplaceAuthorityV1Args.target_role_id ∧ a.newAuth.length = numAt ix Rec.ReplaceAuthorityV1Args.new_authority_len ∧
      a.dataPayload = ix.take Rec.ReplaceAuthorityV1Args.size ++ a.newAuth ∧ ix = a.dataPayload ++ a.authPayload) ∧
    (∀ a, parseClaimer ix = .ok a → a.role = numAt ix Rec.SetRentClaimerV1Args.role_id ∧
      a.claimer = bytesAt ix Rec.SetRentClaimerV1Args.rent_claimer ∧ a.dataPayload = ix.take Rec.SetRentClaimerV1Args.size ∧
      ix = a.dataPayload ++ a.authPayload) ∧
    (∀ a, parseSign ix = .ok a → a.role = numAt ix Rec.SignV2Args.role_id ∧ a.payload.length = numAt ix Rec.SignV2Args.instruction_payload_len ∧
      ix = ix.take Rec.SignV2Args.size ++ a.payload ++ a.authPayload) ∧
    (∀ a, parseSubSign ix = .ok a → a.role = numAt ix Rec.SubAccountSignV1Args.role_id ∧
      a.payload.length = numAt ix Rec.SubAccountSignV1Args.instruction_payload_len ∧
      ix = ix.take Rec.SubAccountSignV1Args.size ++ a.payload ++ a.authPayload) ∧
    (∀ a, parseSubSignV2 ix = .ok a → a.role = numAt ix Rec.SubAccountSignV2Args.role_id ∧
      a.subId = numAt ix Rec.SubAccountSignV2Args.subacc_id ∧ a.payload.length = numAt ix Rec.SubAccountSignV2Args.instruction_payload_len ∧
      a.dataPayload = ix.take Rec.SubAccountSignV2Args.size ++ a.payload ∧ ix = a.dataPayload ++ a.authPayload) := by
  have cut0 : ∀ (b : Bytes) (i n : Nat), b.take i ++ sl b i (i + n) = b.take (i + n) := fun b i n => by
    unfold sl; rw [Nat.add_sub_cancel_left, List.take_add]
  have len : ∀ (b : Bytes) (i n : Nat), i + n ≤ b.length → (sl b i (i + n)).length = n := fun b i n h => by
    rw [sl_length_of_le h]; omega
  refine ⟨fun a h => ?_, fun a h => ?_, fun a h => ?_, fun a h => ?_, fun a h => ?_, fun a h => ?_, fun a h => ?_, fun a h => ?_, fun a h => ?_, fun a h => ?_⟩
  · have hl := parseCreate_fits h
    unfold parseCreate at h
    rw [if_neg (by omega)] at h
    dsimp only at h
    rw [if_neg (by simp; omega)] at h
    cases h
    refine ⟨rfl, (numAt_one ix 6 rfl).symm, (numAt_one ix 7 rfl).symm, rfl, ?_, ?_⟩
    · show _ = rd ix 4 2; simp; omega
    · show ix = ix.take 40 ++ _ ++ _
      rw [List.append_assoc, List.take_append_drop, List.take_append_drop]
  · have hl := parseAdd_fits h
    unfold parseAdd at h
    rw [if_neg (by omega)] at h
    dsimp only at h
    rw [if_neg (by omega)] at h
    cases h
    refine ⟨rfl, rfl, len _ _ _ (by omega), len _ _ _ (by omega), ?_, (List.take_append_drop _ _).symm⟩
    show _ = ix.take 16 ++ _ ++ _
    rw [cut0, cut0]
  · have hl := parseRemove_fits h
    unfold parseRemove at h
    rw [if_neg (by omega)] at h
    cases h
    exact ⟨rfl, rfl, rfl, (List.take_append_drop _ _).symm⟩
  · have hl := parseUpdate_fits h
    unfold parseUpdate at h
    rw [if_neg (by omega)] at h
    dsimp only at h
    rw [if_neg (by omega)] at h
    obtain ⟨op, h1, h⟩ := bind_ok_iff.mp h
    cases h
    refine ⟨rfl, rfl, ?_, (List.take_append_drop _ _).symm, _, ?_, (numAt_one ix 4 rfl).symm⟩
    · show (ix.take (16 + rd ix 2 2)).length = 16 + rd ix 2 2
      simp; omega
    · rw [← h1]
      congr 1
      show (ix.take (16 + rd ix 2 2)).drop 16 = _
      unfold sl
      rw [List.drop_take]
  · have hl := parseSession_fits h
    unfold parseSession at h
    rw [if_neg (by omega)] at h
    cases h
    exact ⟨rfl, rfl, rfl, rfl, (List.take_append_drop _ _).symm⟩
  · have hl := parseReplace_fits h
    unfold parseReplace at h
    rw [if_neg (by omega)] at h
    split at h
    · cases h
    dsimp only at h
    split at h
    · cases h
    rw [if_neg (by omega)] at h
    cases h
    refine ⟨rfl, rfl, len _ _ _ (by omega), ?_, (List.take_append_drop _ _).symm⟩
    show _ = ix.take 16 ++ _
    rw [cut0]
  · have hl := parseClaimer_fits h
    unfold parseClaimer at h
    rw [if_neg (by omega)] at h
    cases h
    exact ⟨rfl, rfl, rfl, (List.take_append_drop _ _).symm⟩
  · have hl := parseSign_fits h
    unfold parseSign at h
    rw [if_neg (by omega)] at h
    dsimp only at h
    rw [if_neg (by omega)] at h
    cases h
    refine ⟨rfl, len _ _ _ (by omega), ?_⟩
    show ix = ix.take 8 ++ _ ++ _
    rw [cut0, List.take_append_drop]
  · have hl := parseSubSign_fits h
    unfold parseSubSign at h
    rw [if_neg (by omega)] at h
    dsimp only at h
    rw [if_neg (by omega)] at h
    cases h
    refine ⟨rfl, len _ _ _ (by omega), ?_⟩
    show ix = ix.take 16 ++ _ ++ _
    rw [cut0, List.take_append_drop]
  · have hl := parseSubSignV2_fits h
    unfold parseSubSignV2 at h
    rw [if_neg (by omega)] at h
    dsimp only at h
    rw [if_neg (by omega)] at h
    cases h
    refine ⟨rfl, rfl, len _ _ _ (by omega), ?_, (List.take_append_drop _ _).symm⟩
    show _ = ix.take 16 ++ _
    rw [cut0]

/-! ## Accounts -/

/-- The account header, the role records, the permission headers and the sub-account records are read at the fields of their records. -/
theorem C118_state (b : Bytes) (c : Nat) :
    ((Header.decode b).disc.toNat = numAt b Rec.Swig.discriminator ∧ (Header.decode b).bump.toNat = numAt b Rec.Swig.bump ∧
      (Header.decode b).id = bytesAt b Rec.Swig.id ∧ (Header.decode b).roles = numAt b Rec.Swig.roles ∧
      (Header.decode b).roleCounter = numAt b Rec.Swig.role_counter ∧ (Header.decode b).walletBump.toNat = numAt b Rec.Swig.wallet_bump ∧
      (Header.decode b).subCounter = numAt b Rec.Swig.sub_account_counter) ∧
    (pAuthType b c = numAt (b.drop c) Rec.Position.authority_type ∧ pAuthLen b c = numAt (b.drop c) Rec.Position.authority_length ∧
      pNumActions b c = numAt (b.drop c) Rec.Position.num_actions ∧ pId b c = numAt (b.drop c) Rec.Position.id ∧
      pBoundary b c = numAt (b.drop c) Rec.Position.boundary) ∧
    (aType b c = numAt (b.drop c) Rec.Action.action_type ∧ aLen b c = numAt (b.drop c) Rec.Action.length ∧
      aBoundary b c = numAt (b.drop c) Rec.Action.boundary) ∧
    ((SubAct.decode b).sub = bytesAt b Rec.SubAccount.sub_account ∧ (SubAct.decode b).bump.toNat = numAt b Rec.SubAccount.bump ∧
      (SubAct.decode b).enabled.toNat = numAt b Rec.SubAccount.enabled ∧ (SubAct.decode b).roleId = numAt b Rec.SubAccount.role_id ∧
      (SubAct.decode b).swigId = bytesAt b Rec.SubAccount.swig_id) ∧
    ((SubState.decode b).disc.toNat = numAt b Rec.SubAccountV2.discriminator ∧ (SubState.decode b).bump.toNat = numAt b Rec.SubAccountV2.bump ∧
      (SubState.decode b).assetBump.toNat = numAt b Rec.SubAccountV2.asset_bump ∧
      (SubState.decode b).enabled.toNat = numAt b Rec.SubAccountV2.enabled ∧ (SubState.decode b).subId = numAt b Rec.SubAccountV2.subacc_id ∧
      (SubState.decode b).swigId = bytesAt b Rec.SubAccountV2.swig_id ∧ (SubState.decode b).sub = bytesAt b Rec.SubAccountV2.sub_account) := by
  have hd : ∀ i k, rd b (c + i) k = rd (b.drop c) i k := fun i k => by
    unfold rd sl; rw [List.drop_drop]; congr 2; omega
  have hd0 : ∀ k, rd b c k = rd (b.drop c) 0 k := fun k => hd 0 k
  refine ⟨⟨(numAt_one b 0 rfl).symm, (numAt_one b 1 rfl).symm, rfl, rfl, rfl, (numAt_one b 40 rfl).symm, rfl⟩,
    ⟨hd0 2, hd 2 2, hd 4 2, hd 8 4, hd 12 4⟩, ⟨hd0 2, hd 2 2, hd 4 4⟩,
    ⟨rfl, (numAt_one b 32 rfl).symm, (numAt_one b 33 rfl).symm, rfl, rfl⟩,
    (numAt_one b 0 rfl).symm, (numAt_one b 1 rfl).symm, (numAt_one b 2 rfl).symm, (numAt_one b 3 rfl).symm, rfl, rfl, rfl⟩

/-- Spending limits are read at the fields of their records and written back as the fields in order. -/
theorem C118_limits (n slot : Nat) (d d' : Bytes) :
    (chargeSol n d = .ok d' → ∃ l, SolLimit.run ⟨numAt d Rec.SolLimit.amount⟩ n = .ok l ∧ d' = [natLE 8 l.amount].flatten) ∧
    (chargeSolRec n slot d = .ok d' → ∃ l, SolRecurringLimit.run ⟨numAt d Rec.SolRecurringLimit.recurring_amount,
        numAt d Rec.SolRecurringLimit.window, numAt d Rec.SolRecurringLimit.last_reset, numAt d Rec.SolRecurringLimit.current_amount⟩ n slot = .ok l ∧
      d' = [natLE 8 l.recurringAmount, natLE 8 l.window, natLE 8 l.lastReset, natLE 8 l.currentAmount].flatten) ∧
    (chargeSolDest n d = .ok d' → ∃ l, SolDestinationLimit.run ⟨bytesAt d Rec.SolDestinationLimit.destination,
        numAt d Rec.SolDestinationLimit.amount⟩ n = .ok l ∧ d' = [l.destination, natLE 8 l.amount].flatten) ∧
    (chargeSolRecDest n slot d = .ok d' → ∃ l, SolRecurringDestinationLimit.run ⟨bytesAt d Rec.SolRecurringDestinationLimit.destination,
        numAt d Rec.SolRecurringDestinationLimit.recurring_amount, numAt d Rec.SolRecurringDestinationLimit.window,
        numAt d Rec.SolRecurringDestinationLimit.last_reset, numAt d Rec.SolRecurringDestinationLimit.current_amount⟩ n slot = .ok l ∧
      d' = [l.destination, natLE 8 l.recurringAmount, natLE 8 l.window, natLE 8 l.lastReset, natLE 8 l.currentAmount].flatten) ∧
    (chargeToken n d = .ok d' → ∃ l, TokenLimit.run ⟨bytesAt d Rec.TokenLimit.token_mint, numAt d Rec.TokenLimit.current_amount⟩ n = .ok l ∧
      d' = [l.mint, natLE 8 l.current].flatten) ∧
    (chargeTokenRec n slot d = .ok d' → ∃ l, TokenRecurringLimit.run ⟨bytesAt d Rec.TokenRecurringLimit.token_mint,
        numAt d Rec.TokenRecurringLimit.window, numAt d Rec.TokenRecurringLimit.limit, numAt d Rec.TokenRecurringLimit.current,
        numAt d Rec.TokenRecurringLimit.last_reset⟩ n slot = .ok l ∧
      d' = [l.mint, natLE 8 l.window, natLE 8 l.limit, natLE 8 l.current, natLE 8 l.lastReset].flatten) ∧
    (chargeTokenDest n d = .ok d' → ∃ l, TokenDestinationLimit.run ⟨bytesAt d Rec.TokenDestinationLimit.token_mint,
        bytesAt d Rec.TokenDestinationLimit.destination, numAt d Rec.TokenDestinationLimit.amount⟩ n = .ok l ∧
      d' = [l.mint, l.destination, natLE 8 l.amount].flatten) ∧
    (chargeTokenRecDest n slot d = .ok d' → ∃ l, TokenRecurringDestinationLimit.run ⟨bytesAt d Rec.TokenRecurringDestinationLimit.token_mint,
        bytesAt d Rec.TokenRecurringDestinationLimit.destination, numAt d Rec.TokenRecurringDestinationLimit.recurring_amount,
        numAt d Rec.TokenRecurringDestinationLimit.window, numAt d Rec.TokenRecurringDestinationLimit.last_reset,
        numAt d Rec.TokenRecurringDestinationLimit.current_amount⟩ n slot = .ok l ∧
      d' = [l.mint, l.destination, natLE 8 l.recurringAmount, natLE 8 l.window, natLE 8 l.lastReset, natLE 8 l.currentAmount].flatten) ∧
    (chargeStake n d = .ok d' → ∃ l, StakeLimit.run ⟨numAt d Rec.StakeLimit.amount⟩ n = .ok l ∧ d' = [natLE 8 l.amount].flatten) ∧
    (chargeStakeRec n slot d = .ok d' → ∃ l, StakeRecurringLimit.run ⟨numAt d Rec.StakeRecurringLimit.recurring_amount,
        numAt d Rec.StakeRecurringLimit.window, numAt d Rec.StakeRecurringLimit.last_reset, numAt d Rec.StakeRecurringLimit.current_amount⟩ n slot = .ok l ∧
      d' = [natLE 8 l.recurringAmount, natLE 8 l.window, natLE 8 l.lastReset, natLE 8 l.currentAmount].flatten) ∧
    (chargeScope n slot d = .ok d' → ∃ l, ProgramScope.run ⟨numAt d Rec.ProgramScope.current_amount, numAt d Rec.ProgramScope.limit,
        numAt d Rec.ProgramScope.window, numAt d Rec.ProgramScope.last_reset, bytesAt d Rec.ProgramScope.program_id,
        bytesAt d Rec.ProgramScope.target_account, numAt d Rec.ProgramScope.scope_type, numAt d Rec.ProgramScope.numeric_type,
        numAt d Rec.ProgramScope.balance_field_start, numAt d Rec.ProgramScope.balance_field_end⟩ n slot = .ok l ∧
      d' = [natLE 16 l.currentAmount, natLE 16 l.limit, natLE 8 l.window, natLE 8 l.lastReset, bytesAt d Rec.ProgramScope.program_id,
        bytesAt d Rec.ProgramScope.target_account, bytesAt d Rec.ProgramScope.scope_type, bytesAt d Rec.ProgramScope.numeric_type,
        bytesAt d Rec.ProgramScope.balance_field_start, bytesAt d Rec.ProgramScope.balance_field_end].flatten) := by
  refine ⟨?_, ?_, ?_, ?_, ?_, ?_, ?_, ?_, ?_, ?_, ?_⟩
  all_goals
    intro h
    first
      | unfold chargeSol at h | unfold chargeSolRec at h | unfold chargeSolDest at h | unfold chargeSolRecDest at h | unfold chargeToken at h
      | unfold chargeTokenRec at h | unfold chargeTokenDest at h | unfold chargeTokenRecDest at h | unfold chargeStake at h
      | unfold chargeStakeRec at h | unfold chargeScope at h
    obtain ⟨l, h1, h⟩ := bind_ok_iff.mp h
    cases h
    refine ⟨l, h1, ?_⟩
  all_goals try simp [List.flatten]
  show sl d 48 144 = sl d 48 80 ++ (sl d 80 112 ++ (sl d 112 120 ++ (sl d 120 128 ++ (sl d 128 136 ++ sl d 136 144))))
  rw [sl_split d 48 80 144, sl_split d 80 112 144, sl_split d 112 120 144, sl_split d 120 128 144, sl_split d 128 136 144] <;> omega

theorem held (r : Record) (hc : r ∈ Rec.checked) (vs : List Bytes) {b : Bytes} (hb : b = vs.flatten)
    (hs : vs.map List.length = r.fields.map Field.size) :
    b.length = r.size ∧ ∀ i, i < r.fields.length → bytesAt b (r.span i) = vs.getD i [] := by
  have h := C118_records.1 r hc
  have h1 := C118_reads r h.1 h.2 vs [] hs
  rw [List.append_nil] at h1
  exact hb ▸ h1

theorem num_of {b v : Bytes} {s : Span} {k n : Nat} (h : bytesAt b s = v) (hv : v = natLE k n) (hn : n < 256 ^ k) : numAt b s = n := by
  unfold numAt; rw [h, hv, leNat_natLE_of_lt hn]

/-- Stored credentials hold the fields of their records. -/
theorem C118_credentials (a : Auth) (ha : a.WF) :
    (a.ty = 1 → a.encode.length = Rec.ED25519Authority.size ∧ bytesAt a.encode Rec.ED25519Authority.public_key = a.cred.key) ∧
    (a.ty = 2 → a.encode.length = Rec.Ed25519SessionAuthority.size ∧ bytesAt a.encode Rec.Ed25519SessionAuthority.public_key = a.cred.key ∧
      ∃ s, a.session = some s ∧ bytesAt a.encode Rec.Ed25519SessionAuthority.session_key = s.key ∧
        numAt a.encode Rec.Ed25519SessionAuthority.max_session_length = s.max ∧
        numAt a.encode Rec.Ed25519SessionAuthority.current_session_expiration = s.expiry) ∧
    (a.ty = 3 → a.encode.length = Rec.Secp256k1Authority.size ∧
      a.cred.secp = some (bytesAt a.encode Rec.Secp256k1Authority.public_key, numAt a.encode Rec.Secp256k1Authority.signature_odometer)) ∧
    (a.ty = 4 → a.encode.length = Rec.Secp256k1SessionAuthority.size ∧
      a.cred.secp = some (bytesAt a.encode Rec.Secp256k1SessionAuthority.public_key, numAt a.encode Rec.Secp256k1SessionAuthority.signature_odometer) ∧
      ∃ s, a.session = some s ∧ bytesAt a.encode Rec.Secp256k1SessionAuthority.session_key = s.key ∧
        numAt a.encode Rec.Secp256k1SessionAuthority.max_session_age = s.max ∧
        numAt a.encode Rec.Secp256k1SessionAuthority.current_session_expiration = s.expiry) ∧
    (a.ty = 5 → a.encode.length = Rec.Secp256r1Authority.size ∧
      a.cred.secp = some (bytesAt a.encode Rec.Secp256r1Authority.public_key, numAt a.encode Rec.Secp256r1Authority.signature_odometer)) ∧
    (a.ty = 6 → a.encode.length = Rec.Secp256r1SessionAuthority.size ∧
      a.cred.secp = some (bytesAt a.encode Rec.Secp256r1SessionAuthority.public_key, numAt a.encode Rec.Secp256r1SessionAuthority.signature_odometer) ∧
      ∃ s, a.session = some s ∧ bytesAt a.encode Rec.Secp256r1SessionAuthority.session_key = s.key ∧
        numAt a.encode Rec.Secp256r1SessionAuthority.max_session_age = s.max ∧
        numAt a.encode Rec.Secp256r1SessionAuthority.current_session_expiration = s.expiry) ∧
    (a.ty = 7 → a.encode.length = Rec.ProgramExecAuthority.size ∧ ∃ n pad, n.toNat = numAt a.encode Rec.ProgramExecAuthority.instruction_prefix_len ∧
      a.cred = .exec (bytesAt a.encode Rec.ProgramExecAuthority.program_id) n pad (bytesAt a.encode Rec.ProgramExecAuthority.instruction_prefix)) ∧
    (a.ty = 8 → a.encode.length = Rec.ProgramExecSessionAuthority.size ∧
      (∃ n pad, n.toNat = numAt a.encode Rec.ProgramExecSessionAuthority.instruction_prefix_len ∧
        a.cred = .exec (bytesAt a.encode Rec.ProgramExecSessionAuthority.program_id) n pad
          (bytesAt a.encode Rec.ProgramExecSessionAuthority.instruction_prefix)) ∧
      ∃ s, a.session = some s ∧ bytesAt a.encode Rec.ProgramExecSessionAuthority.session_key = s.key ∧
        numAt a.encode Rec.ProgramExecSessionAuthority.max_session_length = s.max ∧
        numAt a.encode Rec.ProgramExecSessionAuthority.current_session_expiration = s.expiry) := by
  obtain ⟨c, o⟩ := a
  have hc := ha.cred
  have hs := ha.session
  dsimp only at hc hs
  cases c with
  | ed25519 pk =>
    cases o with
    | none =>
      refine ⟨fun _ => ?_, ?_, ?_, ?_, ?_, ?_, ?_, ?_⟩
      · obtain ⟨h1, h2⟩ := held Rec.ED25519Authority (by simp [Rec.checked]) [pk] (b := Auth.encode ⟨.ed25519 pk, none⟩)
          (by simp [Auth.encode, Cred.encode]) (by simp [Rec.ED25519Authority, Field.bytes, Field.array, Field.u8]; exact hc)
        exact ⟨h1, h2 0 (by decide)⟩
      all_goals intro h; exact absurd h (by simp [Auth.ty])
    | some s =>
      have hs := hs s rfl
      refine ⟨?_, fun _ => ?_, ?_, ?_, ?_, ?_, ?_, ?_⟩
      case refine_2 =>
        obtain ⟨h1, h2⟩ := held Rec.Ed25519SessionAuthority (by simp [Rec.checked]) [pk, s.key, natLE 8 s.max, natLE 8 s.expiry]
          (b := Auth.encode ⟨.ed25519 pk, some s⟩)
          (by simp [Auth.encode, Cred.encode, Session.encode])
          (by simp [Rec.Ed25519SessionAuthority, Field.bytes, Field.array, Field.u8, Field.u64, hs.key]; exact hc)
        exact ⟨h1, h2 0 (by decide), s, rfl, h2 1 (by decide), num_of (h2 2 (by decide)) rfl hs.max, num_of (h2 3 (by decide)) rfl hs.expiry⟩
      all_goals intro h; exact absurd h (by simp [Auth.ty])
  | secp256k1 pk pad n =>
    obtain ⟨c1, c2, c3⟩ := hc
    cases o with
    | none =>
      refine ⟨?_, ?_, ?_, ?_, ?_, ?_, ?_, ?_⟩
      case refine_3 =>
        intro _
        obtain ⟨h1, h2⟩ := held Rec.Secp256k1Authority (by simp [Rec.checked]) [pk, pad, natLE 4 n] (b := Auth.encode ⟨.secp256k1 pk pad n, none⟩)
          (by simp [Auth.encode, Cred.encode]) (by simp [Rec.Secp256k1Authority, Field.bytes, Field.array, Field.u8, Field.u32, c1, c2])
        have e1 : bytesAt _ Rec.Secp256k1Authority.public_key = pk := h2 0 (by decide)
        have e2 : numAt _ Rec.Secp256k1Authority.signature_odometer = n := num_of (h2 2 (by decide)) rfl c3
        exact ⟨h1, by rw [e1, e2]; rfl⟩
      all_goals intro h; exact absurd h (by simp [Auth.ty])
    | some s =>
      have hs := hs s rfl
      refine ⟨?_, ?_, ?_, ?_, ?_, ?_, ?_, ?_⟩
      case refine_4 =>
        intro _
        obtain ⟨h1, h2⟩ := held Rec.Secp256k1SessionAuthority (by simp [Rec.checked]) [pk, pad, natLE 4 n, s.key, natLE 8 s.max, natLE 8 s.expiry]
          (b := Auth.encode ⟨.secp256k1 pk pad n, some s⟩)
          (by simp [Auth.encode, Cred.encode, Session.encode])
          (by simp [Rec.Secp256k1SessionAuthority, Field.bytes, Field.array, Field.u8, Field.u32, Field.u64, c1, c2, hs.key])
        have e1 : bytesAt _ Rec.Secp256k1SessionAuthority.public_key = pk := h2 0 (by decide)
        have e2 : numAt _ Rec.Secp256k1SessionAuthority.signature_odometer = n := num_of (h2 2 (by decide)) rfl c3
        exact ⟨h1, by rw [e1, e2]; rfl, s, rfl, h2 3 (by decide), num_of (h2 4 (by decide)) rfl hs.max, num_of (h2 5 (by decide)) rfl hs.expiry⟩
      all_goals intro h; exact absurd h (by simp [Auth.ty])
  | secp256r1 pk pad n =>
    obtain ⟨c1, c2, c3⟩ := hc
    cases o with
    | none =>
      refine ⟨?_, ?_, ?_, ?_, ?_, ?_, ?_, ?_⟩
      case refine_5 =>
        intro _
        obtain ⟨h1, h2⟩ := held Rec.Secp256r1Authority (by simp [Rec.checked]) [pk, pad, natLE 4 n] (b := Auth.encode ⟨.secp256r1 pk pad n, none⟩)
          (by simp [Auth.encode, Cred.encode]) (by simp [Rec.Secp256r1Authority, Field.bytes, Field.array, Field.u8, Field.u32, c1, c2])
        have e1 : bytesAt _ Rec.Secp256r1Authority.public_key = pk := h2 0 (by decide)
        have e2 : numAt _ Rec.Secp256r1Authority.signature_odometer = n := num_of (h2 2 (by decide)) rfl c3
        exact ⟨h1, by rw [e1, e2]; rfl⟩
      all_goals intro h; exact absurd h (by simp [Auth.ty])
    | some s =>
      have hs := hs s rfl
      refine ⟨?_, ?_, ?_, ?_, ?_, ?_, ?_, ?_⟩
      case refine_6 =>
        intro _
        obtain ⟨h1, h2⟩ := held Rec.Secp256r1SessionAuthority (by simp [Rec.checked]) [pk, pad, natLE 4 n, s.key, natLE 8 s.max, natLE 8 s.expiry]
          (b := Auth.encode ⟨.secp256r1 pk pad n, some s⟩)
          (by simp [Auth.encode, Cred.encode, Session.encode])
          (by simp [Rec.Secp256r1SessionAuthority, Field.bytes, Field.array, Field.u8, Field.u32, Field.u64, c1, c2, hs.key])
        have e1 : bytesAt _ Rec.Secp256r1SessionAuthority.public_key = pk := h2 0 (by decide)
        have e2 : numAt _ Rec.Secp256r1SessionAuthority.signature_odometer = n := num_of (h2 2 (by decide)) rfl c3
        exact ⟨h1, by rw [e1, e2]; rfl, s, rfl, h2 3 (by decide), num_of (h2 4 (by decide)) rfl hs.max, num_of (h2 5 (by decide)) rfl hs.expiry⟩
      all_goals intro h; exact absurd h (by simp [Auth.ty])
  | exec p n pad buf =>
    obtain ⟨c1, c2, c3⟩ := hc
    cases o with
    | none =>
      refine ⟨?_, ?_, ?_, ?_, ?_, ?_, ?_, ?_⟩
      case refine_7 =>
        intro _
        obtain ⟨h1, h2⟩ := held Rec.ProgramExecAuthority (by simp [Rec.checked]) [p, [n], pad, buf] (b := Auth.encode ⟨.exec p n pad buf, none⟩)
          (by simp [Auth.encode, Cred.encode]) (by simp [Rec.ProgramExecAuthority, Field.bytes, Field.array, Field.u8, c1, c2, c3])
        have e1 : bytesAt _ Rec.ProgramExecAuthority.program_id = p := h2 0 (by decide)
        have e2 : bytesAt _ Rec.ProgramExecAuthority.instruction_prefix_len = [n] := h2 1 (by decide)
        have e3 : bytesAt _ Rec.ProgramExecAuthority.instruction_prefix = buf := h2 3 (by decide)
        exact ⟨h1, n, pad, by unfold numAt; rw [e2]; simp [leNat], by rw [e1, e3]⟩
      all_goals intro h; exact absurd h (by simp [Auth.ty])
    | some s =>
      have hs := hs s rfl
      refine ⟨?_, ?_, ?_, ?_, ?_, ?_, ?_, ?_⟩
      case refine_8 =>
        intro _
        obtain ⟨h1, h2⟩ := held Rec.ProgramExecSessionAuthority (by simp [Rec.checked]) [p, [n], pad, buf, s.key, natLE 8 s.max, natLE 8 s.expiry]
          (b := Auth.encode ⟨.exec p n pad buf, some s⟩) (by simp [Auth.encode, Cred.encode, Session.encode])
          (by simp [Rec.ProgramExecSessionAuthority, Field.bytes, Field.array, Field.u8, Field.u64, c1, c2, c3, hs.key])
        have e1 : bytesAt _ Rec.ProgramExecSessionAuthority.program_id = p := h2 0 (by decide)
        have e2 : bytesAt _ Rec.ProgramExecSessionAuthority.instruction_prefix_len = [n] := h2 1 (by decide)
        have e3 : bytesAt _ Rec.ProgramExecSessionAuthority.instruction_prefix = buf := h2 3 (by decide)
        exact ⟨h1, ⟨n, pad, by unfold numAt; rw [e2]; simp [leNat], by rw [e1, e3]⟩, s, rfl, h2 4 (by decide),
          num_of (h2 5 (by decide)) rfl hs.max, num_of (h2 6 (by decide)) rfl hs.expiry⟩
      all_goals intro h; exact absurd h (by simp [Auth.ty])

/-- A passkey check found good: the offsets record after the two count bytes says that signature, key and message are in the same
instruction, the key at 16 and the message at 113, with its length. -/
theorem C118_offsets (d key msg : Bytes) (h : verifyR1Data d key msg = .ok ()) :
    2 + Rec.Secp256r1SignatureOffsets.size ≤ d.length ∧
    numAt (d.drop 2) Rec.Secp256r1SignatureOffsets.signature_instruction_index = 0xFFFF ∧
    numAt (d.drop 2) Rec.Secp256r1SignatureOffsets.public_key_instruction_index = 0xFFFF ∧
    numAt (d.drop 2) Rec.Secp256r1SignatureOffsets.message_instruction_index = 0xFFFF ∧
    sl d (numAt (d.drop 2) Rec.Secp256r1SignatureOffsets.public_key_offset)
      (numAt (d.drop 2) Rec.Secp256r1SignatureOffsets.public_key_offset + 33) = key ∧
    sl d (numAt (d.drop 2) Rec.Secp256r1SignatureOffsets.message_data_offset)
      (numAt (d.drop 2) Rec.Secp256r1SignatureOffsets.message_data_offset + numAt (d.drop 2) Rec.Secp256r1SignatureOffsets.message_data_size) = msg := by
  have hd : ∀ {s : Span} i j, s = (i, 2) → j = 2 + i → numAt (d.drop 2) s = rd d j 2 := fun i j hs hj => by
    subst hs hj; unfold numAt bytesAt rd sl; rw [List.drop_drop]; congr 2; dsimp only; omega
  rw [hd (s := Rec.Secp256r1SignatureOffsets.signature_instruction_index) 2 4 rfl rfl, hd (s := Rec.Secp256r1SignatureOffsets.public_key_instruction_index) 6 8 rfl rfl,
    hd (s := Rec.Secp256r1SignatureOffsets.message_instruction_index) 12 14 rfl rfl, hd (s := Rec.Secp256r1SignatureOffsets.public_key_offset) 4 6 rfl rfl,
    hd (s := Rec.Secp256r1SignatureOffsets.message_data_offset) 8 10 rfl rfl, hd (s := Rec.Secp256r1SignatureOffsets.message_data_size) 10 12 rfl rfl]
  have h' := verifyR1Data_layout h
  refine ⟨?_, h'.selfSig, h'.selfKey, h'.selfMsg, h'.keyAt, h'.msgAt⟩
  have hz : 2 + Rec.Secp256r1SignatureOffsets.size = 16 := by decide +kernel
  rw [hz]
  unfold verifyR1Data at h
  by_cases h0 : d.length < 16
  · simp only [if_pos h0] at h; cases h
  · omega

/-! ## Stated lengths -/

/-- The lengths the code states for its records (`Transmutable::LEN`) are their sizes, with one exception. -/
theorem C118_lengths_partial : ∀ p ∈ Rec.stated, p.1 ≠ Rec.CreateProgramExecSessionAuthority → p.2 = p.1.size := by decide +kernel

/-- The exception: the record from which a client creates a program-execution session credential has 120 bytes, the length stated for it
is 128.  Viewing it as bytes reads 8 bytes that are not its own. -/
theorem C118_refuted : ¬ (∀ p ∈ Rec.stated, p.2 = p.1.size) ∧
    ∃ p ∈ Rec.stated, p.1 = Rec.CreateProgramExecSessionAuthority ∧ p.1.size = 120 ∧ p.2 = 128 := by decide +kernel

/-- What follows for requests: whoever adds a role with a session must submit the bytes of the creation record, except for program-execution
sessions, where those bytes are refused. -/
theorem C118_session_data {env : Env} {cpi : Cpi} {m m' : Mem} {swig : Meta} {rest : List Meta} {ix : Bytes} {w : Wallet} (ho : Open m swig.key w)
    (hroom : w.roles.length + 1 < 2 ^ 16 ∧ w.roleCounter + 1 < 2 ^ 32) (hx : rd ix 0 2 = 1)
    (e : process env cpi m (swig :: rest) ix = .ok m') :
    let ty := numAt ix Rec.AddAuthorityV1Args.new_authority_type
    let n := numAt ix Rec.AddAuthorityV1Args.new_authority_data_len
    (ty = 2 → n = Rec.CreateEd25519SessionAuthority.size) ∧ (ty = 4 → n = Rec.CreateSecp256k1SessionAuthority.size) ∧
    (ty = 6 → n = Rec.CreateSecp256r1SessionAuthority.size) ∧
    (ty = 8 → n = Rec.CreateProgramExecSessionAuthority.size + 8) := by
  unfold process at e
  obtain ⟨_, _, e1⟩ := bind_ok_iff.mp e
  clear e
  obtain ⟨cls, _, e⟩ := bind_ok_iff.mp e1
  clear e1
  unfold dispatch at e
  split at e
  · cases e
  have e : addAuthorityV1 env m (swig :: rest) ix = .ok m' := by rw [hx] at e; exact e
  match rest, e with
  | payer :: sys :: rest, e =>
    obtain ⟨a, _, cred, as, hp, _, _, hi, _⟩ := addAuthorityV1_enc ho.wf ho.data hroom.1 hroom.2 e
    obtain ⟨h1, _, h2, _⟩ := (C118_fields ix).2.1 a hp
    dsimp only
    rw [← h1, ← h2]
    refine ⟨fun ht => ?_, fun ht => ?_, fun ht => ?_, fun ht => ?_⟩
    all_goals
      rw [ht] at hi
      unfold initialAuth at hi
      simp at hi
    · exact hi.1
    · exact hi.1
    · exact hi.1
    · exact hi.1.1
  | [_], e => cases e
  | [], e => cases e

section
open Sample

/-- A record with padding, refused by the check: byte 1 belongs to no field. -/
example : (⟨8, [.u8, .u32, .u64]⟩ : Record).Valid ∧ ¬ (⟨8, [.u8, .u32, .u64]⟩ : Record).NoPadding ∧
    (⟨8, [.u8, .u32, .u64]⟩ : Record).span 1 = (4, 4) ∧ (⟨8, [.u8, .u32, .u64]⟩ : Record).size = 16 := by
  unfold Record.Valid Record.NoPadding; decide +kernel

/-- Values for the fields of an addition. -/
example : [natLE 2 1, natLE 2 32, natLE 2 16, natLE 2 1, [1], zeros 3, natLE 4 0].map List.length =
    Rec.AddAuthorityV1Args.fields.map Field.size ∧ Rec.AddAuthorityV1Args ∈ Rec.checked := by decide +kernel

/-- The theorems apply to an accepted addition. -/
example : Open (mem afterPay) (K 1) afterPay ∧ Fine signEnv demoCpi (mem afterPay) (metas (K 10)) addIx ∧
    (∃ m', process signEnv demoCpi (mem afterPay) (metas (K 10)) addIx = .ok m') ∧ rd addIx 0 2 = 1 ∧ namedRole addIx = 0 ∧
    fixedPart addIx < addIx.length :=
  ⟨⟨rfl, by decide +kernel, rfl⟩, fine (env := signEnv) (w := afterPay) (fun _ => rfl) (by decide) ⟨rfl, by decide +kernel, rfl⟩ (mem_typed _) rfl (by decide)
    (by decide), exists_of_ok (by decide +kernel), by decide +kernel, by decide +kernel, by decide +kernel⟩

end

end Verif
