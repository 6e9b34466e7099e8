import Verif.Model.Process

/-!
Functions that never read outside their buffers: the part of the program without unchecked accesses.  `Safe a` says that the
computation `a` does not end in `Err.ub`.
-/

namespace Verif

structure Safe {α : Type} (a : R α) : Prop where
  ne : a ≠ .error .ub

section
variable {α β : Type}

theorem Safe.ok (x : α) : Safe (.ok x : R α) := ⟨fun h => by cases h⟩

theorem Safe.error {e : Err} (h : e ≠ .ub) : Safe (.error e : R α) := ⟨fun k => by cases k; exact h rfl⟩

theorem Safe.bind {a : R α} {f : α → R β} (ha : Safe a) (hf : ∀ x, a = .ok x → Safe (f x)) : Safe (a >>= f) := by
  cases a with
  | ok x => exact hf x rfl
  | error e => exact ⟨fun h => ha.ne (by cases h; rfl)⟩

theorem Safe.ite {c : Prop} [Decidable c] {a b : R α} (ha : c → Safe a) (hb : ¬ c → Safe b) : Safe (if c then a else b) := by
  by_cases h : c
  · rw [if_pos h]; exact ha h
  · rw [if_neg h]; exact hb h

theorem Safe.of_eq {a b : R α} (h : a = b) (hb : Safe b) : Safe a := h ▸ hb

theorem Safe.of_ok {a : R α} {x : α} (h : a = .ok x) : Safe a := h ▸ Safe.ok x

theorem require_safe {c : Prop} [Decidable c] {e : Err} (h : e ≠ .ub) : Safe (require c e) := by
  unfold require; split
  · exact .ok _
  · exact .error h

theorem getOr_safe {l : List α} {i : Nat} {e : Err} (h : e ≠ .ub) : Safe (getOr l i e) := by
  unfold getOr; split
  · exact .ok _
  · exact .error h

theorem orErr_safe {o : Option α} {e : Err} (h : e ≠ .ub) : Safe (orErr o e) := by
  unfold orErr; split
  · exact .ok _
  · exact .error h

theorem slice_safe {b : Bytes} {i j : Nat} : Safe (slice b i j) := by
  unfold slice; split
  · exact .ok _
  · exact .error (by decide)

theorem write_safe {b v : Bytes} {i : Nat} : Safe (write b i v) := by
  unfold write; split
  · exact .ok _
  · exact .error (by decide)

end

/-- One step of a safety proof; extended below by every function shown to be safe. -/
syntax "safe_step" : tactic

macro_rules | `(tactic| safe_step) => `(tactic| split)
macro_rules | `(tactic| safe_step) => `(tactic| with_reducible apply Safe.ite)
macro_rules | `(tactic| safe_step) => `(tactic| with_reducible apply Safe.bind)
macro_rules | `(tactic| safe_step) => `(tactic| intro _)
macro_rules | `(tactic| safe_step) => `(tactic| with_reducible exact Safe.ok _)
macro_rules | `(tactic| safe_step) => `(tactic| with_reducible exact Safe.error (by decide))
macro_rules | `(tactic| safe_step) => `(tactic| with_reducible exact require_safe (by decide))
macro_rules | `(tactic| safe_step) => `(tactic| with_reducible exact getOr_safe (by decide))
macro_rules | `(tactic| safe_step) => `(tactic| with_reducible exact orErr_safe (by decide))
macro_rules | `(tactic| safe_step) => `(tactic| with_reducible exact slice_safe)
macro_rules | `(tactic| safe_step) => `(tactic| with_reducible exact write_safe)
macro_rules | `(tactic| safe_step) => `(tactic| with_reducible assumption)

/-- Follow the structure of the computation. -/
macro "safe" : tactic => `(tactic| repeat' safe_step)

/-! ## Actions -/

theorem permission_safe {ty : Nat} : Safe (permission ty) := by unfold permission; safe
macro_rules | `(tactic| safe_step) => `(tactic| with_reducible exact permission_safe)

theorem validateLayout_safe {ty : Nat} {d : Bytes} : Safe (validateLayout ty d) := by
  unfold validateLayout validRecurring32 validTokenRecurring; safe
macro_rules | `(tactic| safe_step) => `(tactic| with_reducible exact validateLayout_safe)

theorem calcActionsGo_safe : ∀ {fuel : Nat} {b : Bytes} {n : Nat}, Safe (calcActionsGo fuel b n) := by
  intro fuel
  induction fuel with
  | zero => intro b n; unfold calcActionsGo; safe
  | succ k ih => intro b n; unfold calcActionsGo; dsimp only; safe; all_goals apply ih

theorem calcActions_safe {b : Bytes} : Safe (calcActions b) := by
  unfold calcActions
  exact .bind calcActionsGo_safe fun _ _ => by safe
macro_rules | `(tactic| safe_step) => `(tactic| with_reducible exact calcActions_safe)

theorem dedupKeysGo_safe : ∀ {fuel : Nat} {b : Bytes}, Safe (dedupKeysGo fuel b) := by
  intro fuel
  induction fuel with
  | zero => intro b; unfold dedupKeysGo; safe
  | succ k ih => intro b; unfold dedupKeysGo; dsimp only; safe; all_goals apply ih

theorem rejectDupV2_safe {b : Bytes} : Safe (rejectDupV2 b) := by
  unfold rejectDupV2
  exact .bind dedupKeysGo_safe fun _ _ => by safe
macro_rules | `(tactic| safe_step) => `(tactic| with_reducible exact rejectDupV2_safe)

theorem findActionGo_safe {ty len : Nat} {b : Bytes} : ∀ {fuel c : Nat}, Safe (findActionGo ty len b fuel c) := by
  intro fuel
  induction fuel with
  | zero => intro c; unfold findActionGo; safe
  | succ k ih => intro c; unfold findActionGo; safe; all_goals apply ih
macro_rules | `(tactic| safe_step) => `(tactic| with_reducible exact findActionGo_safe)

theorem matchData_safe {ty : Nat} {d key : Bytes} : Safe (matchData ty d key) := by unfold matchData; safe
macro_rules | `(tactic| safe_step) => `(tactic| with_reducible exact matchData_safe)

/-! ## Roles -/

theorem authTypeOf_safe {n : Nat} : Safe (authTypeOf n) := by unfold authTypeOf; safe
macro_rules | `(tactic| safe_step) => `(tactic| with_reducible exact authTypeOf_safe)

theorem setAuthority_safe {ty : Nat} {c old : Bytes} : Safe (setAuthority ty c old) := by
  unfold setAuthority; dsimp only; safe
macro_rules | `(tactic| safe_step) => `(tactic| with_reducible exact setAuthority_safe)

theorem rolesEndGo_safe {b : Bytes} : ∀ {n c : Nat}, Safe (rolesEndGo b n c) := by
  intro n
  induction n with
  | zero => intro c; unfold rolesEndGo; safe
  | succ k ih => intro c; unfold rolesEndGo; safe; all_goals apply ih
macro_rules | `(tactic| safe_step) => `(tactic| with_reducible exact rolesEndGo_safe)

theorem rolesEndOffset_safe {d : Bytes} : Safe (rolesEndOffset d) := by unfold rolesEndOffset; safe
macro_rules | `(tactic| safe_step) => `(tactic| with_reducible exact rolesEndOffset_safe)

theorem splitParts_safe {d : Bytes} : Safe (splitParts d) := by unfold splitParts; safe
macro_rules | `(tactic| safe_step) => `(tactic| with_reducible exact splitParts_safe)

theorem openSwig_safe {d : Bytes} : Safe (openSwig d) := by unfold openSwig; safe
macro_rules | `(tactic| safe_step) => `(tactic| with_reducible exact openSwig_safe)

theorem findRoleGo_safe {b : Bytes} {id : Nat} : ∀ {fuel c : Nat}, Safe (findRoleGo b id fuel c) := by
  intro fuel
  induction fuel with
  | zero => intro c; unfold findRoleGo; safe
  | succ k ih => intro c; unfold findRoleGo; safe; all_goals apply ih

theorem lastBoundaryGo_safe {b : Bytes} : ∀ {n c : Nat}, Safe (lastBoundaryGo b n c) := by
  intro n
  induction n with
  | zero => intro c; unfold lastBoundaryGo; safe
  | succ k ih => intro c; unfold lastBoundaryGo; safe; all_goals apply ih
macro_rules | `(tactic| safe_step) => `(tactic| with_reducible exact lastBoundaryGo_safe)

theorem writeActionsGo_safe {acts : Bytes} {start : Nat} : ∀ {n ac cur : Nat} {buf : Bytes}, Safe (writeActionsGo acts start n ac cur buf) := by
  intro n
  induction n with
  | zero => intro ac cur buf; unfold writeActionsGo; safe
  | succ k ih => intro ac cur buf; unfold writeActionsGo; dsimp only; safe; all_goals apply ih
macro_rules | `(tactic| safe_step) => `(tactic| with_reducible exact writeActionsGo_safe)

theorem addRole_safe {s : Builder} {ty : Nat} {a acts : Bytes} : Safe (addRole s ty a acts) := by
  unfold addRole writePosition; safe
macro_rules | `(tactic| safe_step) => `(tactic| with_reducible exact addRole_safe)

theorem removeScanGo_safe {b : Bytes} {id : Nat} : ∀ {n c : Nat} {f : Option (Nat × Nat)}, Safe (removeScanGo b id n c f) := by
  intro n
  induction n with
  | zero => intro c f; unfold removeScanGo; safe
  | succ k ih =>
    intro c f; unfold removeScanGo
    by_cases h1 : c ≥ b.length
    · rw [if_pos h1]; safe
    · rw [if_neg h1]
      by_cases h2 : c + 16 > b.length
      · rw [if_pos h2]; safe
      · rw [if_neg h2]
        by_cases h3 : pBoundary b c > b.length
        · rw [if_pos h3]; safe
        · rw [if_neg h3]; exact ih
macro_rules | `(tactic| safe_step) => `(tactic| with_reducible exact removeScanGo_safe)

theorem removeFixGo_safe {r e : Nat} : ∀ {n c : Nat} {b : Bytes}, Safe (removeFixGo r e n c b) := by
  intro n
  induction n with
  | zero => intro c b; unfold removeFixGo; safe
  | succ k ih => intro c b; unfold removeFixGo; dsimp only; safe; all_goals apply ih
macro_rules | `(tactic| safe_step) => `(tactic| with_reducible exact removeFixGo_safe)

theorem removeRole_safe {s : Builder} {id : Nat} : Safe (removeRole s id) := by
  unfold removeRole; safe
macro_rules | `(tactic| safe_step) => `(tactic| with_reducible exact removeRole_safe)

/-! ## Tail, runtime -/

theorem claimerEntryRead_safe {b : Bytes} : Safe (claimerEntryRead b) := by unfold claimerEntryRead; dsimp only; safe
macro_rules | `(tactic| safe_step) => `(tactic| with_reducible exact claimerEntryRead_safe)

theorem claimerReadStrict_safe {b : Bytes} : Safe (claimerReadStrict b) := by unfold claimerReadStrict; safe
macro_rules | `(tactic| safe_step) => `(tactic| with_reducible exact claimerReadStrict_safe)

theorem savedTailTake_safe {b : Bytes} : Safe (savedTailTake b) := by unfold savedTailTake; safe
macro_rules | `(tactic| safe_step) => `(tactic| with_reducible exact savedTailTake_safe)

theorem restoreAt_safe {s d : Bytes} {o : Nat} : Safe (restoreAt s d o) := by unfold restoreAt; safe
macro_rules | `(tactic| safe_step) => `(tactic| with_reducible exact restoreAt_safe)

theorem restoreTail_safe {s d : Bytes} : Safe (restoreTail s d) := by unfold restoreTail; safe
macro_rules | `(tactic| safe_step) => `(tactic| with_reducible exact restoreTail_safe)

theorem settleTail_safe {s d : Bytes} : Safe (settleTail s d) := by unfold settleTail; safe
macro_rules | `(tactic| safe_step) => `(tactic| with_reducible exact settleTail_safe)

theorem realloc_safe {m : Mem} {k : Key} {n : Nat} : Safe (realloc m k n) := by unfold realloc; safe
macro_rules | `(tactic| safe_step) => `(tactic| with_reducible exact realloc_safe)

theorem sysTransfer_safe {m : Mem} {a b : Meta} {n : Nat} : Safe (sysTransfer m a b n) := by unfold sysTransfer; safe
macro_rules | `(tactic| safe_step) => `(tactic| with_reducible exact sysTransfer_safe)

theorem sysCreate_safe {m : Mem} {a b : Meta} {l s : Nat} {o : Key} : Safe (sysCreate m a b l s o) := by unfold sysCreate; safe
macro_rules | `(tactic| safe_step) => `(tactic| with_reducible exact sysCreate_safe)

theorem signedTransfer_safe {env : Env} {m : Mem} {s : List Bytes} {a b : Meta} {n : Nat} : Safe (signedTransfer env m s a b n) := by
  unfold signedTransfer; safe
macro_rules | `(tactic| safe_step) => `(tactic| with_reducible exact signedTransfer_safe)

theorem sysAllocAssign_safe {env : Env} {m : Mem} {s : List Bytes} {a : Meta} {n : Nat} {o : Key} :
    Safe (sysAllocAssign env m s a n o) := by
  unfold sysAllocAssign; safe
macro_rules | `(tactic| safe_step) => `(tactic| with_reducible exact sysAllocAssign_safe)

theorem findPda_safe {env : Env} {s : List Bytes} : Safe (findPda env s) := by unfold findPda; safe
macro_rules | `(tactic| safe_step) => `(tactic| with_reducible exact findPda_safe)

theorem checkSelfPda_safe {env : Env} {s : List Bytes} {b : UInt8} {k : Key} {e : Err} (h : e ≠ .ub) :
    Safe (checkSelfPda env s b k e) := by
  unfold checkSelfPda
  split
  · safe
  · split
    · safe
    · exact .error h
macro_rules | `(tactic| safe_step) => `(tactic| with_reducible exact checkSelfPda_safe (by decide))

theorem topUp_safe {env : Env} {m : Mem} {a b : Meta} {n : Nat} : Safe (topUp env m a b n) := by unfold topUp; dsimp only; safe
macro_rules | `(tactic| safe_step) => `(tactic| with_reducible exact topUp_safe)

theorem fundWallet_safe {env : Env} {m : Mem} {a b : Meta} : Safe (fundWallet env m a b) := by unfold fundWallet; dsimp only; safe
macro_rules | `(tactic| safe_step) => `(tactic| with_reducible exact fundWallet_safe)

theorem fundEmpty_safe {env : Env} {m : Mem} {a b : Meta} : Safe (fundEmpty env m a b) := fundWallet_safe
macro_rules | `(tactic| safe_step) => `(tactic| with_reducible exact fundEmpty_safe)

theorem fundState_safe {env : Env} {m : Mem} {a b : Meta} : Safe (fundState env m a b) := by unfold fundState; safe
macro_rules | `(tactic| safe_step) => `(tactic| with_reducible exact fundState_safe)

theorem growFor_safe {env : Env} {m : Mem} {a b : Meta} {n : Nat} : Safe (growFor env m a b n) := by unfold growFor; dsimp only; safe
macro_rules | `(tactic| safe_step) => `(tactic| with_reducible exact growFor_safe)

theorem shrinkBy_safe {env : Env} {m : Mem} {a b : Key} {n : Nat} : Safe (shrinkBy env m a b n) := by unfold shrinkBy; dsimp only; safe
macro_rules | `(tactic| safe_step) => `(tactic| with_reducible exact shrinkBy_safe)

/-! ## Updating -/

theorem replaceFixOne_safe {acts : Bytes} {a b c d e : Nat} {buf : Bytes} : Safe (replaceFixOne acts a b c d e buf) := by
  unfold replaceFixOne; dsimp only; safe
macro_rules | `(tactic| safe_step) => `(tactic| with_reducible exact replaceFixOne_safe)

theorem replaceFixGo_safe {acts : Bytes} {a b c d e : Nat} : ∀ {n x : Nat} {buf : Bytes}, Safe (replaceFixGo acts a b c d e n x buf) := by
  intro n
  induction n with
  | zero => intro x buf; unfold replaceFixGo; safe
  | succ k ih => intro x buf; unfold replaceFixGo; safe; all_goals apply ih
macro_rules | `(tactic| safe_step) => `(tactic| with_reducible exact replaceFixGo_safe)

theorem copyActionsGo_safe {s : Nat} : ∀ {n : Nat} {acts : Bytes} {c : Nat} {buf : Bytes}, Safe (copyActionsGo s n acts c buf) := by
  intro n
  induction n with
  | zero => intro acts c buf; unfold copyActionsGo; safe
  | succ k ih => intro acts c buf; unfold copyActionsGo; dsimp only; safe; all_goals apply ih
macro_rules | `(tactic| safe_step) => `(tactic| with_reducible exact copyActionsGo_safe)

theorem replaceAll_safe {buf : Bytes} {a b c d e : Nat} {acts : Bytes} : Safe (replaceAll buf a b c d acts e) := by
  unfold replaceAll replacePrepare replaceShift; dsimp only; safe
macro_rules | `(tactic| safe_step) => `(tactic| with_reducible exact replaceAll_safe)

theorem filterActionsGo_safe {t : Bool} {keep : Nat → Nat → Bool} : ∀ {n i : Nat} {acts : Bytes}, Safe (filterActionsGo t keep n i acts) := by
  intro n
  induction n with
  | zero => intro i acts; unfold filterActionsGo; safe
  | succ k ih => intro i acts; unfold filterActionsGo; dsimp only; safe; all_goals apply ih
macro_rules | `(tactic| safe_step) => `(tactic| with_reducible exact filterActionsGo_safe)

theorem newActions_safe {buf : Bytes} {a c : Nat} {op : UpdateOp} : Safe (op.newActions buf a c) := by
  cases op <;> unfold UpdateOp.newActions
  · safe
  · unfold addedActions; safe
  · unfold filteredActions; safe
  · unfold filteredActions; safe
macro_rules | `(tactic| safe_step) => `(tactic| with_reducible exact newActions_safe)

theorem updateData_safe {d t : Bytes} {a b c e f : Nat} {op : UpdateOp} : Safe (updateData d t a b c e f op) := by
  unfold updateData; dsimp only; safe
macro_rules | `(tactic| safe_step) => `(tactic| with_reducible exact updateData_safe)

theorem addData_safe {d t : Bytes} {ty : Nat} {a acts : Bytes} : Safe (addData d t ty a acts) := by
  unfold addData; safe
macro_rules | `(tactic| safe_step) => `(tactic| with_reducible exact addData_safe)

theorem createData_safe {d : Bytes} {c : CreateIx} : Safe (createData d c) := by
  unfold createData; safe
macro_rules | `(tactic| safe_step) => `(tactic| with_reducible exact createData_safe)

/-! ## Instruction data -/

theorem parseCreate_safe {ix : Bytes} : Safe (parseCreate ix) := by unfold parseCreate; dsimp only; safe
theorem parseAdd_safe {ix : Bytes} : Safe (parseAdd ix) := by unfold parseAdd; dsimp only; safe
theorem parseRemove_safe {ix : Bytes} : Safe (parseRemove ix) := by unfold parseRemove; safe
theorem parseUpdate_safe {ix : Bytes} : Safe (parseUpdate ix) := by unfold parseUpdate updateOp; dsimp only; safe
theorem parseClaimer_safe {ix : Bytes} : Safe (parseClaimer ix) := by unfold parseClaimer; safe
theorem parseSession_safe {ix : Bytes} : Safe (parseSession ix) := by unfold parseSession; safe
theorem parseReplace_safe {ix : Bytes} : Safe (parseReplace ix) := by unfold parseReplace; dsimp only; safe
theorem parseSign_safe {ix : Bytes} : Safe (parseSign ix) := by unfold parseSign; dsimp only; safe
theorem parseSubSign_safe {ix : Bytes} : Safe (parseSubSign ix) := by unfold parseSubSign; dsimp only; safe
theorem parseSubSignV2_safe {ix : Bytes} : Safe (parseSubSignV2 ix) := by unfold parseSubSignV2; dsimp only; safe
theorem parseRoleIx_safe {ix : Bytes} {e : Err} (h : e ≠ .ub) : Safe (parseRoleIx ix e) := by
  unfold parseRoleIx; split
  · exact .error h
  · exact .ok _
macro_rules | `(tactic| safe_step) => `(tactic| with_reducible exact parseCreate_safe)
macro_rules | `(tactic| safe_step) => `(tactic| with_reducible exact parseAdd_safe)
macro_rules | `(tactic| safe_step) => `(tactic| with_reducible exact parseRemove_safe)
macro_rules | `(tactic| safe_step) => `(tactic| with_reducible exact parseUpdate_safe)
macro_rules | `(tactic| safe_step) => `(tactic| with_reducible exact parseClaimer_safe)
macro_rules | `(tactic| safe_step) => `(tactic| with_reducible exact parseSession_safe)
macro_rules | `(tactic| safe_step) => `(tactic| with_reducible exact parseReplace_safe)
macro_rules | `(tactic| safe_step) => `(tactic| with_reducible exact parseSign_safe)
macro_rules | `(tactic| safe_step) => `(tactic| with_reducible exact parseSubSign_safe)
macro_rules | `(tactic| safe_step) => `(tactic| with_reducible exact parseSubSignV2_safe)
macro_rules | `(tactic| safe_step) => `(tactic| with_reducible exact parseRoleIx_safe (by decide))

/-! ## Credentials that do not look at the instructions sysvar -/

theorem ed25519Auth_safe {metas : List Meta} {i : Nat} {k : Key} : Safe (ed25519Auth metas i k) := by unfold ed25519Auth; safe
macro_rules | `(tactic| safe_step) => `(tactic| with_reducible exact ed25519Auth_safe)

theorem k1Authenticate_safe {env : Env} {a : Bytes} {metas : List Meta} {p d : Bytes} : Safe (k1Authenticate env a metas p d) := by
  unfold k1Authenticate k1Core; dsimp only; safe
macro_rules | `(tactic| safe_step) => `(tactic| with_reducible exact k1Authenticate_safe)

theorem jsonFields_safe {c o : Bytes} : ∀ {l : Bytes}, Safe (jsonFields c o l) := by
  intro l
  induction l with
  | nil => unfold jsonFields; safe
  | cons x xs ih => unfold jsonFields jsonField; safe
macro_rules | `(tactic| safe_step) => `(tactic| with_reducible exact jsonFields_safe)

theorem huffGo_safe {t : Bytes} {r w : Nat} : ∀ {l : List Bool} {n : Nat} {o : Bytes}, Safe (huffGo t r w l n o) := by
  intro l
  induction l with
  | nil => intro n o; unfold huffGo; safe
  | cons x xs ih =>
    intro n o; unfold huffGo
    dsimp only
    generalize (if x = true then t.getD (n * 3 + 2) 0 else t.getD (n * 3 + 1) 0).toNat = y
    safe
    all_goals apply ih
macro_rules | `(tactic| safe_step) => `(tactic| with_reducible exact huffGo_safe)

theorem extractGo_safe {name : Bytes} : ∀ {n d : Nat} {l : Bytes}, Safe (extractGo name n d l) := by
  intro n
  induction n with
  | zero => intro d l; unfold extractGo; safe
  | succ k ih =>
    intro d l
    cases l with
    | nil => unfold extractGo; safe
    | cons b r =>
      unfold extractGo
      safe
      all_goals apply ih
macro_rules | `(tactic| safe_step) => `(tactic| with_reducible exact extractGo_safe)

theorem extractField_safe {j n : Bytes} : Safe (extractField j n) := by unfold extractField; safe
macro_rules | `(tactic| safe_step) => `(tactic| with_reducible exact extractField_safe)

theorem r1Message_safe {env : Env} {h e : Bytes} : Safe (r1Message env h e) := by
  unfold r1Message webauthnMessage webauthnRawMessage validFieldOrder decodeHuffman reconstructJson
  dsimp only
  safe
macro_rules | `(tactic| safe_step) => `(tactic| with_reducible exact r1Message_safe)

theorem verifyR1Data_safe {d k m : Bytes} : Safe (verifyR1Data d k m) := by
  unfold verifyR1Data; dsimp only; safe
macro_rules | `(tactic| safe_step) => `(tactic| with_reducible exact verifyR1Data_safe)

theorem startSession_safe {ty : Nat} {a : Bytes} {k : Key} {s d : Nat} : Safe (startSession ty a k s d) := by
  unfold startSession; safe
macro_rules | `(tactic| safe_step) => `(tactic| with_reducible exact startSession_safe)

theorem authenticateSession_safe {env : Env} {ty : Nat} {a : Bytes} {metas : List Meta} {p : Bytes} :
    Safe (authenticateSession env ty a metas p) := by
  unfold authenticateSession sessionPayloadOk; safe
macro_rules | `(tactic| safe_step) => `(tactic| with_reducible exact authenticateSession_safe)

/-! ## Calls, inner instructions -/

/-- The called programs report no undefined behaviour of ours. -/
def CallsDefined (cpi : Cpi) : Prop := ∀ m c, cpi m c ≠ .error .ub

theorem invokeSigned_safe {env : Env} {cpi : Cpi} (hc : CallsDefined cpi) {m : Mem} {o : List Meta} {c : CpiIx} {s : List Bytes} :
    Safe (invokeSigned env cpi m o c s) := by
  unfold invokeSigned
  split
  · safe
  · split
    · exact ⟨hc _ _⟩
    · safe

theorem tokenTransfer_safe {env : Env} {cpi : Cpi} (hc : CallsDefined cpi) {m : Mem} {o : List Meta} {p a b c : Key} {n : Nat}
    {s : List Bytes} : Safe (tokenTransfer env cpi m o p a b c n s) := invokeSigned_safe hc

theorem tokenClose_safe {env : Env} {cpi : Cpi} (hc : CallsDefined cpi) {m : Mem} {o : List Meta} {p a b c : Key}
    {s : List Bytes} : Safe (tokenClose env cpi m o p a b c s) := invokeSigned_safe hc

theorem innerAccountsGo_safe {metas : List Meta} {s : Key} {r : List Key} {b : Bytes} : ∀ {n i c : Nat},
    Safe (innerAccountsGo metas s r b n i c) := by
  intro n
  induction n with
  | zero => intro i c; unfold innerAccountsGo; safe
  | succ k ih => intro i c; unfold innerAccountsGo readU8; safe; all_goals apply ih
macro_rules | `(tactic| safe_step) => `(tactic| with_reducible exact innerAccountsGo_safe)

theorem parseNext_safe {metas : List Meta} {s : Key} {r : List Key} {b : Bytes} {c : Nat} : Safe (parseNext metas s r b c) := by
  unfold parseNext readU8 readU16 readSlice; safe
macro_rules | `(tactic| safe_step) => `(tactic| with_reducible exact parseNext_safe)

theorem decodeGo_safe {metas : List Meta} {s : Key} {r : List Key} {b : Bytes} : ∀ {n c : Nat}, Safe (decodeGo metas s r b n c) := by
  intro n
  induction n with
  | zero => intro c; unfold decodeGo; safe
  | succ k ih => intro c; unfold decodeGo; safe; all_goals apply ih

theorem decodeIxs_safe {metas : List Meta} {s : Key} {r : List Key} {b : Bytes} : Safe (decodeIxs metas s r b) := by
  unfold decodeIxs
  split
  · exact .error (by decide)
  · exact decodeGo_safe
macro_rules | `(tactic| safe_step) => `(tactic| with_reducible exact decodeIxs_safe)

theorem checkRent_safe {env : Env} {m : Mem} {k : Key} : Safe (checkRent env m k) := by unfold checkRent; safe
macro_rules | `(tactic| safe_step) => `(tactic| with_reducible exact checkRent_safe)

/-! ## Version 2 sub-accounts -/

theorem hasScopedGo_safe {ty id : Nat} {acc : Bool} : ∀ {n : Nat} {b : Bytes}, Safe (hasScopedGo ty id acc n b) := by
  intro n
  induction n with
  | zero => intro b; unfold hasScopedGo; safe
  | succ k ih => intro b; unfold hasScopedGo; dsimp only; safe; all_goals apply ih

theorem hasScoped_safe {ty id : Nat} {acc : Bool} {b : Bytes} : Safe (hasScoped ty id acc b) := hasScopedGo_safe
macro_rules | `(tactic| safe_step) => `(tactic| with_reducible exact hasScoped_safe)

theorem authorizeScoped_safe {ty id : Nat} {b : Bytes} : Safe (authorizeScoped ty id b) := by unfold authorizeScoped; safe
macro_rules | `(tactic| safe_step) => `(tactic| with_reducible exact authorizeScoped_safe)

theorem validateState_safe {env : Env} {m : Mem} {a b c : Key} {n : Nat} : Safe (validateState env m a b c n) := by
  unfold validateState loadSubState SubState.isEnabled; safe
macro_rules | `(tactic| safe_step) => `(tactic| with_reducible exact validateState_safe)

theorem toggleState_safe {env : Env} {m : Mem} {a b : Key} {n : Nat} : Safe (toggleState env m a b n) := by
  unfold toggleState loadSubState SubState.isEnabled; safe
macro_rules | `(tactic| safe_step) => `(tactic| with_reducible exact toggleState_safe)

theorem openSwigV2_safe {d : Bytes} (h : d ≠ []) : Safe (openSwigV2 d) := by
  unfold openSwigV2
  exact .bind (by unfold require; rw [if_pos h]; exact .ok _) fun _ _ => by safe

theorem openSwigU_safe {d : Bytes} (h : d ≠ []) : Safe (openSwigU d) := by
  unfold openSwigU
  rw [if_neg h]
  safe

theorem checkWithdrawTokens_safe {m : Mem} {a b c d e : Key} : Safe (checkWithdrawTokens m a b c d e) := by
  unfold checkWithdrawTokens; safe
macro_rules | `(tactic| safe_step) => `(tactic| with_reducible exact checkWithdrawTokens_safe)

theorem findSubRole_safe {env : Env} {a b : Key} : ∀ {n i : Nat}, Safe (findSubRole env a b n i) := by
  intro n
  induction n with
  | zero => intro i; unfold findSubRole; safe
  | succ k ih => intro i; unfold findSubRole; safe; all_goals apply ih

theorem withdrawSigner_safe {env : Env} {h : Header} {k : Key} {s : Option SubAct} : Safe (withdrawSigner env h k s) := by
  unfold withdrawSigner
  split
  · safe
  · exact findSubRole_safe
macro_rules | `(tactic| safe_step) => `(tactic| with_reducible exact withdrawSigner_safe)

theorem withdrawSol_safe {env : Env} {m : Mem} {a b : Meta} {n : Nat} {s : List Bytes} : Safe (withdrawSol env m a b n s) := by
  unfold withdrawSol; safe
macro_rules | `(tactic| safe_step) => `(tactic| with_reducible exact withdrawSol_safe)

theorem closeTokenCheck_safe {m : Mem} {p : Key} {v : Bool} {a b c : Key} : Safe (closeTokenCheck m p v a b c) := by
  unfold closeTokenCheck; dsimp only
  generalize (if v = true then b else a) = e
  generalize (if v = true then a else b) = f
  safe
macro_rules | `(tactic| safe_step) => `(tactic| with_reducible exact closeTokenCheck_safe)

theorem drainWallet_safe {env : Env} {m : Mem} {a : Key} {b : UInt8} {c d : Meta} : Safe (drainWallet env m a b c d) := by
  unfold drainWallet; safe
macro_rules | `(tactic| safe_step) => `(tactic| with_reducible exact drainWallet_safe)

theorem createV1_safe {env : Env} {m : Mem} {metas : List Meta} {ix : Bytes} : Safe (createV1 env m metas ix) := by
  unfold createV1 createChecks
  dsimp only
  safe

end Verif
