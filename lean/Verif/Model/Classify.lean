import Verif.Model.Runtime
import Verif.Model.Swig
import Verif.Model.Limits

/-!
# Account classification

`program/src/lib.rs` (`execute`, `classify_account`) and the program-scope cache of `program/src/util/mod.rs`: before any handler
runs, every account of the instruction is classified.
-/

namespace Verif

/-- `AccountClassification`, state/src/lib.rs:57-101 (`SwigSubAccount` is never built). -/
inductive Class where
  | none
  | thisSwig (lamports : Nat)
  | wallet
  | token (balance spent : Nat)
  | stake (state balance lamports spent : Nat)
  | scope (role balance spent : Nat)
  deriving DecidableEq, Repr

/-- `ProgramScope` in its stored bytes, state/src/action/program_scope.rs:88-109. -/
def ProgramScope.decode (d : Bytes) : ProgramScope where
  currentAmount := rd d 0 16
  limit := rd d 16 16
  window := rd d 32 8
  lastReset := rd d 40 8
  programId := sl d 48 80
  targetAccount := sl d 80 112
  scopeType := rd d 112 8
  numericType := rd d 120 8
  balanceFieldStart := rd d 128 8
  balanceFieldEnd := rd d 136 8

/-- `is_swig_config_account`, program/src/lib.rs:139-146. -/
def isConfig (m : Mem) (k : Key) : Bool :=
  decide ((m k).owner = swigId) && decide (48 ≤ (m k).data.length) && (m k).data.getD 0 0 == 1

/-- Action loop of `ProgramScopeCache::load_from_swig`, program/src/util/mod.rs:78-131: the 144-byte program-scope payloads, walking by
the stored lengths.  Each turn consumes at least 8 bytes, so `fuel = length` suffices. -/
def scopesOfGo (acts : Bytes) : Nat → Nat → List Bytes
  | 0, _ => []
  | fuel + 1, c =>
    if c + 8 > acts.length ∨ c + 8 + aLen acts c > acts.length then []
    else if aType acts c = P.programScope ∧ aLen acts c = 144 then
      sl acts (c + 8) (c + 152) :: scopesOfGo acts fuel (c + 8 + aLen acts c)
    else scopesOfGo acts fuel (c + 8 + aLen acts c)

/-- What one role contributes to the cache: `if let Ok(Some(role)) = get_role(role_id)`, program/src/util/mod.rs:76-77. -/
def scopesOfRole (data : Bytes) (id : Nat) : List (Nat × Bytes) :=
  match getRole data id with
  | .ok (some r) => (scopesOfGo r.actions r.actions.length 0).map fun d => (id % 256, d)
  | _ => []

/-- `ProgramScopeCache::load_from_swig`, program/src/util/mod.rs:67-136: the scopes of all roles, by role id, with the role id
truncated to `u8`.  `None` if the account cannot be split.  (An unchecked read outside the data inside `get_role` is taken as
"no role"; it cannot happen on the data of a wallet.) -/
def loadScopes (data : Bytes) : Option (List (Nat × Bytes)) :=
  match splitParts data with
  | .ok _ => some ((List.range (Header.decode data).roleCounter).flatMap (scopesOfRole data))
  | .error _ => Option.none

/-- `find_program_scope`, program/src/util/mod.rs:148-161: the first entry for the account. -/
def findScope (c : List (Nat × Bytes)) (k : Key) : Option (Nat × Bytes) := c.find? fun e => sl e.2 80 112 == k

/-- `read_program_scope_account_balance`, program/src/util/mod.rs:191-226. -/
def readScopeBalance (data : Bytes) (s : ProgramScope) : R Nat :=
  if s.scopeType = 0 then .ok 0
  else if data.length < s.balanceFieldEnd then .error E.invalidProgramScopeBalanceFields
  else match numericWidth s.numericType with
    | Option.none => .error E.invalidProgramScopeBalanceFields
    | some w =>
      if wsub64 s.balanceFieldEnd s.balanceFieldStart ≠ w then .error E.invalidProgramScopeBalanceFields
      else if s.balanceFieldStart + w ≤ data.length then .ok (rd data s.balanceFieldStart w)
      else .error .ub

/-- The account named as owner or withdrawer is the first account, or the second if that is classified as wallet address,
program/src/lib.rs:418-437, 472-491. -/
def ownedBy (prev : List Meta) (cls : List Class) (k : Key) : Bool :=
  (match prev[0]? with | some a => a.key == k | Option.none => false) ||
  (match prev[1]?, cls[1]? with | some a, some Class.wallet => a.key == k | _, _ => false)

/-- `classify_account`, program/src/lib.rs:364-524 (without the `program_scope_test` feature).  `prev` and `cls` are the accounts
before this one and their classifications; the index is their number. -/
def classify (m : Mem) (prev : List Meta) (cls : List Class) (cache : Option (List (Nat × Bytes))) (a : Meta) : R Class :=
  let i := prev.length
  let d := (m a.key).data
  let o := (m a.key).owner
  let first := match prev[0]? with | some f => isConfig m f.key | Option.none => false
  if o = swigId then
    if isConfig m a.key = false then .ok .none
    else if i = 0 then .ok (.thisSwig (m a.key).lamports)
    else if first then .ok .none
    else .error E.invalidAccountsSwigMustBeFirst
  else if o = systemId ∧ i = 1 then .ok (if first then .wallet else .none)
  else if o = stakeId then
    if i = 0 ∨ d.length < 200 then .ok .none
    else if ownedBy prev cls (sl d 44 76) = false then .ok .none
    else if rd d 0 4 > 3 then .error .invalidAccountData
    else .ok (.stake (rd d 0 4) (rd d 156 8) (m a.key).lamports 0)
  else if (o = token2022Id ∨ o = tokenId) ∧ i > 0 ∧ 165 ≤ d.length then
    if ownedBy prev cls (sl d 32 64) = false then .ok .none
    else .ok (.token (rd d 64 8) 0)
  else if i = 0 then .ok .none
  else match cache with
    | Option.none => .ok .none
    | some c =>
      match findScope c a.key with
      | Option.none => .ok .none
      | some (role, s) => do
        let b ← readScopeBalance d (ProgramScope.decode s)
        .ok (.scope role b 0)

/-- Loop of `execute`, program/src/lib.rs:295-327.  An account passed twice is classified twice. -/
def classifyGo (m : Mem) (cache : Option (List (Nat × Bytes))) : List Meta → List Class → List Meta → R (List Class)
  | _, cls, [] => .ok cls
  | prev, cls, a :: rest => do
    let c ← classify m prev cls cache a
    classifyGo m cache (prev ++ [a]) (cls ++ [c]) rest

/-- The cache is loaded when the first account is a configuration account, program/src/lib.rs:279-286. -/
def cacheOf (m : Mem) (k : Key) : Option (List (Nat × Bytes)) :=
  if isConfig m k then loadScopes (m k).data else Option.none

/-- `execute`, program/src/lib.rs:257-327: classify all accounts. -/
def classifyAll (m : Mem) (metas : List Meta) : R (List Class) :=
  match metas with
  | [] => .error E.invalidAccountsLength
  | a :: rest => do
    let c ← classify m [] [] Option.none a
    classifyGo m (cacheOf m a.key) [a] [c] rest

end Verif
