import Verif.Model.Classify
import Verif.Model.Curated
import Verif.Model.Manage
import Verif.Model.Cpi

/-!
# SignV2

`program/src/actions/sign_v2.rs`: execute instructions with the signature of the wallet address and settle what they spent
against the limits of the acting role.
-/

namespace Verif

/-- `SignV2::from_instruction_bytes`, sign_v2.rs:172-192; args 117-123: payload length `u16` at 2, role `u32` at 4, 8 bytes.  Only
the inner instructions are signed. -/
structure SignIx where
  role : Nat
  payload : Bytes
  authPayload : Bytes
  deriving DecidableEq, Repr

def parseSign (ix : Bytes) : R SignIx :=
  if ix.length < 8 then .error E.invalidSwigSignInstructionDataTooShort
  else
    let n := rd ix 2 2
    if n > ix.length - 8 then .error E.invalidSwigSignInstructionDataTooShort
    else .ok ⟨rd ix 4 4, sl ix 8 (8 + n), ix.drop (8 + n)⟩

/-! ## Integrity hash -/

/-- `&data[position..range.start]` if `position < range.start`, program/src/util/mod.rs:442-445. -/
def segment (data : Bytes) (pos start : Nat) : R Bytes := if pos < start then slice data pos start else .ok []

/-- Segments of `hash_except`, program/src/util/mod.rs:435-455. -/
def exceptGo (data : Bytes) : Nat → List (Nat × Nat) → R Bytes
  | pos, [] => .ok (data.drop pos)
  | pos, (s, e) :: rs => do
    let a ← segment data pos s
    let b ← exceptGo data e rs
    .ok (a ++ b)

/-- `hash_except`, program/src/util/mod.rs:418-472: SHA-256 of the owner and the data outside the ranges. -/
def hashExcept (env : Env) (a : Acct) (ranges : List (Nat × Nat)) : R Bytes := do
  let b ← exceptGo a.data 0 ranges
  .ok (env.sha256 (a.owner ++ b))

/-! ## The actions of the acting role

`role.actions` points into the account data: every read sees what the called programs and the handler itself have written. -/

/-- Account, offset and length of `role.actions`, sign_v2.rs:240-248. -/
structure ActLoc where
  swig : Key
  off : Nat
  len : Nat
  deriving DecidableEq, Repr

/-- The bytes of `role.actions` now; if the account has shrunk below them the read is undefined. -/
def ActLoc.bytes (l : ActLoc) (m : Mem) : R Bytes := slU (m l.swig).data l.off (l.off + l.len)

/-- `RoleMut::get_action_mut::<T>(role.actions, key)?` as payload (state/src/role.rs:176-210). -/
def ActLoc.find (l : ActLoc) (m : Mem) (ty : Nat) (key : Bytes) : R (Option Bytes) := do
  let acts ← l.bytes m
  let o ← getActionMut ty key acts
  .ok (o.map fun o => sl acts o (o + (actionLen ty).getD 0))

/-- `get_action_mut::<T>(..)?.is_some()`, for instance sign_v2.rs:294-295. -/
def ActLoc.has (l : ActLoc) (m : Mem) (ty : Nat) (key : Bytes) : R Bool := do
  let r ← l.find m ty key
  .ok r.isSome

/-- Write the payload `f` computes (`action.run(..)?`, for instance sign_v2.rs:545) for the action found at `o`. -/
def ActLoc.write (l : ActLoc) (m : Mem) (ty : Nat) (acts : Bytes) (f : Bytes → R Bytes) (o : Nat) : R Mem := do
  let d ← f (sl acts o (o + (actionLen ty).getD 0))
  .ok (m.setData l.swig (put (m l.swig).data (l.off + o) d))

/-- `if let Some(action) = get_action_mut::<T>(..)? { action.run(..)? }`: `none` if there is no such action,
for instance sign_v2.rs:544-546. -/
def ActLoc.charge (l : ActLoc) (m : Mem) (ty : Nat) (key : Bytes) (f : Bytes → R Bytes) : R (Option Mem) := do
  let acts ← l.bytes m
  let o ← getActionMut ty key acts
  match o with
  | none => .ok none
  | some o => do
    let m ← l.write m ty acts f o
    .ok (some m)

/-! ### `run` on stored payloads (fields as declared in state/src/action/*_limit.rs) -/

/-- `run` through the pointer, state/src/action/sol_limit.rs:32-38. -/
def chargeSol (n : Nat) (d : Bytes) : R Bytes := do
  let l ← SolLimit.run ⟨rd d 0 8⟩ n
  .ok (natLE 8 l.amount)

/-- `run` through the pointer, state/src/action/sol_recurring_limit.rs:44-57. -/
def chargeSolRec (n slot : Nat) (d : Bytes) : R Bytes := do
  let l ← SolRecurringLimit.run ⟨rd d 0 8, rd d 8 8, rd d 16 8, rd d 24 8⟩ n slot
  .ok (natLE 8 l.recurringAmount ++ natLE 8 l.window ++ natLE 8 l.lastReset ++ natLE 8 l.currentAmount)

/-- `run` through the pointer, state/src/action/sol_destination_limit.rs:38-44. -/
def chargeSolDest (n : Nat) (d : Bytes) : R Bytes := do
  let l ← SolDestinationLimit.run ⟨sl d 0 32, rd d 32 8⟩ n
  .ok (l.destination ++ natLE 8 l.amount)

/-- `run` through the pointer, state/src/action/sol_recurring_destination_limit.rs:49-67. -/
def chargeSolRecDest (n slot : Nat) (d : Bytes) : R Bytes := do
  let l ← SolRecurringDestinationLimit.run ⟨sl d 0 32, rd d 32 8, rd d 40 8, rd d 48 8, rd d 56 8⟩ n slot
  .ok (l.destination ++ natLE 8 l.recurringAmount ++ natLE 8 l.window ++ natLE 8 l.lastReset ++ natLE 8 l.currentAmount)

/-- `run` through the pointer, state/src/action/token_limit.rs:36-42. -/
def chargeToken (n : Nat) (d : Bytes) : R Bytes := do
  let l ← TokenLimit.run ⟨sl d 0 32, rd d 32 8⟩ n
  .ok (l.mint ++ natLE 8 l.current)

/-- `run` through the pointer, state/src/action/token_recurring_limit.rs:48-59. -/
def chargeTokenRec (n slot : Nat) (d : Bytes) : R Bytes := do
  let l ← TokenRecurringLimit.run ⟨sl d 0 32, rd d 32 8, rd d 40 8, rd d 48 8, rd d 56 8⟩ n slot
  .ok (l.mint ++ natLE 8 l.window ++ natLE 8 l.limit ++ natLE 8 l.current ++ natLE 8 l.lastReset)

/-- `run` through the pointer, state/src/action/token_destination_limit.rs:41-49. -/
def chargeTokenDest (n : Nat) (d : Bytes) : R Bytes := do
  let l ← TokenDestinationLimit.run ⟨sl d 0 32, sl d 32 64, rd d 64 8⟩ n
  .ok (l.mint ++ l.destination ++ natLE 8 l.amount)

/-- `run` through the pointer, state/src/action/token_recurring_destination_limit.rs:54-73. -/
def chargeTokenRecDest (n slot : Nat) (d : Bytes) : R Bytes := do
  let l ← TokenRecurringDestinationLimit.run ⟨sl d 0 32, sl d 32 64, rd d 64 8, rd d 72 8, rd d 80 8, rd d 88 8⟩ n slot
  .ok (l.mint ++ l.destination ++ natLE 8 l.recurringAmount ++ natLE 8 l.window ++ natLE 8 l.lastReset ++
    natLE 8 l.currentAmount)

/-- `run` through the pointer, state/src/action/stake_limit.rs:38-44. -/
def chargeStake (n : Nat) (d : Bytes) : R Bytes := do
  let l ← StakeLimit.run ⟨rd d 0 8⟩ n
  .ok (natLE 8 l.amount)

/-- `run` through the pointer, state/src/action/stake_recurring_limit.rs:46-59. -/
def chargeStakeRec (n slot : Nat) (d : Bytes) : R Bytes := do
  let l ← StakeRecurringLimit.run ⟨rd d 0 8, rd d 8 8, rd d 16 8, rd d 24 8⟩ n slot
  .ok (natLE 8 l.recurringAmount ++ natLE 8 l.window ++ natLE 8 l.lastReset ++ natLE 8 l.currentAmount)

/-- `run` through the pointer, state/src/action/program_scope.rs:297-332. -/
def chargeScope (n slot : Nat) (d : Bytes) : R Bytes := do
  let l ← ProgramScope.run (ProgramScope.decode d) n slot
  .ok (natLE 16 l.currentAmount ++ natLE 16 l.limit ++ natLE 8 l.window ++ natLE 8 l.lastReset ++ sl d 48 144)

/-! ### Does the role hold destination limits? -/

/-- Loop of `has_sol_destination_limits` (sign_v2.rs:820-841) and `has_token_destination_limits` (844-873): follows the stored
boundaries; `test` looks at one action. -/
def scanGo (test : Nat → Nat → Bool) (acts : Bytes) : Nat → Nat → R Bool
  | 0, c => if c < acts.length then .error .outOfFuel else .ok false
  | fuel + 1, c =>
    if c < acts.length ∧ c + 8 ≤ acts.length then do
      let ty ← permission (aType acts c)
      if test ty c then .ok true else scanGo test acts fuel (aBoundary acts c)
    else .ok false

/-- `has_sol_destination_limits`, sign_v2.rs:820-841. -/
def hasSolDest (acts : Bytes) : R Bool :=
  scanGo (fun ty _ => ty == P.solDestinationLimit || ty == P.solRecurringDestinationLimit) acts acts.length 0

/-- `has_token_destination_limits`, sign_v2.rs:844-873. -/
def hasTokenDest (mint acts : Bytes) : R Bool :=
  scanGo (fun ty c => (ty == P.tokenDestinationLimit || ty == P.tokenRecurringDestinationLimit) &&
    decide (aBoundary acts c ≥ c + 40) && decide (acts.length ≥ c + 40) && mint == sl acts (c + 8) (c + 40)) acts acts.length 0

/-! ## Transfers the payload itself asks for -/

/-- `process_sol_transfers`, sign_v2.rs:888-949, as the list of its callbacks: System transfers from the wallet address.  It parses
the payload again with the same arguments, so the model reuses the decoded list. -/
def solTransfers (wallet : Key) (ixs : List Inner) : List (Key × Nat) :=
  ixs.filterMap fun ix =>
    if ix.program = systemId ∧ 12 ≤ ix.data.length ∧ rd ix.data 0 4 = 2 then
      match ix.accounts with
      | a :: d :: _ => if a.key = wallet then some (d.key, rd ix.data 4 8) else none
      | _ => none
    else none

/-- Position of the destination in a token transfer, sign_v2.rs:988-992. -/
def tokenDestIx (data : Bytes) : Option Nat :=
  if data = [] then none
  else if data.getD 0 0 = 3 then (if 9 ≤ data.length then some 1 else none)
  else if data.getD 0 0 = 12 then (if 10 ≤ data.length then some 2 else none)
  else none

/-- `process_token_destinations`, sign_v2.rs:964-1020: token transfers (plain and checked) from the account `src`. -/
def tokenTransfers (src : Key) (ixs : List Inner) : List (Key × Nat) :=
  ixs.filterMap fun ix =>
    if ix.program = tokenId ∨ ix.program = token2022Id then
      match tokenDestIx ix.data with
      | none => none
      | some i =>
        match ix.accounts[0]?, ix.accounts[i]? with
        | some a, some d => if a.key = src then some (d.key, rd ix.data 1 8) else none
        | _, _ => none
    else none

/-! ## One call -/

/-- What stays fixed during one call (the locals of `sign_v2`, sign_v2.rs:235-297). -/
structure SignCtx where
  env : Env
  metas : List Meta
  swig : Key
  wallet : Key
  seeds : List Bytes
  loc : ActLoc
  ixs : List Inner
  programAll : Bool
  curated : Bool

/-- The ranges left out of the hash of a program-scope account, sign_v2.rs:349-352, 783-788. -/
def scopeRange (s : ProgramScope) (d : Bytes) : Option (List (Nat × Nat)) :=
  if s.balanceFieldStart < s.balanceFieldEnd ∧ s.balanceFieldEnd ≤ d.length then some [(s.balanceFieldStart, s.balanceFieldEnd)]
  else none

/-- What is left out of the integrity hash of an account, sign_v2.rs:317-362; `none`: no hash. -/
def snapRanges (x : SignCtx) (m : Mem) (a : Meta) : Class → R (Option (List (Nat × Nat)))
  | .thisSwig _ => .ok (some [])
  | .token .. => .ok (some [(64, 72)])
  | .stake .. => .ok (some [(0, 4), (124, 200)])
  | .scope .. => do
    let s ← x.loc.find m P.programScope a.key
    .ok (s.bind fun s => scopeRange (ProgramScope.decode s) (m a.key).data)
  | _ => .ok none

/-- Hash the account with the given index and store it; at most 100 accounts, sign_v2.rs:365-371. -/
def snapHash (x : SignCtx) (m : Mem) (i : Nat) (a : Meta) : Option (List (Nat × Nat)) → R (Option Bytes)
  | none => .ok none
  | some rs => do
    let h ← hashExcept x.env (m a.key) rs
    if i ≥ 100 then .error E.invalidAccountsLength else .ok (some h)

/-- Snapshot of one account, sign_v2.rs:310-371; only of writable ones. -/
def snap (x : SignCtx) (m : Mem) (i : Nat) (a : Meta) (c : Class) : R (Option Bytes) :=
  if a.writable = false then .ok none
  else do
    let rs ← snapRanges x m a c
    snapHash x m i a rs

/-- Snapshot loop, sign_v2.rs:308-372. -/
def snapAll (x : SignCtx) (m : Mem) : Nat → List (Meta × Class) → R (List (Option Bytes))
  | _, [] => .ok []
  | i, (a, c) :: rest => do
    let h ← snap x m i a c
    let hs ← snapAll x m (i + 1) rest
    .ok (h :: hs)

/-- May this instruction carry the wallet's signature? sign_v2.rs:376-390. -/
def programOk (x : SignCtx) (m : Mem) (ix : Inner) : R Bool :=
  if x.programAll = true ∨ ix.usesSigner = false then .ok true
  else if x.curated = true ∧ isCurated ix.program = true then .ok true
  else x.loc.has m P.program ix.program

/-- New balance and spent amount of a program-scope account, sign_v2.rs:490-499: unreadable balances are skipped. -/
def trackScope (role balance spent : Nat) (now : R Nat) : R Class :=
  match now with
  | .ok cur => .ok (.scope role cur (if cur < balance then satAdd128 spent (balance - cur) else spent))
  | .error .ub => .error .ub
  | .error _ => .ok (.scope role balance spent)

/-- Program-scope branch of the scan, sign_v2.rs:476-500. -/
def trackScoped (x : SignCtx) (m : Mem) (a : Meta) (role balance spent : Nat) : R Class := do
  let s ← x.loc.find m P.programScope a.key
  match s with
  | none => .ok (.scope role balance spent)
  | some s => trackScope role balance spent ((ProgramScope.decode s).readAccountBalance (m a.key).data)

/-- What one instruction took from a tracked account, sign_v2.rs:405-503. -/
def track (x : SignCtx) (m : Mem) (a : Meta) (c : Class) : R Class :=
  if a.writable = false then .ok c
  else match c with
    | .token balance spent =>
      let d := (m a.key).data
      if d.length < 72 then .ok c
      else .ok (.token (rd d 64 8) (if rd d 64 8 < balance then satAdd64 spent (balance - rd d 64 8) else spent))
    | .stake state balance lamports spent =>
      let d := (m a.key).data
      let l := (m a.key).lamports
      if d.length < 164 then .ok (.stake state balance l (satAdd64 spent (lamports - l)))
      else
        let cur := rd d 156 8
        .ok (.stake state cur l (satAdd64 spent (max (lamports - l) ((cur - balance) + (balance - cur)))))
    | .scope role balance spent => trackScoped x m a role balance spent
    | c => .ok c

/-- The scan after each instruction, sign_v2.rs:405-503. -/
def trackAll (x : SignCtx) (m : Mem) : List (Meta × Class) → R (List (Meta × Class))
  | [] => .ok []
  | (a, c) :: rest => do
    let c ← track x m a c
    let rest ← trackAll x m rest
    .ok ((a, c) :: rest)

/-- Instruction loop of a restricted role, sign_v2.rs:374-507: ledger, tracked accounts and lamports taken from the wallet
address. -/
def runIxs (x : SignCtx) (cpi : Cpi) : Mem → List (Meta × Class) → Nat → List Inner → R (Mem × List (Meta × Class) × Nat)
  | m, cls, total, [] => .ok (m, cls, total)
  | m, cls, total, ix :: rest => do
    let ok ← programOk x m ix
    require (ok = true) E.au_permissionDeniedMissingPermission
    let m' ← execInner x.env cpi m x.metas x.wallet x.seeds ix
    let cls ← trackAll x m' cls
    runIxs x cpi m' cls (satAdd64 total ((m x.wallet).lamports - (m' x.wallet).lamports)) rest

/-! ## Settlement -/

/-- Compare the hash of a writable account with its snapshot, for instance sign_v2.rs:524-531.  Reading a snapshot that was never
taken is undefined. -/
def recheck (x : SignCtx) (m : Mem) (a : Meta) (h : Option Bytes) (rs : List (Nat × Nat)) : R Unit :=
  if a.writable = false then .ok ()
  else do
    let now ← hashExcept x.env (m a.key) rs
    let h ← orErr h .ub
    require (h = now) E.accountDataModifiedUnexpectedly

/-- Charge the first of two kinds of limit the role holds: `true` if one was found.  For instance sign_v2.rs:543-554, 572-591. -/
def chargeEither (x : SignCtx) (m : Mem) (ty1 ty2 : Nat) (key : Bytes) (f1 f2 : Bytes → R Bytes) : R (Mem × Bool) := do
  let r ← x.loc.charge m ty1 key f1
  match r with
  | some m => .ok (m, true)
  | none => do
    let r ← x.loc.charge m ty2 key f2
    match r with
    | some m => .ok (m, true)
    | none => .ok (m, false)

/-- Charge every transfer to the limit of its destination; the amounts are added up with overflow check.  sign_v2.rs:561-598,
682-722.  `one` charges one transfer. -/
def chargeDests (one : Mem → Key → Nat → R (Mem × Bool)) : Mem → Nat → List (Key × Nat) → R (Mem × Nat)
  | m, sum, [] => .ok (m, sum)
  | m, sum, (d, n) :: rest => do
    require (sum + n < 2 ^ 64) E.au_permissionDeniedMissingPermission
    let (m, ok) ← one m d n
    require (ok = true) E.au_permissionDeniedMissingPermission
    chargeDests one m (sum + n) rest

/-- Destination limits, sign_v2.rs:556-603, 677-727: if the role holds any, there must be a transfer and the transfers must add up to
what was spent. -/
def settleDests (has : Bool) (one : Mem → Key → Nat → R (Mem × Bool)) (m : Mem) (spent : Nat) (ts : List (Key × Nat)) :
    R (Mem × Bool) :=
  if has then do
    let (m, sum) ← chargeDests one m 0 ts
    require (ts ≠ [] ∧ sum = spent) E.au_permissionDeniedMissingPermission
    .ok (m, true)
  else .ok (m, false)

/-- SOL: general limit, then destination limits; one of them must exist.  sign_v2.rs:543-607. -/
def settleSol (x : SignCtx) (m : Mem) (spent : Nat) : R Mem := do
  let (m, general) ← chargeEither x m P.solLimit P.solRecurringLimit [] (chargeSol spent) (chargeSolRec spent x.env.slot)
  let acts ← x.loc.bytes m
  let has ← hasSolDest acts
  let (m, dest) ← settleDests has
    (fun m d n => chargeEither x m P.solRecurringDestinationLimit P.solDestinationLimit d (chargeSolRecDest n x.env.slot)
      (chargeSolDest n)) m spent (solTransfers x.wallet x.ixs)
  require (general = true ∨ dest = true) E.au_permissionDeniedMissingPermission
  .ok m

/-- The configuration account, sign_v2.rs:512-610. -/
def settleSwig (x : SignCtx) (m : Mem) (a : Meta) (h : Option Bytes) (total : Nat) : R Mem := do
  recheck x m a h []
  require ((m x.wallet).lamports ≥ x.env.rent (m x.wallet).data.length) E.au_permissionDeniedInsufficientBalance
  if total = 0 then .ok m else settleSol x m total

/-- Tokens: general limit of the mint, then destination limits.  sign_v2.rs:664-731. -/
def settleTokenSpent (x : SignCtx) (m : Mem) (src mint : Bytes) (spent : Nat) : R Mem := do
  let (m, general) ← chargeEither x m P.tokenLimit P.tokenRecurringLimit mint (chargeToken spent) (chargeTokenRec spent x.env.slot)
  let acts ← x.loc.bytes m
  let has ← hasTokenDest mint acts
  let (m, dest) ← settleDests has
    (fun m d n => chargeEither x m P.tokenRecurringDestinationLimit P.tokenDestinationLimit (mint ++ d)
      (chargeTokenRecDest n x.env.slot) (chargeTokenDest n)) m spent (tokenTransfers src x.ixs)
  require (general = true ∨ dest = true) E.au_permissionDeniedMissingPermission
  .ok m

/-- A token account that has been closed, sign_v2.rs:618-629. -/
def settleClosed (x : SignCtx) (m : Mem) (a : Meta) : R Mem := do
  let ok ← x.loc.has m P.closeSwigAuthority []
  require (ok = true) E.au_permissionDeniedMissingPermission
  require ((m a.key).lamports = 0 ∧ (m a.key).owner = systemId) E.accountDataModifiedUnexpectedly
  .ok m

/-- A token account, sign_v2.rs:611-734. -/
def settleToken (x : SignCtx) (m : Mem) (a : Meta) (h : Option Bytes) (spent : Nat) : R Mem :=
  if (m a.key).data = [] ∨ (m a.key).lamports = 0 then settleClosed x m a
  else do
    require (165 ≤ (m a.key).data.length) E.accountDataModifiedUnexpectedly
    recheck x m a h [(64, 72)]
    require (sl (m a.key).data 32 64 = x.wallet) E.au_permissionDeniedTokenAccountAuthorityNotSwig
    require ((m a.key).data.getD 108 0 = 1) E.au_permissionDeniedTokenAccountNotInitialized
    if spent = 0 then .ok m else settleTokenSpent x m a.key (sl (m a.key).data 0 32) spent

/-- What a stake account spent, sign_v2.rs:754-771. -/
def settleStakeSpent (x : SignCtx) (m : Mem) (spent : Nat) : R Mem := do
  let all ← x.loc.has m P.stakeAll []
  if all then .ok m
  else do
    let (m, ok) ← chargeEither x m P.stakeLimit P.stakeRecurringLimit [] (chargeStake spent) (chargeStakeRec spent x.env.slot)
    require (ok = true) E.au_permissionDeniedMissingPermission
    .ok m

/-- A stake account, sign_v2.rs:735-772. -/
def settleStake (x : SignCtx) (m : Mem) (a : Meta) (h : Option Bytes) (spent : Nat) : R Mem := do
  recheck x m a h [(0, 4), (124, 200)]
  if spent = 0 then .ok m else settleStakeSpent x m spent

/-- Charge a program scope, sign_v2.rs:800-806. -/
def settleScopeSpent (x : SignCtx) (m : Mem) (a : Meta) (spent : Nat) : R Mem := do
  let r ← x.loc.charge m P.programScope a.key (chargeScope spent x.env.slot)
  orErr r E.au_permissionDeniedMissingPermission

/-- A program-scope account, sign_v2.rs:773-806. -/
def settleScope (x : SignCtx) (m : Mem) (a : Meta) (h : Option Bytes) (spent : Nat) : R Mem := do
  let s ← x.loc.find m P.programScope a.key
  let s ← orErr s E.au_permissionDeniedMissingPermission
  let rs ← orErr (scopeRange (ProgramScope.decode s) (m a.key).data) E.invalidProgramScopeBalanceFields
  recheck x m a h rs
  if spent = 0 then .ok m else settleScopeSpent x m a spent

/-- One account of the settlement loop, sign_v2.rs:511-809. -/
def settleOne (x : SignCtx) (m : Mem) (a : Meta) (c : Class) (h : Option Bytes) (total : Nat) : R Mem :=
  match c with
  | .thisSwig _ => settleSwig x m a h total
  | .token _ spent => settleToken x m a h spent
  | .stake _ _ _ spent => settleStake x m a h spent
  | .scope _ _ spent => settleScope x m a h spent
  | _ => .ok m

/-- The settlement loop, sign_v2.rs:509-810. -/
def settleAll (x : SignCtx) (total : Nat) : Mem → List (Meta × Class) → List (Option Bytes) → R Mem
  | m, (a, c) :: rest, h :: hs => do
    let m ← settleOne x m a c h total
    settleAll x total m rest hs
  | m, _, _ => .ok m

/-- A restricted role, sign_v2.rs:299-811. -/
def signLimited (x : SignCtx) (cpi : Cpi) (m : Mem) (cls : List Class) : R Mem := do
  let hs ← snapAll x m 0 (x.metas.zip cls)
  let (m, acc, total) ← runIxs x cpi m (x.metas.zip cls) 0 x.ixs
  settleAll x total m acc hs

/-- `has_unrestricted_sign_permission`, sign_v2.rs:277-279: the second lookup is made only if the first finds nothing. -/
def unrestricted (l : ActLoc) (m : Mem) : R Bool := do
  let a ← l.has m P.all []
  if a then .ok true else l.has m P.allButManageAuthority []

/-- Program permissions that cover more than one program, sign_v2.rs:294-297. -/
def signCurated (l : ActLoc) (m : Mem) (programAll : Bool) : R Bool :=
  if programAll then .ok false else l.has m P.programCurated []

/-- Execute with or without limits, sign_v2.rs:277-811. -/
def signWith (env : Env) (cpi : Cpi) (m : Mem) (metas : List Meta) (cls : List Class) (wallet : Key) (seeds : List Bytes)
    (loc : ActLoc) (ixs : List Inner) : R Mem := do
  let free ← unrestricted loc m
  if free then execAll env cpi metas wallet seeds m ixs
  else do
    let programAll ← loc.has m P.programAll []
    let curated ← signCurated loc m programAll
    signLimited ⟨env, metas, loc.swig, wallet, seeds, loc, ixs, programAll, curated⟩ cpi m cls

/-- The first account is classified as this wallet, sign_v2.rs:220-223. -/
def Class.isSwig : Class → Bool
  | .thisSwig _ => true
  | _ => false

/-- `sign_v2`, program/src/actions/sign_v2.rs:212-811.  The second account is not compared with the wallet address here: the calls
carry the signature of the derived address (`seeds`), and `execute` fails if that is not the account flagged as signer. -/
def signV2 (env : Env) (cpi : Cpi) (m : Mem) (metas : List Meta) (cls : List Class) (ix : Bytes) : R Mem :=
  match metas with
  | swig :: wallet :: _ :: _ => do
    require (env.stackHeight = 1) E.cpi
    require ((cls.getD 0 .none).isSwig = true) E.invalidSwigAccountDiscriminator
    require (cls.getD 1 .none = .wallet) E.invalidSwigAccountDiscriminator
    let a ← parseSign ix
    let p ← openSwig (m swig.key).data
    let (p, r) ← actAs env m metas p a.role a.authPayload a.payload
    let ixs ← decodeIxs metas wallet.key [] a.payload
    signWith env cpi (m.setData swig.key p.bytes) metas cls wallet.key (walletSeeds swig.key ++ [[p.header.walletBump]])
      ⟨swig.key, 48 + r.actsOff, r.actions.length⟩ ixs
  | _ => .error .notEnoughAccountKeys

end Verif
