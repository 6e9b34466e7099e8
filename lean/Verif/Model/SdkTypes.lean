import Verif.Model.Client

/-!
# Permissions of the Rust SDK

`rust-sdk/src/types.rs`: the permissions a user of the SDK names, how they are turned into the actions of the client library, and how
they are read back from a stored role.
-/

namespace Verif.Sdk

open Client (Action)

/-- `RecurringConfig`, rust-sdk/src/types.rs:36-43. -/
structure Recurring where
  window : Nat
  lastReset : Nat
  current : Nat
  deriving DecidableEq, Repr

/-- `RecurringConfig::new`, rust-sdk/src/types.rs:45-53. -/
def Recurring.new (window : Nat) : Recurring := ⟨window, 0, 0⟩

/-- `Permission`, rust-sdk/src/types.rs:57-192. -/
inductive Permission where
  | all
  | manageAuthority
  | replaceAuthority (role : Nat)
  | token (mint : Key) (amount : Nat) (recurring : Option Recurring)
  | tokenDestination (mint destination : Key) (amount : Nat) (recurring : Option Recurring)
  | sol (amount : Nat) (recurring : Option Recurring)
  | solDestination (destination : Key) (amount : Nat) (recurring : Option Recurring)
  | program (programId : Key)
  | programAll
  | programScope (programId target : Key) (numericType : Nat) (limit window fieldStart fieldEnd : Option Nat)
  | programCurated
  | subAccount (address : Key)
  | stake (amount : Nat) (recurring : Option Recurring)
  | stakeAll
  | allButManageAuthority
  | subAccountV2Create
  | subAccountV2All (id : Nat)
  | subAccountV2Sign (id : Nat)
  | subAccountV2Withdraw (id : Nat)
  | subAccountV2Toggle (id : Nat)
  deriving DecidableEq, Repr

/-- Type, window and limit written for a program scope, rust-sdk/src/types.rs:320-327. -/
def scopeKind : Option Nat → Option Nat → Nat × Nat × Nat
  | some window, some limit => (2, window, limit)
  | none, some limit => (1, 0, limit)
  | none, none => (0, 0, 0)
  | some _, none => (0, 0, 0)

/-- One turn of the loop of `Permission::to_client_actions`, rust-sdk/src/types.rs:200-390. -/
def Permission.toAction : Permission → Action
  | .all => .all
  | .manageAuthority => .manageAuthority
  | .replaceAuthority role => .replaceAuthority role (zeros 4)
  | .token mint amount (some c) => .tokenRecurringLimit mint c.window amount amount 0
  | .token mint amount none => .tokenLimit mint amount
  | .tokenDestination mint dest amount (some c) => .tokenRecurringDestinationLimit mint dest amount c.window 0 amount
  | .tokenDestination mint dest amount none => .tokenDestinationLimit mint dest amount
  | .sol amount (some c) => .solRecurringLimit amount c.window 0 amount
  | .sol amount none => .solLimit amount
  | .solDestination dest amount (some c) => .solRecurringDestinationLimit dest amount c.window 0 amount
  | .solDestination dest amount none => .solDestinationLimit dest amount
  | .program p => .program p
  | .programAll => .programAll
  | .programCurated => .programCurated (zeros 32)
  | .programScope p t numeric limit window s e =>
    .programScope 0 (scopeKind window limit).2.2 (scopeKind window limit).2.1 0 p t (scopeKind window limit).1 numeric
      (s.getD 0) (e.getD 0)
  | .subAccount a => .subAccount a 0 false (zeros 2) 0 (zeros 32)
  | .stake amount (some c) => .stakeRecurringLimit amount c.window 0 amount
  | .stake amount none => .stakeLimit amount
  | .stakeAll => .stakeAll
  | .allButManageAuthority => .allButManageAuthority
  | .subAccountV2Create => .subAccountV2Create
  | .subAccountV2All i => .subAccountV2All i (zeros 4)
  | .subAccountV2Sign i => .subAccountV2Sign i (zeros 4)
  | .subAccountV2Withdraw i => .subAccountV2Withdraw i (zeros 4)
  | .subAccountV2Toggle i => .subAccountV2Toggle i (zeros 4)

/-- `Permission::to_client_actions`, rust-sdk/src/types.rs:194-390. -/
def toClientActions (ps : List Permission) : List Action := ps.map Permission.toAction

/-- `Permission::to_action_type`, rust-sdk/src/types.rs:677-758. -/
def Permission.toActionType : Permission → Nat
  | .all => 7
  | .manageAuthority => 8
  | .replaceAuthority _ => 21
  | .sol _ recurring => if recurring.isSome then 2 else 1
  | .solDestination _ _ recurring => if recurring.isSome then 17 else 16
  | .token _ _ recurring => if recurring.isSome then 6 else 5
  | .tokenDestination _ _ _ recurring => if recurring.isSome then 19 else 18
  | .program _ => 3
  | .programAll => 13
  | .programCurated => 14
  | .programScope .. => 4
  | .subAccount _ => 9
  | .subAccountV2Create => 22
  | .subAccountV2All _ => 23
  | .subAccountV2Sign _ => 24
  | .subAccountV2Withdraw _ => 25
  | .subAccountV2Toggle _ => 26
  | .stake _ recurring => if recurring.isSome then 11 else 10
  | .stakeAll => 12
  | .allButManageAuthority => 15

/-! ## Reading a role -/

/-- Pattern of `from_role` for a single action, e.g. rust-sdk/src/types.rs:430-438: `get_action` and push what is found.  Every error is
turned into `SwigError::InvalidSwigData` there; the model keeps the program error. -/
def single (ty : Nat) (key : Bytes) (f : Bytes → Permission) (acts : Bytes) : R (List Permission) := do
  let found ← getAction ty key acts
  match found with
  | some d => .ok [f d]
  | none => .ok []

/-- Pattern of `from_role` for all actions of a type, e.g. rust-sdk/src/types.rs:422-428. -/
def every (ty : Nat) (f : Bytes → Permission) (acts : Bytes) : R (List Permission) := do
  let found ← getAllOfType ty acts
  .ok (found.map f)

/-- The permission pushed for a program scope, rust-sdk/src/types.rs:564-587 (`limit as u64` truncates). -/
def readScope (d : Bytes) : Permission :=
  .programScope (sl d 48 80) (sl d 80 112) (rd d 120 8)
    (if rd d 112 8 > 0 then some (rd d 16 16 % 2 ^ 64) else none)
    (if rd d 112 8 = 2 then some (rd d 32 8) else none)
    (some (rd d 128 8)) (some (rd d 136 8))

/-- The lookups of `from_role` in order, rust-sdk/src/types.rs:406-674. -/
def readers : List (Bytes → R (List Permission)) :=
  [ single P.all [] (fun _ => .all),
    single P.manageAuthority [] (fun _ => .manageAuthority),
    every P.replaceAuthority (fun d => .replaceAuthority (rd d 0 4)),
    single P.solLimit [] (fun d => .sol (rd d 0 8) none),
    single P.solRecurringLimit [] (fun d => .sol (rd d 0 8) (some ⟨rd d 8 8, rd d 16 8, rd d 24 8⟩)),
    every P.tokenLimit (fun d => .token (sl d 0 32) (rd d 32 8) none),
    every P.tokenRecurringLimit (fun d => .token (sl d 0 32) (rd d 40 8) (some ⟨rd d 32 8, rd d 56 8, rd d 48 8⟩)),
    every P.tokenDestinationLimit (fun d => .tokenDestination (sl d 0 32) (sl d 32 64) (rd d 64 8) none),
    every P.tokenRecurringDestinationLimit (fun d =>
      .tokenDestination (sl d 0 32) (sl d 32 64) (rd d 64 8) (some ⟨rd d 72 8, rd d 80 8, rd d 88 8⟩)),
    every P.solDestinationLimit (fun d => .solDestination (sl d 0 32) (rd d 32 8) none),
    every P.solRecurringDestinationLimit (fun d =>
      .solDestination (sl d 0 32) (rd d 32 8) (some ⟨rd d 40 8, rd d 48 8, rd d 56 8⟩)),
    single P.programAll [] (fun _ => .programAll),
    single P.programCurated [] (fun _ => .programCurated),
    every P.program (fun d => .program (sl d 0 32)),
    single P.programScope tokenId readScope,
    single P.subAccount [] (fun d => .subAccount (sl d 0 32)),
    single P.subAccountV2Create [] (fun _ => .subAccountV2Create),
    every P.subAccountV2All (fun d => .subAccountV2All (rd d 0 4)),
    every P.subAccountV2Sign (fun d => .subAccountV2Sign (rd d 0 4)),
    every P.subAccountV2Withdraw (fun d => .subAccountV2Withdraw (rd d 0 4)),
    every P.subAccountV2Toggle (fun d => .subAccountV2Toggle (rd d 0 4)),
    single P.stakeLimit [] (fun d => .stake (rd d 0 8) none),
    single P.stakeRecurringLimit [] (fun d => .stake (rd d 0 8) (some ⟨rd d 8 8, rd d 16 8, rd d 24 8⟩)),
    single P.stakeAll [] (fun _ => .stakeAll),
    single P.allButManageAuthority [] (fun _ => .allButManageAuthority) ]

/-- Runs the lookups one after the other, appending what they find. -/
def gather (acts : Bytes) : List (Bytes → R (List Permission)) → R (List Permission)
  | [] => .ok []
  | f :: fs => do
    let p ← f acts
    let q ← gather acts fs
    .ok (p ++ q)

/-- `Permission::from_role`, rust-sdk/src/types.rs:403-675, on the action bytes of a role. -/
def fromRole (acts : Bytes) : R (List Permission) := gather acts readers

/-! ## Updates -/

/-- `UpdateAuthorityData`, rust-sdk/src/types.rs:770-777. -/
inductive UpdateData where
  | replaceAll (ps : List Permission)
  | addActions (ps : List Permission)
  | removeByType (ps : List Permission)
  | removeByIndex (indices : List Nat)
  deriving Repr

/-- `UpdateAuthorityData::to_interface_data`, rust-sdk/src/types.rs:781-806. -/
def UpdateData.toChange : UpdateData → Client.Change
  | .replaceAll ps => .replaceAll (toClientActions ps)
  | .addActions ps => .addActions (toClientActions ps)
  | .removeByType ps => .removeByType (ps.map fun p => UInt8.ofNat p.toActionType)
  | .removeByIndex is => .removeByIndex is

end Verif.Sdk
