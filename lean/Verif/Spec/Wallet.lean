import Verif.Model.Swig

/-!
# Specification of the wallet account

What a wallet account is, independently of cursors and offsets: a header, a list of roles, an optional rent claimer;
and how it is laid out in bytes.  Only `Header` (a plain record of the header fields), `actionLen`, `authLen` and
`repeatable` (tables of sizes and flags) are taken from the model.
-/

namespace Verif

/-- A permission held by a role: its type number and its payload. -/
structure Act where
  ty : Nat
  data : Bytes
  deriving DecidableEq, Repr

/-- A role: authority type, id, stored authority bytes and the permissions it holds. -/
structure Role where
  authType : Nat
  id : Nat
  auth : Bytes
  actions : List Act
  deriving DecidableEq, Repr

/-- A wallet. -/
structure Wallet where
  bump : UInt8
  id : Key
  roleCounter : Nat
  walletBump : UInt8
  pad : Bytes
  subCounter : Nat
  roles : List Role
  claimer : Option Key
  deriving DecidableEq, Repr

/-! ## Byte layout -/

def Act.size (a : Act) : Nat := 8 + a.data.length
def actsSize (as : List Act) : Nat := (as.map Act.size).sum
def Role.size (r : Role) : Nat := 16 + r.auth.length + actsSize r.actions
def rolesSize (rs : List Role) : Nat := (rs.map Role.size).sum

/-- Action record: type, payload length, offset of the next record (within the actions of the role), payload. -/
def encAct (next : Nat) (a : Act) : Bytes :=
  natLE 2 a.ty ++ natLE 2 a.data.length ++ natLE 4 next ++ a.data

/-- Action records one after the other, the first one at offset `off`. -/
def encActs (off : Nat) : List Act → Bytes
  | [] => []
  | a :: as => encAct (off + a.size) a ++ encActs (off + a.size) as

/-- Position record of a role: authority type and length, number of actions, padding, id, offset of the next role. -/
def encPos (authType authLen numActions id boundary : Nat) : Bytes :=
  natLE 2 authType ++ natLE 2 authLen ++ natLE 2 numActions ++ zeros 2 ++ natLE 4 id ++ natLE 4 boundary

/-- Role record placed at offset `off` of the role buffer. -/
def encRole (off : Nat) (r : Role) : Bytes :=
  encPos r.authType r.auth.length r.actions.length r.id (off + r.size) ++ r.auth ++ encActs 0 r.actions

/-- Role records one after the other, the first one at offset `off`. -/
def encRoles (off : Nat) : List Role → Bytes
  | [] => []
  | r :: rs => encRole off r ++ encRoles (off + r.size) rs

/-- Tail: nothing, or a rent-claimer entry: kind 1, version 1, value length 32, four zero bytes, the claimer key. -/
def encTail : Option Key → Bytes
  | none => []
  | some k => [1, 1, 32, 0, 0, 0, 0, 0] ++ k

def Wallet.header (w : Wallet) : Header where
  disc := 1
  bump := w.bump
  id := w.id
  roles := w.roles.length
  roleCounter := w.roleCounter
  walletBump := w.walletBump
  pad := w.pad
  subCounter := w.subCounter

/-- The account data of a wallet: header, role records, tail. -/
def Wallet.encode (w : Wallet) : Bytes :=
  w.header.encode ++ (encRoles 0 w.roles ++ encTail w.claimer)

/-! ## Well-formedness -/

/-- The payload has the size its type requires (in particular the type is one of 1..26). -/
def Act.WF (a : Act) : Prop := actionLen a.ty = some a.data.length

instance (a : Act) : Decidable a.WF := inferInstanceAs (Decidable (_ = _))

/-- Identity of a scoped V2 sub-account grant: type and sub-account id; one fixed identity for the create marker. -/
def Act.v2Key (a : Act) : Option (Nat × Nat) :=
  if a.ty = 22 then some (22, 0)
  else if 23 ≤ a.ty ∧ a.ty ≤ 26 then some (a.ty, leNat (a.data.take 4))
  else none

/-- No two V2 grants of the same kind for the same sub-account, at most one create marker. -/
def NoV2Dup (as : List Act) : Prop := (as.filterMap Act.v2Key).Nodup

instance (as : List Act) : Decidable (NoV2Dup as) := inferInstanceAs (Decidable (List.Nodup _))

structure Role.WF (r : Role) : Prop where
  auth : authLen r.authType = some r.auth.length
  nonempty : 1 ≤ r.actions.length
  atMost : r.actions.length ≤ 255
  acts : ∀ a ∈ r.actions, a.WF
  v2 : NoV2Dup r.actions

structure Wallet.WF (w : Wallet) : Prop where
  idLen : w.id.length = 32
  padLen : w.pad.length = 3
  counter : w.roleCounter < 2 ^ 32
  subCounter : w.subCounter < 2 ^ 32
  count : w.roles.length < 2 ^ 16
  roles : ∀ r ∈ w.roles, r.WF
  idsNodup : (w.roles.map Role.id).Nodup
  idsLt : ∀ r ∈ w.roles, r.id < w.roleCounter
  claimer : ∀ k, w.claimer = some k → k.length = 32
  size : 48 + rolesSize w.roles + 40 < 2 ^ 31

/-! ## Lookups -/

/-- The role with a given id. -/
def Wallet.role? (w : Wallet) (id : Nat) : Option Role := w.roles.find? (fun r => r.id = id)

/-- The part of a payload that identifies a repeatable permission: program id, mint, target account, sub-account
address, destination, mint and destination, role id or sub-account id. -/
def keyOf (ty : Nat) (data : Bytes) : Bytes :=
  if ty = P.programScope then (data.drop 80).take 32
  else if ty = P.tokenDestinationLimit ∨ ty = P.tokenRecurringDestinationLimit then data.take 64
  else if ty = P.replaceAuthority ∨ ty = P.subAccountV2All ∨ ty = P.subAccountV2Sign ∨
    ty = P.subAccountV2Withdraw ∨ ty = P.subAccountV2Toggle then data.take 4
  else data.take 32

/-- Length of that key. -/
def keyLen (ty : Nat) : Nat :=
  if ty = P.tokenDestinationLimit ∨ ty = P.tokenRecurringDestinationLimit then 64
  else if ty = P.replaceAuthority ∨ ty = P.subAccountV2All ∨ ty = P.subAccountV2Sign ∨
    ty = P.subAccountV2Withdraw ∨ ty = P.subAccountV2Toggle then 4
  else 32

/-- A role holds a permission: some action has the type and, for repeatable types, the key. -/
def Act.grants (a : Act) (ty : Nat) (key : Bytes) : Prop :=
  a.ty = ty ∧ (repeatable ty = true → keyOf ty a.data = key)

instance (a : Act) (ty : Nat) (key : Bytes) : Decidable (a.grants ty key) :=
  inferInstanceAs (Decidable (_ ∧ _))

/-- The first action of a role granting a permission. -/
def Role.grant? (r : Role) (ty : Nat) (key : Bytes) : Option Act :=
  r.actions.find? (fun a => a.grants ty key)

/-- Whether the role holds a permission type (no key: for the non-repeatable marker permissions). -/
def Role.holds (r : Role) (ty : Nat) : Prop := ∃ a ∈ r.actions, a.ty = ty

instance (r : Role) (ty : Nat) : Decidable (r.holds ty) := inferInstanceAs (Decidable (∃ _ ∈ _, _))

/-! ## Submitted action lists -/

/-- The bytes a client submits for a list of actions: as stored, except that the four "next" bytes are arbitrary. -/
def rawAct (next : Bytes) (a : Act) : Bytes :=
  natLE 2 a.ty ++ natLE 2 a.data.length ++ next ++ a.data

/-- `d` is a submission of the actions `as`. -/
inductive Submits : Bytes → List Act → Prop
  | nil : Submits [] []
  | cons (a : Act) (next : Bytes) (d : Bytes) (as : List Act) : next.length = 4 → a.ty < 2 ^ 16 →
      a.data.length < 2 ^ 16 → Submits d as → Submits (rawAct next a ++ d) (a :: as)

/-- Fresh payloads: the extra conditions imposed when an action is submitted (a used limit no longer
meets them): full recurring limits that were never reset, non-zero windows of destination limits, a V1 sub-account not yet
created. -/
def Act.Fresh (a : Act) : Prop :=
  a.WF ∧
  (a.ty = P.solRecurringLimit ∨ a.ty = P.stakeRecurringLimit →
    sl a.data 24 32 = sl a.data 0 8 ∧ sl a.data 16 24 = zeros 8) ∧
  (a.ty = P.tokenRecurringLimit → sl a.data 48 56 = sl a.data 40 48 ∧ sl a.data 56 64 = zeros 8) ∧
  (a.ty = P.solRecurringDestinationLimit → rd a.data 40 8 ≠ 0 ∧ rd a.data 56 8 ≤ rd a.data 32 8) ∧
  (a.ty = P.tokenRecurringDestinationLimit → rd a.data 72 8 ≠ 0 ∧ rd a.data 88 8 ≤ rd a.data 64 8) ∧
  (a.ty = P.subAccount → sl a.data 0 32 = zeros 32)

instance (a : Act) : Decidable a.Fresh := by unfold Act.Fresh; infer_instance

end Verif
