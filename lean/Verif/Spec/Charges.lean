import Verif.Model.Sign
import Verif.Spec.Wallet
import Verif.Spec.Compact
import Verif.Spec.History

/-!
# Charging the limits of a role

The limits of a role as a list of actions; a charge takes an amount from the first action granting a permission.  No offsets.
-/

namespace Verif

/-- A charge of `amount` against the limit of type `ty` for `key` (mint, destination, target account; empty for SOL and stake). -/
structure Chg where
  ty : Nat
  key : Bytes
  amount : Nat
  deriving DecidableEq, Repr

/-- What an approved charge of `n` at `slot` makes of the payload of a limit; other permissions cannot be charged. -/
def chargeFn (ty n slot : Nat) : Bytes → R Bytes :=
  if ty = P.solLimit then chargeSol n
  else if ty = P.solRecurringLimit then chargeSolRec n slot
  else if ty = P.programScope then chargeScope n slot
  else if ty = P.tokenLimit then chargeToken n
  else if ty = P.tokenRecurringLimit then chargeTokenRec n slot
  else if ty = P.stakeLimit then chargeStake n
  else if ty = P.stakeRecurringLimit then chargeStakeRec n slot
  else if ty = P.solDestinationLimit then chargeSolDest n
  else if ty = P.solRecurringDestinationLimit then chargeSolRecDest n slot
  else if ty = P.tokenDestinationLimit then chargeTokenDest n
  else if ty = P.tokenRecurringDestinationLimit then chargeTokenRecDest n slot
  else fun _ => .error .invalidArgument

/-- Charge the first action granting `(ty, key)`; `none` if there is none. -/
def chargeFirst (ty : Nat) (key : Bytes) (f : Bytes → R Bytes) : List Act → R (Option (List Act))
  | [] => .ok none
  | a :: as =>
    if a.grants ty key then
      match f a.data with
      | .ok d => .ok (some ({ a with data := d } :: as))
      | .error e => .error e
    else
      match chargeFirst ty key f as with
      | .ok r => .ok (r.map (a :: ·))
      | .error e => .error e

/-- `as'` results from `as` by approving the charges `cs` one after the other at `slot`. -/
inductive Plays (slot : Nat) : List Act → List Chg → List Act → Prop
  | nil (as : List Act) : Plays slot as [] as
  | cons {as as1 as' : List Act} (c : Chg) {cs : List Chg} :
      chargeFirst c.ty c.key (chargeFn c.ty c.amount slot) as = .ok (some as1) → Plays slot as1 cs as' → Plays slot as (c :: cs) as'

/-- Payload of the first action granting a permission. -/
def payload? (as : List Act) (ty : Nat) (key : Bytes) : Option Bytes := (as.find? (fun a => a.grants ty key)).map Act.data

/-- The payload of an action without its counters (remaining amount, time of the last reset). -/
def Act.fixed (a : Act) : Bytes :=
  if a.ty = P.solLimit ∨ a.ty = P.stakeLimit then []
  else if a.ty = P.solRecurringLimit ∨ a.ty = P.stakeRecurringLimit then a.data.take 16
  else if a.ty = P.tokenLimit ∨ a.ty = P.solDestinationLimit then a.data.take 32
  else if a.ty = P.tokenRecurringLimit ∨ a.ty = P.solRecurringDestinationLimit then a.data.take 48
  else if a.ty = P.tokenDestinationLimit then a.data.take 64
  else if a.ty = P.tokenRecurringDestinationLimit then a.data.take 80
  else if a.ty = P.programScope then sl a.data 16 40 ++ a.data.drop 48
  else a.data

/-- The amounts charged to one limit, in order. -/
def amounts (cs : List Chg) (ty : Nat) (key : Bytes) : List Nat :=
  (cs.filter fun c => c.ty = ty ∧ (repeatable ty = true → c.key = key)).map (·.amount)

/-- Charge a list of amounts to one payload. -/
def chargeList (ty slot : Nat) : Bytes → List Nat → R Bytes
  | d, [] => .ok d
  | d, n :: ns =>
    match chargeFn ty n slot d with
    | .ok d' => chargeList ty slot d' ns
    | .error e => .error e

end Verif
