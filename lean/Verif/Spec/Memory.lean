import Verif.Spec.Auth
import Verif.Spec.Wallet
import Verif.Spec.Sign
import Verif.Model.Process

/-!
# Requests whose reads stay inside the memory given to the program

The conditions under which the program performs no undefined access.  Each field is a check the program does not make.
-/

namespace Verif

/-- The instructions sysvar as the runtime fills it. -/
structure TxData (b : Bytes) : Prop where
  tx : ∃ ixs cur, TxOk ixs cur ∧ b = sysvarEncode ixs cur

/-- The balance field of a stored program scope (bytes `start..stop` of the target account) lies inside that account, and the
`enabled` byte of a stored sub-account permission is a truth value. -/
structure Wallet.Sane (w : Wallet) (m : Mem) : Prop where
  scopes : ∀ r ∈ w.roles, ∀ a ∈ r.actions, a.ty = P.programScope →
    rd a.data 128 8 ≤ rd a.data 136 8 ∧
      (rd a.data 128 8 < rd a.data 136 8 → rd a.data 136 8 ≤ (m (sl a.data 80 112)).data.length)
  flags : ∀ r ∈ w.roles, ∀ a ∈ r.actions, a.ty = P.subAccount → a.data.getD 33 0 = 0 ∨ a.data.getD 33 0 = 1

/-- A configuration account: not empty, and holding a stored wallet unless its first byte says otherwise. -/
structure Opened (m : Mem) (k : Key) : Prop where
  nonempty : (m k).data ≠ []
  wallet : (m k).data.getD 0 0 = 1 → ∃ w : Wallet, w.WF ∧ (m k).data = w.encode ∧ w.Sane m

/-- The payload of inner instructions in SignV2 (number 11) and the two sub-account signatures (9 and 20), and the address that
signs: the second account (the third for 20). -/
def innerOf (metas : List Meta) (ix : Bytes) : Option (Key × Bytes) :=
  if rd ix 0 2 = 11 then metas[1]?.map fun a => (a.key, sl ix 8 (8 + rd ix 2 2))
  else if rd ix 0 2 = 9 then metas[1]?.map fun a => (a.key, sl ix 16 (16 + rd ix 2 2))
  else if rd ix 0 2 = 20 then metas[2]?.map fun a => (a.key, sl ix 16 (16 + rd ix 2 2))
  else none

/-- An inner System transfer names its two accounts. -/
def Inner.Complete (i : Inner) : Prop :=
  i.program = systemId → 12 ≤ i.data.length → i.data.take 4 = [2, 0, 0, 0] → 2 ≤ i.accounts.length

/-- The conditions. -/
structure InBounds (cpi : Cpi) (m : Mem) (metas : List Meta) (ix : Bytes) : Prop where
  /-- addresses have 32 bytes -/
  keys : ∀ a ∈ metas, a.key.length = 32
  /-- the called programs fail in a defined way -/
  calls : ∀ m c, cpi m c ≠ .error .ub
  /-- the runtime fills the instructions sysvar -/
  sysvar : TxData (m instructionsSysvarId).data
  /-- the first account, if it belongs to the program, holds what the program stored -/
  first : ∀ a, metas.head? = some a → (m a.key).owner = swigId → Opened m a.key
  /-- MigrateToWalletAddress is given an account of the program -/
  owner : rd ix 0 2 = 12 → ∀ a, metas.head? = some a → (m a.key).owner = swigId
  /-- ToggleSubAccountV1: the flag is 0 or 1 -/
  flag : rd ix 0 2 = 10 → ix.getD 2 0 = 0 ∨ ix.getD 2 0 = 1
  /-- WithdrawFromSubAccountV1 with tokens: the destination is long enough to have an owner field -/
  token : rd ix 0 2 = 7 → ∀ a, metas[7]? = some a → 64 ≤ (m a.key).data.length
  /-- inner System transfers name both accounts -/
  transfers : ∀ k b ixs, innerOf metas ix = some (k, b) → decodeIxs metas k [] b = .ok ixs → ∀ i ∈ ixs, i.Complete
  /-- SignV2: the called programs leave the configuration account as it is -/
  held : rd ix 0 2 = 11 → ∀ a, metas.head? = some a → cpi.Keeps a.key

end Verif
