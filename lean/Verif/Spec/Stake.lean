import Verif.Spec.Sign

/-!
# Vocabulary for stake accounts

Bytes of a stake account (`StakeStateV2`): state 0-4, rent reserve 4-12, staker 12-44, withdrawer 44-76, lock-up 76-124, validator 124-156,
delegated lamports 156-164, the rest of the delegation 164-200.
-/

namespace Verif

/-- A stake account whose withdrawer is the wallet address, passed writable. -/
def WalletStake (m : Mem) (wallet : Key) (a : Meta) : Prop :=
  a.writable = true ∧ (m a.key).owner = stakeId ∧ 200 ≤ (m a.key).data.length ∧ sl (m a.key).data 44 76 = wallet

instance (m : Mem) (wallet : Key) (a : Meta) : Decidable (WalletStake m wallet a) := inferInstanceAs (Decidable (_ ∧ _))

/-- Lamports delegated by a stake account. -/
def stakedOf (a : Acct) : Nat := rd a.data 156 8

/-- What happened to one stake account: the larger of the lamports it lost and the change of the amount it delegates, in either direction. -/
def stakeMove (a a' : Acct) : Nat :=
  max (a.lamports - a'.lamports) ((stakedOf a - stakedOf a') + (stakedOf a' - stakedOf a))

/-- What happened to the wallet's stake accounts together. -/
def stakeMoves (m m' : Mem) (wallet : Key) (rest : List Meta) : Nat :=
  ((rest.filter fun a => decide (WalletStake m wallet a)).map fun a => stakeMove (m a.key) (m' a.key)).sum

/-- The stake accounts of the wallet are not resized (the Stake program never resizes an account). -/
def StakeSize (m m' : Mem) (wallet : Key) (rest : List Meta) : Prop :=
  ∀ a ∈ rest, WalletStake m wallet a → (m' a.key).data.length = (m a.key).data.length

/-- A stake account of the wallet whose two versions collide. -/
def StakeClash (env : Env) (m m1 : Mem) (wallet : Key) (rest : List Meta) : Prop :=
  ∃ a ∈ rest, WalletStake m wallet a ∧ ClashExcept env [(0, 4), (124, 200)] (m a.key) (m1 a.key)

end Verif
