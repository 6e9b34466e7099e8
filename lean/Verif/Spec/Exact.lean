import Verif.Spec.Sign
import Verif.Spec.Stake

/-!
# What an account loses instruction by instruction
-/

namespace Verif

/-- What `f` says about the account `k` before and after each of the instructions `ixs`, executed one after the other. -/
def changeEach (f : Acct → Acct → Nat) (env : Env) (cpi : Cpi) (metas : List Meta) (signer : Key) (seeds : List Bytes) (k : Key) :
    Mem → List Inner → List Nat
  | _, [] => []
  | m, ix :: rest =>
    match execInner env cpi m metas signer seeds ix with
    | .ok m' => f (m k) (m' k) :: changeEach f env cpi metas signer seeds k m' rest
    | .error _ => []

/-- Tokens that left a token account. -/
def tokensOut (a a' : Acct) : Nat := tokensOf a - tokensOf a'

/-- All that `f` says about the account `k` in the inner instructions of the request, added up. -/
def addedUp (f : Acct → Acct → Nat) (env : Env) (cpi : Cpi) (m : Mem) (metas : List Meta) (swig wallet : Meta) (ix : Bytes) (w : Wallet)
    (ixs : List Inner) (k : Key) : Nat :=
  (changeEach f env cpi metas wallet.key (walletSeeds swig.key ++ [[w.walletBump]]) k (m.setData swig.key (w.used (rd ix 4 4)).encode) ixs).sum

/-- The token accounts of the mint that belong to the wallet address, as they are listed in the request: writable ones; an account that is listed twice
counts twice. -/
def listedTokens (m' : Mem) (wallet : Key) (mint : Bytes) (rest : List Meta) : List Meta :=
  rest.filter fun a => decide (a.writable = true ∧ sl (m' a.key).data 32 64 = wallet ∧ mintOf (m' a.key) = mint)

/-- The stake accounts listed in the request: writable ones. -/
def listedStakes (m : Mem) (rest : List Meta) : List Meta := rest.filter fun a => decide (a.writable = true ∧ (m a.key).owner = stakeId)

/-- The stake accounts of the request do not shrink in any of the inner instructions (the Stake program never resizes an account). -/
def StakeKept (env : Env) (cpi : Cpi) (m : Mem) (metas : List Meta) (swig wallet : Meta) (ix : Bytes) (w : Wallet) (ixs : List Inner) : Prop :=
  ∀ a ∈ metas, (m a.key).owner = stakeId → ∀ n ∈ changeEach (fun _ a' => a'.data.length) env cpi metas wallet.key
    (walletSeeds swig.key ++ [[w.walletBump]]) a.key (m.setData swig.key (w.used (rd ix 4 4)).encode) ixs, 164 ≤ n

end Verif
