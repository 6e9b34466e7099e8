import Verif.Model.Process
import Verif.Spec.Wallet

/-! What a request has to meet to be accepted (property C109): words used by its theorems. -/

namespace Verif

/-- The account holds the rent minimum of `n` bytes, or the payer, an ordinary account that signed, holds what is missing and both may be
written. -/
def Topped (env : Env) (m : Mem) (payer swig : Meta) (n : Nat) : Prop :=
  env.rent n ≤ (m swig.key).lamports ∨
    (payer.signer = true ∧ payer.writable = true ∧ swig.writable = true ∧ (m payer.key).owner = systemId ∧ (m payer.key).data = [] ∧
      env.rent n ≤ (m swig.key).lamports + (m payer.key).lamports)

/-- The wallet has a role `id`, namely `r`, and its credential (or open session) accepts the request `data` with the proof `payload`.
When a credential accepts is the subject of C24 to C31, C62, C63 and C108. -/
def Speaks (env : Env) (m : Mem) (metas : List Meta) (w : Wallet) (id : Nat) (payload data : Bytes) (r : Role) : Prop :=
  w.role? id = some r ∧ ∃ x, authRole env r.authType r.auth metas (m instructionsSysvarId).data payload data = .ok x

/-- If the wallet address holds lamports, they can be paid out to `dst`: the program (or the transaction) signs for the address, which is
an ordinary account, and both may be written. -/
def Emptied (env : Env) (m : Mem) (swig : Key) (bump : UInt8) (wallet dst : Meta) : Prop :=
  0 < (m wallet.key).lamports →
    (∃ k, env.pda (walletSeeds swig ++ [[bump]]) = some k ∧ (k = wallet.key ∨ wallet.signer = true)) ∧ wallet.writable = true ∧
      dst.writable = true ∧ (m wallet.key).owner = systemId ∧ (m wallet.key).data = []

/-- The program carries the request out. -/
def Accepted (env : Env) (cpi : Cpi) (m : Mem) (metas : List Meta) (ix : Bytes) : Prop := ∃ m', process env cpi m metas ix = .ok m'

/-- The operation an update asks for, with the number of actions it states: a stated number (or no operand) means that the operand is the
new list; otherwise the first byte of the operand says what to do. -/
inductive AsksUpdate : UInt8 → Bytes → UpdateOp → Prop where
  | listed {n : UInt8} {b : Bytes} : n ≠ 0 ∨ b = [] → AsksUpdate n b (.replaceAll b)
  | all {b : Bytes} : AsksUpdate 0 (0 :: b) (.replaceAll b)
  | add {b : Bytes} : AsksUpdate 0 (1 :: b) (.add b)
  | types {b : Bytes} : AsksUpdate 0 (2 :: b) (.removeTypes b)
  | positions {l : List Nat} : (∀ i ∈ l, i < 2 ^ 16) → AsksUpdate 0 (3 :: l.flatMap (natLE 2)) (.removeIndices l)

/-- How many bytes the account has to grow for the operation when the role's permissions take `cur` bytes. -/
def UpdateOp.extra (cur : Nat) : UpdateOp → Nat
  | .replaceAll acts => acts.length - cur
  | .add acts => acts.length
  | .removeTypes _ => 0
  | .removeIndices _ => 0

end Verif
