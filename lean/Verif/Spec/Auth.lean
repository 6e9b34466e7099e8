import Verif.Model.World

/-!
# Specification of stored credentials

What a stored authority record means, independently of offsets: a main credential and, for session roles, a session.
-/

namespace Verif

/-- A running session: its key, the configured maximum duration, the last slot at which it is valid. -/
structure Session where
  key : Key
  max : Nat
  expiry : Nat
  deriving DecidableEq, Repr

/-- Main credential of a role. -/
inductive Cred where
  /-- The signer key. -/
  | ed25519 (pk : Key)
  /-- Compressed key, three padding bytes, replay counter. -/
  | secp256k1 (pk pad : Bytes) (odometer : Nat)
  | secp256r1 (pk pad : Bytes) (odometer : Nat)
  /-- Program, length of the instruction-data prefix, padding, prefix buffer of 40 bytes. -/
  | exec (program : Key) (prefixLen : UInt8) (pad buf : Bytes)
  deriving DecidableEq, Repr

/-- A stored authority. -/
structure Auth where
  cred : Cred
  session : Option Session
  deriving DecidableEq, Repr

def Session.encode (s : Session) : Bytes := s.key ++ natLE 8 s.max ++ natLE 8 s.expiry

def Cred.encode : Cred → Bytes
  | .ed25519 pk => pk
  | .secp256k1 pk pad n => pk ++ pad ++ natLE 4 n
  | .secp256r1 pk pad n => pk ++ pad ++ natLE 4 n
  | .exec p n pad buf => p ++ [n] ++ pad ++ buf

def Auth.encode (a : Auth) : Bytes :=
  a.cred.encode ++ (match a.session with | none => [] | some s => s.encode)

/-- Type number: 1, 3, 5, 7 without a session, 2, 4, 6, 8 with one. -/
def Auth.ty (a : Auth) : Nat :=
  (match a.cred with
    | .ed25519 .. => 1
    | .secp256k1 .. => 3
    | .secp256r1 .. => 5
    | .exec .. => 7) + (if a.session.isSome then 1 else 0)

structure Session.WF (s : Session) : Prop where
  key : s.key.length = 32
  max : s.max < 2 ^ 64
  expiry : s.expiry < 2 ^ 64

def Cred.WF : Cred → Prop
  | .ed25519 pk => pk.length = 32
  | .secp256k1 pk pad n => pk.length = 33 ∧ pad.length = 3 ∧ n < 2 ^ 32
  | .secp256r1 pk pad n => pk.length = 33 ∧ pad.length = 3 ∧ n < 2 ^ 32
  | .exec p _ pad buf => p.length = 32 ∧ pad.length = 7 ∧ buf.length = 40

structure Auth.WF (a : Auth) : Prop where
  cred : a.cred.WF
  session : ∀ s, a.session = some s → s.WF

/-- Key and replay counter of a secp credential. -/
def Cred.secp : Cred → Option (Bytes × Nat)
  | .secp256k1 pk _ n => some (pk, n)
  | .secp256r1 pk _ n => some (pk, n)
  | _ => none

/-- The credential with another replay counter. -/
def Cred.withOdometer (c : Cred) (m : Nat) : Cred :=
  match c with
  | .secp256k1 pk pad _ => .secp256k1 pk pad m
  | .secp256r1 pk pad _ => .secp256r1 pk pad m
  | c => c

/-! ## Transactions -/

/-- An instruction of the transaction, as the runtime publishes it in the instructions sysvar. -/
structure TxIx where
  program : Key
  accounts : List Meta
  data : Bytes
  deriving DecidableEq, Repr

/-- Serialised instruction: account count, account records (flags and key), program, data length, data. -/
def TxIx.encode (i : TxIx) : Bytes :=
  natLE 2 i.accounts.length ++
  i.accounts.flatMap (fun m => UInt8.ofNat ((if m.signer then 1 else 0) + (if m.writable then 2 else 0)) :: m.key) ++
  i.program ++ natLE 2 i.data.length ++ i.data

/-- Offsets of the serialised instructions, the first one at `o`. -/
def ixOffsets (o : Nat) : List TxIx → List Nat
  | [] => []
  | i :: is => o :: ixOffsets (o + i.encode.length) is

/-- Data of the instructions sysvar (runtime format): instruction count, offsets, instructions, index of the one being
executed. -/
def sysvarEncode (ixs : List TxIx) (cur : Nat) : Bytes :=
  natLE 2 ixs.length ++ (ixOffsets (2 + 2 * ixs.length) ixs).flatMap (natLE 2) ++ ixs.flatMap TxIx.encode ++ natLE 2 cur

/-- The transaction fits the format and `cur` is one of its instructions. -/
structure TxOk (ixs : List TxIx) (cur : Nat) : Prop where
  inTx : cur < ixs.length
  size : (sysvarEncode ixs cur).length < 2 ^ 16
  keys : ∀ i ∈ ixs, i.program.length = 32 ∧ ∀ m ∈ i.accounts, m.key.length = 32

/-- What the secp256r1 precompile has verified when an instruction with data `d` succeeded, for the one-signature layout in which
all offsets refer to the instruction itself: a signature by the key at the given offset over the message at the given offset and
size. -/
structure R1Layout (d key msg : Bytes) : Prop where
  one : d.head? = some 1
  selfSig : rd d 4 2 = 0xFFFF
  selfKey : rd d 8 2 = 0xFFFF
  selfMsg : rd d 14 2 = 0xFFFF
  keyAt : sl d (rd d 6 2) (rd d 6 2 + 33) = key
  msgAt : sl d (rd d 10 2) (rd d 10 2 + rd d 12 2) = msg

end Verif
