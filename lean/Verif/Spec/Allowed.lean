import Verif.Spec.Client
import Verif.Spec.Sign

/-!
# What the limits of a role allow

The vocabulary of property C79: when a role may call a program, when an amount is covered by its limits, and what is left of them.
-/

namespace Verif
open Client

/-- The flags of an account hold for the whole instruction: an account passed twice has the same flags (a rule of the runtime). -/
def SameFlags (metas : List Meta) : Prop := ∀ a ∈ metas, ∀ b ∈ metas, a.key = b.key → a = b

/-- The call that the request asks for: the program, accounts and data of `ix`; the wallet address signs; the other accounts have the
flags they were passed with. -/
def asCalled (metas : List Meta) (wallet : Key) (ix : FullIx) : CpiIx where
  program := ix.program
  accounts := ix.accounts.map fun a =>
    ⟨a.key, a.key == wallet || metas.any (fun o => o.key == a.key && o.signer), metas.any (fun o => o.key == a.key && o.writable)⟩
  data := ix.data

/-- The role may call the program. -/
def MayInvoke (acts : List Act) (program : Key) : Prop :=
  ∃ a ∈ acts, a.ty = P.programAll ∨ (a.ty = P.programCurated ∧ isCurated program = true) ∨ (a.ty = P.program ∧ a.data = program)

/-- Spending `n` at `slot` turns `acts` into `acts'`: the limit `lim`, the first of its kind (for the same mint or destination), becomes
`lim'`. -/
def Takes (acts acts' : List Act) (lim lim' : Action) (n slot : Nat) : Prop :=
  lim.InRange ∧ lim.spend n slot = some lim' ∧ ∃ pre post, acts = pre ++ lim.toAct :: post ∧ acts' = pre ++ lim'.toAct :: post ∧
    ∀ x ∈ pre, ¬ x.grants lim.header.1 lim.key

/-- Spending `n` under the limit of kind `t1` for `key` or, if there is none, under the one of kind `t2`. -/
def TakesOf (t1 t2 : Nat) (key : Bytes) (acts acts' : List Act) (n slot : Nat) : Prop :=
  ∃ lim lim', Takes acts acts' lim lim' n slot ∧ lim.key = key ∧
    (lim.header.1 = t1 ∨ (lim.header.1 = t2 ∧ ∀ x ∈ acts, ¬ x.grants t1 key))

/-- No limit of the kinds `t1` and `t2` for `key`. -/
def NoneOf (t1 t2 : Nat) (key : Bytes) (acts : List Act) : Prop := ∀ x ∈ acts, ¬ x.grants t1 key ∧ ¬ x.grants t2 key

/-- The role has no destination limits for SOL. -/
def NoSolDest (acts : List Act) : Prop := ∀ x ∈ acts, x.ty ≠ P.solDestinationLimit ∧ x.ty ≠ P.solRecurringDestinationLimit

/-- The role has no destination limits for the mint. -/
def NoTokenDest (mint : Key) (acts : List Act) : Prop :=
  ∀ x ∈ acts, x.ty = P.tokenDestinationLimit ∨ x.ty = P.tokenRecurringDestinationLimit → x.data.take 32 ≠ mint

/-- The general SOL limits cover `n`. -/
def SolTakes (acts acts' : List Act) (n slot : Nat) : Prop := TakesOf P.solLimit P.solRecurringLimit [] acts acts' n slot

/-- The SOL limits for `dst` cover `n`. -/
def SolDestTakes (dst : Key) (acts acts' : List Act) (n slot : Nat) : Prop :=
  TakesOf P.solRecurringDestinationLimit P.solDestinationLimit dst acts acts' n slot

/-- The SOL limits cover a payment of `n` to `dst`: the general ones and those for the destination, of each kind that is there, and one
must be there. -/
def SolCovers (dst : Key) (acts acts' : List Act) (n slot : Nat) : Prop :=
  (SolTakes acts acts' n slot ∧ NoSolDest acts) ∨
  (NoneOf P.solLimit P.solRecurringLimit [] acts ∧ SolDestTakes dst acts acts' n slot) ∨
  ∃ mid, SolTakes acts mid n slot ∧ SolDestTakes dst mid acts' n slot

/-- The token limits for the mint cover `n`. -/
def TokenTakes (mint : Key) (acts acts' : List Act) (n slot : Nat) : Prop :=
  TakesOf P.tokenLimit P.tokenRecurringLimit mint acts acts' n slot

/-- The token limits for mint and destination cover `n`. -/
def TokenDestTakes (mint dst : Key) (acts acts' : List Act) (n slot : Nat) : Prop :=
  TakesOf P.tokenRecurringDestinationLimit P.tokenDestinationLimit (mint ++ dst) acts acts' n slot

/-- The token limits cover a payment of `n` of the mint to the token account `dst`. -/
def TokenCovers (mint dst : Key) (acts acts' : List Act) (n slot : Nat) : Prop :=
  (TokenTakes mint acts acts' n slot ∧ NoTokenDest mint acts) ∨
  (NoneOf P.tokenLimit P.tokenRecurringLimit mint acts ∧ TokenDestTakes mint dst acts acts' n slot) ∨
  ∃ mid, TokenTakes mint acts mid n slot ∧ TokenDestTakes mint dst mid acts' n slot

/-- The account is passed as writable. -/
def Writable (metas : List Meta) (k : Key) : Prop := ∃ a ∈ metas, a.key = k ∧ a.writable = true

/-- A transfer instruction of the System program. -/
def solPayment (src dst : Key) (n : Nat) : FullIx := ⟨systemId, [⟨src, true, true⟩, ⟨dst, false, true⟩], natLE 4 2 ++ natLE 8 n⟩

/-- The instructions `Transfer` and `TransferChecked` of the Token program or Token-2022. -/
inductive TokenPayment (src dst : Key) (n : Nat) (ix : FullIx) : Prop
  | plain (auth : Key) (program : ix.program = tokenId ∨ ix.program = token2022Id) (accounts : ix.accounts.map (·.key) = [src, dst, auth])
      (data : ix.data = 3 :: natLE 8 n)
  | checked (auth mint : Key) (decimals : UInt8) (program : ix.program = tokenId ∨ ix.program = token2022Id)
      (accounts : ix.accounts.map (·.key) = [src, mint, dst, auth]) (data : ix.data = 12 :: natLE 8 n ++ [decimals])

/-- The balance of a token account. -/
def tokenBalance (a : Acct) : Nat := rd a.data 64 8

/-- A token account, of the Token program or Token-2022, with the given authority. -/
structure TokenOf (m : Mem) (authority k : Key) : Prop where
  program : (m k).owner = tokenId ∨ (m k).owner = token2022Id
  long : 165 ≤ (m k).data.length
  authority : sl (m k).data 32 64 = authority

/-- A live token account that is the same as before except for its balance. -/
structure SameButBalance (a b : Acct) : Prop where
  owner : b.owner = a.owner
  length : b.data.length = a.data.length
  before : b.data.take 64 = a.data.take 64
  after : b.data.drop 72 = a.data.drop 72
  alive : b.lamports ≠ 0
  initialized : a.data.getD 108 0 = 1

/-- A limited role asks for the instruction `inner` with a request of the client library: the request is ready and authorized, the second
account is the wallet address, the request is a transaction instruction of its own and of ordinary size, and the role may call the program.
No token account of the configuration address is passed (property C79, note). -/
structure Asks (env : Env) (m : Mem) (metas : List Meta) (swig wallet payer : Key) (w : Wallet) (role : Nat) (inner : FullIx)
    (signers : List Key) (r : Role) (a : Auth) (c : Caller) (pre post : List TxIx) : Prop where
  hash : HashLength env
  ready : Ready env m swig w role r a metas (Client.signV2 env swig wallet payer role inner signers c) pre post
  authorized : ActsFor env a metas (Client.signV2 env swig wallet payer role inner signers c) pre c
  restricted : Restricted r
  address : env.pda (walletSeeds swig ++ [[w.walletBump]]) = some wallet
  system : (m wallet).owner = systemId
  funds : (m wallet).lamports < 2 ^ 64
  top : env.stackHeight = 1
  flags : SameFlags metas
  accounts : (Client.signV2 env swig wallet payer role inner signers c).accounts.length ≤ 64
  data : (Client.signV2 env swig wallet payer role inner signers c).data.length < 2 ^ 16
  call : inner.accounts ≠ [] ∧ inner.accounts.length ≤ 254 ∧ inner.data.length < 2 ^ 16
  mayCall : MayInvoke r.actions inner.program
  foreign : ∀ x ∈ metas, ¬ TokenOf m swig x.key

end Verif
