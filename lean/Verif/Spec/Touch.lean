import Verif.Model.Process
import Verif.Spec.Client
import Verif.Spec.Allowed

/-!
# What a request touches

The rule of the runtime that an instruction may only change accounts passed writable, stated for the programs the wallet program calls
(`Cpi.Respects`) and for the wallet program itself (`OnlyWritable`), and all requests the client library builds (`Library`).
-/

namespace Verif

/-- The runtime rule: from `m` to `m'` only accounts passed writable change. -/
def OnlyWritable (metas : List Meta) (m m' : Mem) : Prop := ∀ k, m' k ≠ m k → Writable metas k

/-- The runtime rule for the calls the program makes: a called program changes only accounts the call passes writable. -/
def Cpi.Respects (cpi : Cpi) : Prop := ∀ m ix m', cpi m ix = .ok m' → OnlyWritable ix.accounts m m'

/-- The called programs do not give the account `k` to another owner while it belongs to the System program. -/
def Cpi.Leaves (cpi : Cpi) (k : Key) : Prop := ∀ m ix m', (m k).owner = systemId → cpi m ix = .ok m' → (m' k).owner = systemId

/-- Positions of the accounts a request writes itself, without the System program or another program checking the flag: the configuration
account; the payer, who gets rent back, when a role is removed or changed; the wallet address when assets are moved there; the
destination when the wallet is closed; the state of a V2 sub-account when it is toggled.  Creating a wallet writes nothing by itself. -/
def ownWrites (number : Nat) : List Nat :=
  if number = 2 ∨ number = 3 ∨ number = 13 then [0, 1]
  else if number = 15 ∨ number = 19 then [0, 2]
  else if number ∈ [1, 5, 6, 7, 9, 10, 11, 12, 14, 16, 17, 18, 20, 21] then [0]
  else []

/-- The requests of the client library for one wallet, with the caller they are built for. -/
inductive Library (env : Env) (swig : Key) : Client.Caller → Client.Built → Prop
  | create (payer wallet : Key) (bump walletBump : UInt8) (ty : Nat) (cred : Bytes) (acts : List Client.Action) (id : Key) (c : Client.Caller) :
      Library env swig c (Client.create swig payer wallet bump walletBump ty cred acts id)
  | add (payer : Key) (acting ty : Nat) (cred : Bytes) (acts : List Client.Action) (c : Client.Caller) :
      Library env swig c (Client.addAuthority env swig payer acting ty cred acts c)
  | remove (payer : Key) (acting target : Nat) (c : Client.Caller) :
      Library env swig c (Client.removeAuthority env swig payer acting target c)
  | update (payer : Key) (acting target : Nat) (ch : Client.Change) (c : Client.Caller) :
      Library env swig c (Client.updateAuthority env swig payer acting target ch c)
  | session (payer : Key) (role duration : Nat) (key : Key) (c : Client.Caller) :
      Library env swig c (Client.createSession env swig payer role duration key c)
  | claimer (payer : Key) (role : Nat) (k : Key) (c : Client.Caller) {b : Client.Built} :
      Client.setRentClaimer env swig payer role k c = some b → Library env swig c b
  | replace (wallet : Key) (acting target : Nat) (new : Bytes) (c : Client.Caller) {b : Client.Built} :
      Client.replaceAuthority env swig wallet acting target new c = some b → Library env swig c b
  | sign (wallet payer : Key) (role : Nat) (inner : FullIx) (signers : List Key) (c : Client.Caller) :
      Library env swig c (Client.signV2 env swig wallet payer role inner signers c)
  | createSubV1 (payer sub : Key) (role : Nat) (bump : UInt8) (c : Client.Caller) :
      Library env swig c (Client.createSubV1 env swig payer sub role bump c)
  | withdrawSubV1 (payer sub wallet : Key) (role amount : Nat) (c : Client.Caller) :
      Library env swig c (Client.withdrawSubV1 env swig payer sub wallet role amount c)
  | withdrawSubTokenV1 (payer sub wallet : Key) (t : Client.Tokens) (role amount : Nat) (c : Client.Caller) :
      Library env swig c (Client.withdrawSubTokenV1 env swig payer sub wallet t role amount c)
  | subSignV1 (payer sub : Key) (role : Nat) (inner : List FullIx) (c : Client.Caller) :
      Library env swig c (Client.subSignV1 env swig payer sub role inner c)
  | toggleSubV1 (payer sub : Key) (role authRole : Nat) (enabled : Bool) (c : Client.Caller) :
      Library env swig c (Client.toggleSubV1 env swig payer sub role authRole enabled c)
  | transferAssets (wallet payer : Key) (role : Nat) (c : Client.Caller) :
      Library env swig c (Client.transferAssets env swig wallet payer role c)
  | closeTokens (wallet dst program : Key) (role : Nat) (tokens : List Key) (c : Client.Caller) {b : Client.Built} :
      Client.closeTokens env swig wallet dst program role tokens c = some b → Library env swig c b
  | closeSwig (wallet dst : Key) (role : Nat) (c : Client.Caller) {b : Client.Built} :
      Client.closeSwig env swig wallet dst role c = some b → Library env swig c b
  | createSubV2 (payer state sub : Key) (role : Nat) (stateBump assetBump : UInt8) (c : Client.Caller) {b : Client.Built} :
      Client.createSubV2 env swig payer state sub role stateBump assetBump c = some b → Library env swig c b
  | toggleSubV2 (payer state : Key) (authRole id : Nat) (enabled : Bool) (c : Client.Caller) {b : Client.Built} :
      Client.toggleSubV2 env swig payer state authRole id enabled c = some b → Library env swig c b
  | subSignV2 (state sub : Key) (role id : Nat) (inner : List FullIx) (c : Client.Caller) {b : Client.Built} :
      Client.subSignV2 env swig state sub role id inner c = some b → Library env swig c b
  | withdrawSubV2 (payer state sub wallet : Key) (tokens : Option Client.Tokens) (role id amount : Nat) (c : Client.Caller)
      {b : Client.Built} :
      Client.withdrawSubV2 env swig payer state sub wallet tokens role id amount c = some b → Library env swig c b

end Verif
