import Verif.Model.Runtime

/-!
# Inner instructions

The crate `instructions/` (compact instruction format, `InstructionIterator`, `InstructionHolder::execute`) and the interface to
other programs.  What a called program does is a parameter `Cpi`: theorems quantify over it, so they hold for every behaviour
of every called program.
-/

namespace Verif

/-- `InstructionError`, instructions/src/lib.rs:26-33. -/
def errMissingInstructions : Err := .custom 2000
def errMissingAccountInfo : Err := .custom 2001
def errMissingData : Err := .custom 2002

/-- An instruction handed to another program. -/
structure CpiIx where
  program : Key
  accounts : List Meta
  data : Bytes
  deriving DecidableEq, Repr

/-- A called program (and everything it calls): any function of the ledger and the instruction.  A failed call aborts the whole
transaction (runtime rule), so there is no result to inspect. -/
abbrev Cpi := Mem → CpiIx → R Mem

/-- `invoke_signed`: the runtime derives the program address from the seeds (an error if they are invalid), refuses privileges
the caller does not have, then runs the called program.  `outer` are the accounts of the calling instruction. -/
def invokeSigned (env : Env) (cpi : Cpi) (m : Mem) (outer : List Meta) (ix : CpiIx) (seeds : List Bytes) : R Mem :=
  match env.pda seeds with
  | none => .error .runtime
  | some k =>
    if ∀ a ∈ ix.accounts, (a.signer = true → a.key = k ∨ ∃ o ∈ outer, o.key = a.key ∧ o.signer = true) ∧
        (a.writable = true → ∃ o ∈ outer, o.key = a.key ∧ o.writable = true) then cpi m ix
    else .error .runtime

/-- `pinocchio_system::instructions::Transfer { .. }.invoke_signed(&[seeds])`: the program signs for the address derived from
the seeds. -/
def signedTransfer (env : Env) (m : Mem) (seeds : List Bytes) (src dst : Meta) (n : Nat) : R Mem :=
  match env.pda seeds with
  | none => .error .runtime
  | some k => sysTransfer m { src with signer := src.signer || decide (k = src.key) } dst n

/-- `Allocate { .. }.invoke_signed` then `Assign { .. }.invoke_signed` of the System program: wants a signature of the account,
which must be System-owned and empty. -/
def sysAllocAssign (env : Env) (m : Mem) (seeds : List Bytes) (acct : Meta) (space : Nat) (owner : Key) : R Mem :=
  match env.pda seeds with
  | none => .error .runtime
  | some k =>
    if acct.writable = false ∨ (acct.signer = false ∧ k ≠ acct.key) then .error .runtime
    else if (m acct.key).owner ≠ systemId ∨ (m acct.key).data ≠ [] then .error .runtime
    else if space > maxGrowth then .error .runtime
    else .ok (m.set acct.key { owner := owner, lamports := (m acct.key).lamports, data := zeros space })

/-- `TokenTransfer::invoke_signed`, program/src/util/mod.rs:262-287. -/
def tokenTransfer (env : Env) (cpi : Cpi) (m : Mem) (outer : List Meta) (program src dst auth : Key) (amount : Nat)
    (seeds : List Bytes) : R Mem :=
  invokeSigned env cpi m outer
    ⟨program, [⟨src, false, true⟩, ⟨dst, false, true⟩, ⟨auth, true, false⟩], 3 :: natLE 8 amount⟩ seeds

/-- `TokenClose::invoke_signed`, program/src/util/mod.rs:319-342. -/
def tokenClose (env : Env) (cpi : Cpi) (m : Mem) (outer : List Meta) (program acct dst auth : Key) (seeds : List Bytes) : R Mem :=
  invokeSigned env cpi m outer ⟨program, [⟨acct, false, true⟩, ⟨dst, false, true⟩, ⟨auth, true, false⟩], [9]⟩ seeds

/-! ## Decoding -/

/-- `InstructionHolder`, instructions/src/lib.rs:49-56 (`cpi_accounts` are the accounts at `indexes`). -/
structure Inner where
  program : Key
  indexes : List Nat
  accounts : List Meta
  data : Bytes
  usesSigner : Bool
  deriving DecidableEq, Repr

def Inner.cpi (i : Inner) : CpiIx := ⟨i.program, i.accounts, i.data⟩

/-- `read_u8`, instructions/src/lib.rs:333-339. -/
def readU8 (b : Bytes) (c : Nat) : R (Nat × Nat) :=
  if c ≥ b.length then .error errMissingData else .ok ((b.getD c 0).toNat, c + 1)

/-- `read_u16`, instructions/src/lib.rs:347-355. -/
def readU16 (b : Bytes) (c : Nat) : R (Nat × Nat) :=
  if c + 2 > b.length then .error errMissingData else .ok (rd b c 2, c + 2)

/-- `read_slice`, instructions/src/lib.rs:366-374. -/
def readSlice (b : Bytes) (c len : Nat) : R (Bytes × Nat) :=
  if c + len > b.length then .error errMissingData else .ok (sl b c (c + len), c + len)

/-- The flags of one account of an inner instruction, instructions/src/lib.rs:294-304. -/
def innerMeta (signer : Key) (restricted : List Key) (a : Meta) : Meta :=
  { a with signer := (a.key == signer || a.signer) && !restricted.contains a.key }

/-- Account loop of `parse_next_instruction`, instructions/src/lib.rs:289-306: indices, accounts, cursor.  The arrays have
`MAX_ACCOUNTS` = 254 slots: writing the 255th panics. -/
def innerAccountsGo (metas : List Meta) (signer : Key) (restricted : List Key) (b : Bytes) :
    Nat → Nat → Nat → R (List Nat × List Meta × Nat)
  | 0, _, c => .ok ([], [], c)
  | n + 1, i, c => do
    let (idx, c) ← readU8 b c
    let a ← getOr metas idx errMissingAccountInfo
    if i ≥ 254 then .error .panic
    else do
      let (is, as, c) ← innerAccountsGo metas signer restricted b n (i + 1) c
      .ok (idx :: is, innerMeta signer restricted a :: as, c)

/-- `parse_next_instruction`, instructions/src/lib.rs:274-325.  The source keeps pointers to its local arrays in the result;
the model takes their contents. -/
def parseNext (metas : List Meta) (signer : Key) (restricted : List Key) (b : Bytes) (c : Nat) : R (Inner × Nat) := do
  let (p, c) ← readU8 b c
  let program ← getOr metas p errMissingAccountInfo
  let (n, c) ← readU8 b c
  let (is, as, c) ← innerAccountsGo metas signer restricted b n 0 c
  let (len, c) ← readU16 b c
  let (data, c) ← readSlice b c len
  .ok (⟨program.key, is, as, data, as.any fun a => a.signer && a.key == signer⟩, c)

/-- The iterator run to its end, instructions/src/lib.rs:249-255. -/
def decodeGo (metas : List Meta) (signer : Key) (restricted : List Key) (b : Bytes) : Nat → Nat → R (List Inner)
  | 0, _ => .ok []
  | n + 1, c => do
    let (ix, c) ← parseNext metas signer restricted b c
    let rest ← decodeGo metas signer restricted b n c
    .ok (ix :: rest)

/-- `InstructionIterator::new` (instructions/src/lib.rs:220-239) and all its items.  The handlers execute each instruction before
they parse the next; as a failure undoes everything, decoding first changes no outcome but the error code. -/
def decodeIxs (metas : List Meta) (signer : Key) (restricted : List Key) (b : Bytes) : R (List Inner) :=
  if b = [] then .error errMissingInstructions
  else decodeGo metas signer restricted b (b.getD 0 0).toNat 1

/-! ## Executing -/

/-- Direct transfer of `InstructionHolder::execute`, instructions/src/lib.rs:85-101: plain `-=` and `+=` on `u64`, which wrap in
a release build. -/
def directTransfer (m : Mem) (src dst : Key) (n : Nat) : Mem :=
  let m := m.setLamports src (sub64 (m src).lamports n)
  m.setLamports dst (add64 (m dst).lamports n)

/-- `InstructionHolder::execute`, instructions/src/lib.rs:59-108.  A System transfer from the signing address is done by hand
when that address no longer belongs to the System program.  `get_unchecked` outside the account list is `Err.ub`. -/
def execInner (env : Env) (cpi : Cpi) (m : Mem) (metas : List Meta) (signer : Key) (seeds : List Bytes) (ix : Inner) :
    R Mem :=
  if ix.program = systemId ∧ 12 ≤ ix.data.length ∧ ix.data.take 4 = [2, 0, 0, 0] then
    match ix.accounts with
    | [] => .error .ub
    | a :: rest =>
      if a.key = signer ∧ (m a.key).owner ≠ systemId then
        match rest with
        | [] => .error .ub
        | d :: _ => .ok (directTransfer m a.key d.key (rd ix.data 4 8))
      else invokeSigned env cpi m metas ix.cpi seeds
  else invokeSigned env cpi m metas ix.cpi seeds

/-- Execute instructions one after the other. -/
def execAll (env : Env) (cpi : Cpi) (metas : List Meta) (signer : Key) (seeds : List Bytes) : Mem → List Inner → R Mem
  | m, [] => .ok m
  | m, ix :: rest => do
    let m ← execInner env cpi m metas signer seeds ix
    execAll env cpi metas signer seeds m rest

/-! ## Client side, instructions/src/compact_instructions.rs -/

/-- `CompactInstruction`, compact_instructions.rs:162-166. -/
structure CompactIx where
  program : UInt8
  accounts : List UInt8
  data : Bytes
  deriving DecidableEq, Repr

/-- One turn of the loop of `CompactInstructions::into_bytes`, compact_instructions.rs:196-202. -/
def CompactIx.bytes (i : CompactIx) : Bytes :=
  [i.program, UInt8.ofNat i.accounts.length] ++ i.accounts ++ natLE 2 i.data.length ++ i.data

/-- `CompactInstructions::into_bytes`, compact_instructions.rs:194-204. -/
def compactBytes (ixs : List CompactIx) : Bytes := UInt8.ofNat ixs.length :: ixs.flatMap CompactIx.bytes

/-- An uncompacted instruction (`solana_program::instruction::Instruction`). -/
abbrev FullIx := CpiIx

/-- The map from keys to indices: association list, later entries win as in a `HashMap` built by `collect`. -/
abbrev KeyMap := List (Key × Nat)

def KeyMap.find (h : KeyMap) (k : Key) : Option Nat := (List.find? (fun e => e.1 == k) h).map (·.2)

/-- The map collected from the initial accounts, compact_instructions.rs:40-44: for a repeated key the last index. -/
def KeyMap.ofMetas : Nat → List Meta → KeyMap → KeyMap
  | _, [], h => h
  | i, a :: as, h => KeyMap.ofMetas (i + 1) as ((a.key, i) :: h)

/-- Account loop, compact_instructions.rs:49-62 and 108-124; `own` are the addresses whose signer flag is cleared. -/
def compactAccounts (own : List Key) : List Meta → List Meta → KeyMap → List UInt8 × List Meta × KeyMap
  | [], accounts, h => ([], accounts, h)
  | a :: as, accounts, h =>
    let a := if own.contains a.key then { a with signer := false } else a
    match h.find a.key with
    | some i =>
      let (is, accounts, h) := compactAccounts own as accounts h
      (UInt8.ofNat i :: is, accounts, h)
    | none =>
      let idx := accounts.length
      let (is, accounts, h) := compactAccounts own as (accounts ++ [a]) ((a.key, idx) :: h)
      (UInt8.ofNat idx :: is, accounts, h)

/-- Instruction loop, compact_instructions.rs:45-68 and 104-130. -/
def compactLoop (own : List Key) : List FullIx → List Meta → KeyMap → List CompactIx × List Meta
  | [], accounts, _ => ([], accounts)
  | ix :: rest, accounts, h =>
    let p := accounts.length
    let (is, accounts, h) := compactAccounts own ix.accounts (accounts ++ [⟨ix.program, false, false⟩]) h
    let (cs, accounts) := compactLoop own rest accounts h
    (⟨UInt8.ofNat p, is, ix.data⟩ :: cs, accounts)

/-- `compact_instructions` (`own` = the wallet, compact_instructions.rs:34-76) and `compact_instructions_sub_account` (`own` =
the wallet and the sub-account, 93-139): the outer account list and the compact instructions. -/
def compactInstructions (own : List Key) (accounts : List Meta) (ixs : List FullIx) : List Meta × List CompactIx :=
  let (cs, accounts) := compactLoop own ixs accounts (KeyMap.ofMetas 0 accounts [])
  (accounts, cs)

end Verif
