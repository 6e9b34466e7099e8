# Formal model of swig-wallet: design

Subject: `/repo` (anagrambuild/swig-wallet at the pinned commit), a Solana program written with
pinocchio, its state crate, its compact-instruction crate and the client library that builds requests.  Tool: Lean 4.33.0.

## 1. Shape of the model

Three layers.

1. **Byte layer (`Verif/Model/*`)**.  Account data is a `List UInt8`.  The functions of the state crate that
   walk, grow, shift and patch this buffer are transcribed with the same cursors, the same bounds
   checks, the same order of checks and the same error values.  `&mut` becomes "returns the new
   value".  A panic (slice out of range, division by zero) is the error value `Err.panic`.
   Loops are fuelled or structural recursions; the fuel of a cursor loop is the buffer length, and
   running out of fuel is the error `Err.outOfFuel` (the compute budget), never a success.
2. **Specification layer (`Verif/Spec/*`)**.  A wallet as a plain value: header fields, a list of
   roles (id, authority type, credential bytes, list of actions), an optional rent claimer, and
   the operations a user thinks of: append a role, filter a role out, replace the actions of one
   role.  This layer does not mention cursors, offsets or bytes except in one function,
   `encode`, that lays a wallet out as bytes.
3. **Properties (`Verif/Props/*`)**.  The theorems named in `MANIFEST.json`.  They relate the byte
   layer (what the program does) to the specification layer (what the user relies on), or state
   decision logic outright.  Lemmas live in `Verif/Proofs/*`.

Handlers (`program/src/actions/*`) are modelled on top of the byte layer as functions from the
parsed accounts and instruction bytes to `Except Err newState`; the Solana runtime rule "a failed
instruction has no effect" is what turns `Except.error` into "nothing changed".

External calls are parameters, universally quantified in the theorems: hash functions
(sha256, keccak256), `secp256k1_recover`, program-derived-address computation, the rent schedule,
the clock slot, the instructions sysvar, and the effect of every cross-program invocation (CPI).

## 2. Trusted base

**Kernel and axioms.**  Lean 4.33.0's kernel.  Every theorem depends on at most `propext`, `Classical.choice`, `Quot.sound`;
`Verif/Audit.lean` (generated) prints the list for each theorem named in MANIFEST.json.  No axioms are added, there is no `sorry`, no
`native_decide`, no `bv_decide`.  `decide` and `decide +kernel` are evaluated by the kernel; they are used for witnesses (refutations, examples)
and for finite constants (tables, the curated list), never for a universally quantified property.

**The transcription.**  That the definitions of `Verif/Model` say what the cited Rust lines say.  No tool checks this.

**Compiled code.**
* `transmute`/pointer casts read little-endian fields at the offsets of the `repr(C, align(8))` structs; reads outside a slice are `Err.ub`,
  which no theorem treats as a success.
* SBF release build: `Cargo.toml` has no `[profile]` with overflow checks, so plain `+`/`-` wrap (`add64`, `sub64`, `wsub64`, `% 2^n`).
* Slicing out of range and division by zero abort (`Err.panic`); out of fuel is `Err.outOfFuel`.  All are failures.
* Decoding of all inner instructions of a payload happens before the first one is executed in the model; the code interleaves the two.  The
  payload is instruction data and cannot change, and a decoding error aborts everything, so only the error value can differ.
* The slices of an `InstructionHolder` are assumed to stay valid while it is used (the code keeps pointers into vectors).
* The feature `program_scope_test` is off.  shank's `XAccounts::context` checks only the number of accounts.

**The runtime (`Model/World.lean`, `Model/Runtime.lean`).**
* A failed instruction has no effect; a failed CPI fails the transaction.
* The accounts of an instruction are the ledger's accounts; an account named twice is one account and its duplicates carry the same flags.
* `realloc` zero-fills growth and refuses more than 10 MiB and growth by more than 10 KiB; creation of an account is limited to 10 KiB.  Compute units,
  the heap limit, the transaction size and the runtime's check that the lamport sum is unchanged are not modelled: they only make more executions fail.  The lamport check matters in one
  place: without it `add64` could wrap; theorems about balances carry the hypothesis that total supply fits (`Runtime`, `Typed`).
* The System program's Transfer and CreateAccount (`sysTransfer`, `sysCreate`): an address with lamports, data or another owner is refused.
* `Env` holds slot, rent schedule, `create_program_address`, SHA-256, Keccak, `secp256k1_recover`, stack height as arbitrary functions or
  numbers; nothing is assumed about them unless a theorem says so.  Where a hash has to be collision free, the theorem's conclusion offers the
  explicit pair of colliding inputs as an alternative.
* secp256k1: signature parsing and low-S check (libsecp256k1) are transcribed; recovery is `Env.recover`.
* secp256r1 and ProgramExec: the instructions sysvar is the encoding `sysvarEncode` of the transaction's instructions (hypothesis of those
  theorems); the secp256r1 precompile having run successfully is the runtime's guarantee for every instruction of that program in the transaction.
* `Cpi` is an arbitrary partial function of ledger and instruction: the effect of a called program.  In `Spec/Sign.lean` the structure `Runtime`
  states what is used of it (typed ledgers stay typed, read-only accounts are not written); other assumptions (exact System transfers, ...) are
  hypotheses of the theorems that need them.
* `Spec/Evolve.lean`: a history is any interleaving of requests, effects of called programs (which may call the wallet program again), and other
  programs' steps, which may do anything except change data or owner of an account of the wallet program.  The runtime's deletion of accounts
  without lamports is not a step of these histories: it is exactly what `C43_refuted` and `C64_takeover` exploit, and those two model it as `Mem.purge`.
  `Spec/Rent.lean` has histories (`Lives`) in which that deletion is a step, with balances in view: C98 proves for them what C01 and C43 say.

**Modelled** (all of it function by function): `state/src` (swig.rs, role.rs, every action, every authority, transmute helpers, tail codec),
`program/src/lib.rs` (classification), `program/src/actions/*` (all twenty instructions), `program/src/util`, `instructions/src` (compact codec and
iterator), `assertions/src`, the client-side `compact_instructions`, and the instruction builders of the interface crate
(`interface/src/lib.rs`, `interface/src/replace_authority.rs`: `ClientAction`, every builder, for every kind of credential),
of the Rust SDK the permission types (`rust-sdk/src/types.rs`), the credential holders (`rust-sdk/src/client_role.rs`), the request builder
(`rust-sdk/src/instruction_builder.rs`) and the wallet object (`rust-sdk/src/wallet.rs`: opening, requests, what follows a request, read-only
queries). Not modelled of the SDK: RPC transport, block hashes, lookup tables, the transaction-size limit, printing, and address derivation,
whose results are parameters. Of the command line tool (`cli/src/main.rs`, `cli/src/commands.rs`): how texts become permissions, keys, wallet ids, removals
and wallet objects, and the permission prompts.

**The command line tool** (`Model/Cli.lean`).
* JSON values are what `serde_json` yields; the parser is a parameter, of which only C90 assumes something (members are separated by commas).
* base58 (`bs58`, `Pubkey::from_str`), `hex` and UTF-8 are transcribed, with their round trips proved (`Proofs/Cli.lean`); private-key parsers
  (`Keypair::from_base58_string`, `LocalSigner`, OpenSSL) are parameters (`Keys`).
* `clap` is modelled only as splitting at commas (`value_delimiter`). Not modelled: output, configuration file, the menus other than those
  for permissions.

**The client side** (`Model/Client.lean`, `Spec/Client.lean`).
* A builder's result is its account list and data.  The transaction that carries it is described by `Promoted`: same keys in the same order,
  signer and writable flags at least as strong (flags are transaction-wide at run time), writable requests honoured except for the System program.
* The runtime refuses an instruction that changed an account passed read-only. The model lets handlers change accounts whatever their
  writable flag, so it accepts a superset of the requests the chain accepts. Safety theorems are unaffected. For requests of the client
  library C87 shows that the difference never matters: every account they change is passed writable.
* What a signing callback returns is a parameter: `SignsK1` says that it recovers to the stored key; for secp256r1 that the precompile instruction
  `new_secp256r1_instruction_with_signature` (an external crate) carries the message and the key (`Proves`).
* `Ready` collects the environment of an honest caller: a stored, well-formed wallet, a role the caller holds the credential of, accounts that are
  not stake accounts or targets of program scopes (`Plain`), a payer with enough lamports (`Pays`).

**Not modelled**: the RPC calls of the Rust SDK's wallet object, the rest of the CLI, TypeScript, IDL and test code; logging; `solana-security-txt`; the BPF loader's serialisation; the called
programs (System beyond the two instructions above, SPL Token, Token-2022, Stake), which enter only through `Cpi`.

## 3. Plan per property

| Id | What is modelled | How it is proved |
|----|------------------|------------------|
| C01 | header, Position records, action headers, roles_end_offset, add/remove/update | invariant `data = encode w` with `WF w`, preserved by each operation, induction over histories |
| C02, C03 | add_role at byte level | refinement: `add_role (encode w) = encode (w.add r)`, then lookup lemma on `encode` |
| C04 | remove_role at byte level | refinement to `List.filter` |
| C05 | ids and counter in `WF` | invariant over histories |
| C06 | perform_replace_all and the add/remove operations | refinement to list operations on the role's actions |
| C07 | calculate_num_actions, validate_layout | the parser succeeds iff the bytes are the encoding of a valid list |
| C08 | Role::get_action boundary walk | equals `List.find?` on the decoded actions |
| C09 | reject_duplicate_v2_scoped | succeeds iff the key list has no duplicates; in `WF` |
| C10 | remove handler's target check | invariant over histories |
| C11 | add then remove | equation on bytes, from the two refinements |
| C12 | create_v1 root check with find_action | expected false: witness; partial theorem for honest offsets |
| C13 | sizes | arithmetic in `WF` |
| C14 | tail entry codec | two-sided round trip |
| C15 | SavedTail in each handler | invariant over histories |
| C16, C17 | handlers | decision logic |
| C18 | `run` of the one-shot limits | induction over attempts |
| C19 | `run` of the recurring limits | induction over attempts with a ghost reset count; potential argument |
| C20 | recurring destination limits | same, with wrapping subtraction; witness for a future `last_reset` |
| C21 | valid_layout and run | expected false: witness with window 0; partial for window > 0 |
| C22 | ProgramScope::run | induction over attempts |
| C23 | read_account_balance | case analysis |
| C24-C27 | authority session functions | decision logic on the byte model of the authority record |
| C28 | counter check | induction over attempt histories |
| C29 | age check | decision logic |
| C30 | message pre-image | injectivity for equal account counts (partial); witness for the general claim |
| C31 | secp256k1/ed25519 authenticate with recover as parameter | decision logic |
| C32 | hex and base64url | correctness against an independent spec, injectivity |
| C33, C36 | compact codec, iterator | round trip, parser soundness |
| C34 | compaction | induction over the instruction list |
| C35 | signer flags | decision logic for all payloads |
| C37, C38, C40, C45 | handlers | "success implies authorised" |
| C39 | replace_target_signer | effect/frame on encoded wallet |
| C41 | proof pre-image | injectivity |
| C42, C44, C60 | lamport arithmetic of handlers | arithmetic, conservation |
| C43 | every handler on a closed account | every handler returns an error |
| C46-C50 | V2 sub-account handlers | decision logic; histories for ids (witness through migration) |
| C51 | V1 sub-account signing | decision logic |
| C52-C57 | sign_v2 with CPI as an arbitrary function of the state | invariant of the execution loop, then the post-checks |
| C58 | classify_account | decision logic, completeness |
| C59 | migrate | frame equation; witness for re-migration |
| C60 | transfer of assets | decision logic, arithmetic |
| C61 | curated program list, base58 text of the documented addresses | evaluation of a finite list (the list is a constant of the program) and a membership statement for every address; wrong entries exhibited |
| C62 | ProgramExec authentication | decision logic; a class of prefixes that can never work exhibited for every transaction |
| C63 | WebAuthn client data: parser, builder, hash | soundness against an independent JSON grammar; injectivity up to explicit hash collisions |
| C64 | all handlers as one step function | expected true; refuted with a run of three transactions; partial theorem for what still holds |
| C65 | client-side compaction | refuted with two instructions; partial for consistently used accounts |
| C66 | SignV2 end to end: snapshot, calls, reading the balance fields again, charging the scope | as C52, with the cache of scopes of all roles related to the wallet's roles; refuted when an earlier role has a scope for the account |
| C67 | SignV2 end to end over stake accounts | as C52/C53; sums over the accounts of the request; refuted for operations that move no amount |
| C68 | SignV2 end to end, `read_account_balance` | expected true; refuted, with a theorem that every such request is refused |
| C69 | `ClientAction` serialisation against the program's parser | per constructor; lists by induction; injectivity through the parser |
| C70 | builders, dispatcher, handlers end to end | forward proofs: an honest request passes every check of the handler, and the result is the specified wallet |
| C71 | older builders, dispatcher, V1 sub-account handlers, `transfer_assets_v1` | refuted: from the bytes a builder writes, every execution of the dispatcher on them fails, for all states; C70 is the positive half |
| C72 | `withdraw_from_sub_account_v1` | access control as C51; the liveness half refuted |
| C73 | the labelled state machine of C01 (`Spec/Evolve`) | each label changes at most the role it names; induction over the trace |
| C74 | histories with the signings of one role listed (`Spec/Lifetime: Spending`), anything else at any depth of calls in between (`Between`) | induction over the history with the per-signing theorems C52, C53, C56, C66, C67 and C73 between signings; recurring limits through the play of charges (C19, C20, C22); stake, destination limits and scopes in `Props/LifetimeMore` |
| C75 | counters along traces | every use of the role adds one; two accepted requests state counters that differ by the number of uses between them; refuted when keys are replaced |
| C76 | `process` and every handler | inversion of every handler to the authentication it performed, then C24 and C31 |
| C77 | builders, compaction, dispatcher, handlers end to end | forward proofs as for C70; signing through C34 up to the execution of the decoded instructions |
| C78 | update handler, V2 creation, charging | requests that keep a used permission are always refused; a payment makes a recurring SOL limit used; other limits keep the conditions for new permissions |
| C79 | client builder of SignV2, classification, execution, settlement | converse of the settlement lemmas: each check of `sign_v2` is shown to pass; the charge of a covered amount is the spending of the abstract limit |
| C80 | `Permission::from_role` on stored bytes | each reader returns the decodings of the matching actions of the role; the fixed lookup addresses give the counterexamples |
| C81 | `Permission::to_action`, with the client builder of AddAuthority | case analysis per kind; C70 gives the stored wallet, C80 reads it back |
| C82 | `UpdateAuthorityData`, with the client builder of UpdateAuthority | removal is a filter by type; C70 gives the stored wallet; concrete runs refute the general claim |
| C83 | `SwigWithRoles::lookup_role_id`, `match_data` of every authority, `ClientRole::authority_bytes`, `SwigWallet::new`/`switch_authority` (opening) | the stored roles are walked as in `Layout`; per kind, the stored bytes match exactly the named credential; concrete runs refute the general claim |
| C84 | every request of the wallet object (`Obj.instructions`), what follows it (`Obj.settle`), on histories of the ledger (`Steps`) | every built instruction is a frame followed by a credential that states the counter (`build_split`); one accepted request moves the stored counter by one (`one_use`); induction over runs (`Runs`) |
| C85 | the queries of `SwigWallet` (`Verif/Model/SdkWallet.lean`) with `from_role`, against `process` | `from_role` lists fixed before recurring SOL limits (`shown_sol`); C52 bounds what a request costs, C79 carries out a covered payment; concrete runs refute the general claim |
| C86 | `Obj.send`, `Obj.build`, `Obj.settle` of `Verif/Model/SdkClient.lean` against `process` | a holder that `Acts` gives the caller `ActsFor` of C70/C77 (`Holder.Acts.for`), whose theorems then apply to what is sent; the signer sets are compared with the accounts of each builder; the refutations follow from what the handlers demand (`addAuthorityV1_enc`, `C24_session_accepts_only`, `signed_restricted`) |
| C87 | `process` and all builders of `Model/Client.lean`; `Cpi.Respects` is the runtime rule for called programs | per handler, an account that is off every writable position and every position the handler writes itself keeps its value (`Same`, `process_same`); the flags of each builder are computed (`library_own`) and survive compaction (`compactLoop_prefix`) and `Promoted` |
| C88 | `process`; `Cpi.Conserves` is the runtime rule for called programs | per handler, the sum over a duplicate-free list is kept (`Bal`, `process_bal`); the wrapping additions do not wrap because a balance is at most the sum (`Bal.move64`), the wrapping subtractions because rent is monotone and the account holds its minimum (`Bal.refund`) |
| C89 | `Cli.parsePermission`; `Says` is what a document says, member by member | case analysis; `pubkey_encode58`/`encode58_pubkey` (base58 round trip, proved) for addresses; `pubkey_not_text` (58^32 < 256^32 and digit counts) for the sub-account text |
| C90 | `splitCommas` (value_delimiter of clap), `permissionsArg`; the JSON parser is a parameter that needs commas between members (`Separates`) | pieces contain no comma (`splitCommas_clean`), so objects have at most the member `type` (`lone`) |
| C91 | `formatAuthority`, `generated`, `hexDecode`, base58; composed with `Obj.send` and `process` | `hexDecode_text`, `pubkey_encode58`; lengths of the results (`format_length`) against `initialAuth` through `addAuthorityV1_enc` (`add_cred`) |
| C92 | `Lookup.finds` over `lookupRoleId` (C83) | no credential is named both by the key of a text and by its characters (`not_named`): lengths, and `pubkey_not_text` for addresses of 32 characters |
| C93 | `walletId` with UTF-8 bytes | injectivity of UTF-8 (`utf8_inj`, from the core library) and of padding (`padded_inj`) |
| C94 | `instanceOf`, `openFor` over `openWallet` (C83) and `Obj.send` (C86); private-key parsers are parameters (`Keys`) | C83_opens, C86_sent |
| C95 | `removalKind`, `updateArg` over C82; `kindWords` is the table of words and numbers | C82_remove_keeps_other_kinds |
| C96 | `Answer.permission`; `Answer.Says` is what the prompts say | case analysis |
| C97 | `process`; `Lawful` is the runtime rule on owners, `Runs` a run of lawful steps and calls | per handler (`Lw`, `process_lw`): the owner check at its start (or the classification of the first account) still holds at every write because nothing but the owner may reassign an account (`Cpi.Holds`) |
| C98 | `process`; `Kept` (a configuration account, open or closed, at its minimum), histories `Lives` with deletions | own request: per handler, size from the encoding and lamports from the top-up or refund (`process_solid`, `process_whole`); other requests: frame (`process_keep`); induction over the history |
| C99 | every handler with `Err.ub` at each unchecked read; `InBounds` (Spec/Memory) lists the checks the program omits | `Safe` (no `Err.ub`) closed under the monad and proved per function: parsers unconditionally, role and action walks from the encoding of stored wallets, signing with `Placed` (Proofs/Safe, MemoryAuth, MemoryRoles, MemorySub, MemorySign) |
| C100 | `process`; `StepsBy` (histories whose requests for the wallet act as given roles), `Contained` | `process_small`: each handler that could do more demands an administrative permission; refinement of `Spec/Evolve.lean` with the kinds of changes left (`Small`), which keep `Powerless`, so the argument repeats |
| C101 | `process`; `RunsAs ok` (runs whose System debits and presented signatures are `ok`), `OwnSeeds`, `OwnAddress`, `OnlyFrom` | the lemmas of C97 carry the signer through each handler; seeds of wallets with different ids have different concatenations (lengths of the prefixes) |
| C102 | `process` on creation and withdrawal; `TwinAt` (a second address for the id) | refuted: `C70_create` for the second wallet, then the withdrawal handlers succeed because they compare ids only; the rest from C101 |
| C103 | `StepsBy` histories (C100) followed by `process` on the library's removal request | C100 fixes the managing role and its credential, then C70_remove; the rest by C100 again |
| C104 | `process` over histories (`Steps`, `StepsBy`); `Governed` | refuted by C70_update followed by C100_contained; `_partial` by induction over the history |
| C105 | `process` on creation requests; `Richer` (others may add lamports anywhere) | refuted: System CreateAccount refuses an address with lamports, and the twin of C102 takes the record; the rest from C70_create and C77_create_sub, whose conditions are monotone in balances |
| C106 | `process` on close requests, then arbitrary histories (`Steps`), signatures (`RunsAs`) | refuted from C77_close and C43_stays_closed_partial; the signature of the wallet address from C101 and the lengths of the seeds |
| C107 | signing of restricted roles (`RestrictedSign`), what each inner instruction takes (`walletLost`, `addedUp`) | upper bounds on the tracked amounts by induction over the inner instructions, and on the charges from the settlement |
| C108 | ProgramExec authentication on the encoded instructions sysvar; transactions (`runTx`) | exact characterisation by rewriting the decoder on the encoding; refuted by a transaction |
| C109 | the nine management handlers through `process`; conditions in Verif/Spec/Accept.lean (`Speaks`, `Topped`, `Emptied`, `AsksUpdate`) | both directions: the inversion lemmas (`_enc`) and the liveness lemmas (`_of`), extended until they meet |
| C110 | the remaining handlers except signing through `process`; conditions in Verif/Spec/AcceptSub.lean (`ToppedAll`, `MayWithdrawV1`, `Carries`, `ClosesAll`, `MovesAll`) | one equivalence per step of each handler, composed; loops by induction |
| C111 | signing through `process` for both kinds of role; conditions in Verif/Spec/AcceptSign.lean (`TakesEach`, `SolSettled`, `TokensSettled`, `Watched`, `Settles`, `LimitsAllow`) | charges as lists of limits that each give way (`charge_takes`); snapshots and re-checks by induction over the accounts |
| C112 | `authenticate`, `authenticateSession`; layout of the precompile data in Verif/Props/AcceptCred.lean (`PrecompileData`) | byte-level parsing lemmas in both directions |
| C113 | signing through `process` under two permission lists; `Better` in Verif/Spec/More.lean | C114 on both sides; a simulation of the charges (`Raises.spend`, `TakesOf.better`, `SettlesAll.better`) |
| C114 | signing through `process` for any accounts; `Inspected`, `LimitsAllowAll` in Verif/Spec/AcceptFull.lean | the inspection (`process_full`), the tracking of balances (`runIxs_full`), the snapshots (`snapAll_full`) and the settlement (`settlesAll_iff`), each in both directions |
| C115 | signing through `process`; `Wallet.scopeOn`, `Wallet.alone` in Verif/Spec/AcceptFull.lean | from C114: the settlement takes a scope of the acting role for every target (`settlesAll_scope`); a congruence in the scopes found (`limitsAllowAll_congr`) |
| C116 | `authenticate` for Secp256r1 with the passkey part; prefix codes and layouts in Verif/Spec/Passkey.lean | induction over the ways of the code tree and the coded text (`huff_way`, `huff_codes`); the parser stops at the first match, which the standard puts first; C112 for the rest of the credential |
| C117 | `process` for the seven management requests; independence and schedules in Verif/Spec/Order.lean | each accepted request is a short list of edits of the abstract wallet, determined by the request and the role it changes (from the exact-result lemmas behind C01 to C20); edits of independent requests commute; induction over the permutation. Acceptance through C109 |
| C118 | `repr(C)` layout of arbitrary records (Verif/Spec/Layout.lean), the 55 records of the repository generated from their declarations (tools/gen_records.py), every parser of the model | induction over the fields: sizes add up exactly if no byte is left over; the parsers, decoders and charge functions at the generated fields; `process` handler by handler for the lengths |
| C119 | pairs of requests through `process`; `signedPart` (Spec/Authn.lean); called programs refuse calls to the configuration account (`NoProgram`, it is not executable) | the number bytes of a management request, read as inner instructions, call account 0, the configuration account; parsers and the seeds used by SignV2 and SubAccountSignV1; C76_secp256k1 for the keys |
| C120 | `process` on SignV2 requests written with the client's encoding (`signReq`, Spec/Batch.lean) | decoding of joined lists (C33), `execAll` of joined lists by induction, the credential and the classification do not depend on the instructions; called programs keep the configuration account |
| C121 | `process` on CreateSession and histories (`Steps`) after it | the record after CreateSession (Proofs/CredHandlers.lean), that no other request changes it (C01_refines), and C24 for what the record accepts |
| C122 | signing through `process` at two slots; `InTime` and `Ageless` in Verif/Spec/Wait.lean | C114 at both slots; a simulation of the charges (`Waits.spend`, `TakesOf.wait`, `SettlesAll.wait`) |
| C123 | signing through `process` with two states of the limits at two slots; `Spent` and `Recovered` in Verif/Spec/Wait.lean | C114 at both states; the simulation of C122 (`Recovered.waits`), then the transfer to the other account of C113 |
| C124 | every request through `process` at two slots; `Ageless` in Verif/Spec/Wait.lean | handler by handler: equality of the steps before and after the acting role is authenticated (`actAs_later`), induction for the loops |
| C125 | every request through `process` with a list of accounts and a longer one; `ByTransaction`, `TakesNoList` in Verif/Spec/Surplus.lean | handler by handler: lookups in the longer list find the same account; induction over the classification, the instructions and their accounts; further accounts of a signing are unwatched (`Unwatched`), and snapshot, tracking and settlement skip them; refuted for withdrawals and for frozen token accounts |
| C126 | requests through `process` in a ledger and in one with the same owners and data and no fewer lamports (`Richer`) | from the exact conditions of C109 and C110, which mention lamports only as lower bounds, except for closing; refuted there |

Where the code violates the property as stated the negation is proved with a concrete witness and a
`_partial` theorem gives what does hold; section 4 lists these disagreements.

## 4. Disagreements found between the code and the intended properties

Each line names the theorem that proves the disagreement about the model and, where one exists, the theorem that holds instead.

| Id | What happens | Witness | What holds |
|----|--------------|---------|------------|
| C12 | `CreateV1` checks for All/ManageAuthority by following the boundaries in the *client's* headers, but stores the actions by their lengths: a crafted request creates a wallet nobody can manage | `C12_refuted` | `C12_root_manages_partial` (honest headers) |
| C20 | a recurring destination limit stored with a `last_reset` in the future is refilled at once (wrapping subtraction) | `C20_sol_future_reset_refills_at_once` | `C20_*_interval` for clocks at or after the reset |
| C21 | SOL/token/stake recurring limits accept window 0, and then every charge aborts with a division by zero | `C21_zero_window_always_aborts` | `C21_never_panics_partial` |
| C22 | a program-scope limit of `u128::MAX` is no limit (saturation) | `C22_max_limit_is_unlimited` | `C22_limit_total` below it |
| C23 | the balance field may be stored with start > end; the width check wraps and the read starts outside the data | `C23_out_of_range_read_witness` | `C23_read_balance_partial` |
| C30 | the signed message is payload, account records, slot, counter without lengths: an account record can be moved into the payload | `C30_ambiguous`, `C30_ambiguous_always` | `C30_binds_partial`, `C30_binds_self_delimiting` |
| C43 | a closed wallet's account is emptied by a stranger (see C64), deleted, and created again | `C43_refuted` | `C43_stays_closed_partial` (as long as it is not emptied) |
| C44 | `CloseSwigV1` may name the wallet's own address as destination; the funds are stuck there | `C44_refuted` | `C44_close_conserves_partial` |
| C47, C48, C59 | `MigrateToWalletAddressV1` runs again on a migrated wallet and sets the sub-account counter to 0, so ids are issued twice; a disabled sub-account acts through the second record | `C47_refuted`, `C48_v2_refuted`, `C59_refuted` | `C47_counter_partial`, `C48_v2_partial`, `C59_migration_partial` |
| C48 | a role with All/ManageAuthority withdraws from a disabled V1 sub-account | `C48_v1_refuted` | `C48_v1_partial` |
| C53 | a role that may close token accounts moves all tokens out first; closed accounts are not charged | `C53_refuted` | `C53_*_partial`, `C53_closed` |
| C57 | a restricted role assigns the wallet address to another program; afterwards nobody can sign with it | `C57_refuted`, `C57_lost_forever` | `C57_rent_partial` |
| C61 | two of the "curated" program ids are not the documented programs; Token-2022 and Stake are not curated | `C61_wrong_entries` | `C61_curated_partial` |
| C62 | ProgramExec reads the number of accounts from the instruction data: prefixes starting with 0 0 or 1 0 never authenticate | `C62_some_prefixes_never_work` | `C62_usable_partial` |
| C63 | the client-data builder does not escape the origin | `C63_unescaped_origin` | `C63_message`, `C63_binds` |
| C63 | looking up a top-level field of raw client data counts braces inside string values as structure, so a well-formed JSON text without a top-level challenge can still yield the challenge of an inner object | `C63_nested_refuted` | `C63_found` |
| C64 | a role assigns its own wallet address to the wallet program; after that inner System transfers out of it are done by direct, wrapping `u64` arithmetic on both accounts (instructions/src/lib.rs:80-101). A transfer of 2^64 - n *to* another wallet's configuration account takes n lamports out of it. The emptied account is deleted and created again by the attacker | `C64_refuted`, `C64_takeover` | `C64_lamports_partial` |
| C65 | compaction keeps the flags of the first use of an account: a later writable use fails | `C65_refuted` | `C65_privileges_partial` |
| C66 | the balance before the calls is read with the scope of the *first* role that has one for the account, not of the acting role; a basic scope there reads 0, so nothing the acting role does is a decrease | `C66_refuted` | `C66_limit_partial`, `C66_recurring_partial`, `C66_deny_partial`, `C66_integrity_partial` |
| C67 | only lamports and the delegated amount of stake accounts are compared, and bytes 124 and up are not part of the snapshot: deactivating the stake (bytes 172-180) goes unnoticed | `C67_refuted` | `C67_limit_partial`, `C67_recurring_partial`, `C67_no_limit_partial`, `C67_authorities_partial` |
| C68 | the SDK gives basic scopes the field range 0..0, and reading the balance after the calls fails for an empty range | `C68_refuted`, `C68_basic_blocks` | `C68_field_partial` |
| C71 | the builders of V1 sub-account requests and of the asset transfer omit the counter (Secp256k1) or four padding bytes (Secp256r1) of the payload, and three program-exec builders order the accounts differently from the program: none of these requests can succeed. Flags of accounts are signed as asked for, but checked as they are in the whole transaction | `C71_refuted`, `C71_secp256k1`, `C71_secp256k1_withdraw`, `C71_secp256r1`, `C71_exec_withdraw`, `C71_exec_withdraw_token`, `C71_exec_sign`, `C71_flags`, `C71_secp256r1_withdraw` | C70 |
| C72 | without a permission of its own a role finds the creator of a V1 sub-account by trying role ids 0 to 10: sub-accounts of later roles are out of reach of All; holding ManageAuthority besides All restricts a role to its own sub-account | `C72_refuted`, `C72_only_first_roles`, `C72_refuted_manager`, `C72_manager_loses` | `C72_authorised_partial` |
| C75 | replacing the key of a secp role sets its replay counter to zero: when a key is replaced and then restored within 60 slots, requests signed before with it are accepted a second time | `C75_refuted` | `C75_counters_partial`, `C75_no_replay_partial` |
| C78 | adding or removing permissions, and creating a V2 sub-account, check the permissions that stay with the conditions for new ones (recurring limits full and never reset, V1 sub-account not created); after a single payment from a recurring limit the role can only be replaced as a whole or removed | `C78_refuted`, `C78_refused`, `C78_refused_create`, `C78_after_payment` | `C78_stays_manageable_partial` |
| C80 | the SDK looks program scopes up under the address of the Token program and V1 sub-accounts under the zero address, knows no permission to close the wallet, and cuts scope limits to 64 bits: roles have powers the SDK does not show | `C80_refuted`, `C80_scopes_hidden`, `C80_sub_accounts_hidden`, `C80_close_not_expressible`, `C80_scope_limit_cut` | `C80_sound_partial`, `C80_complete_partial`, `C80_ask_sound_partial`, `C80_ask_complete_partial`, `C80_ask_no_role` |
| C82 | the SDK removes by kind of permission: naming the limit of one token removes the limits of all tokens. Writing back what was read refills used recurring limits and drops what is not shown | `C82_refuted`, `C82_write_back_refuted` | `C82_remove`, `C82_named_are_removed`, `C82_replace_reads_back` |
| C83 | the lookup compares a session holder's creation data with the stored public key, so no session role is ever found; a credential of one kind can name a role of another kind | `C83_refuted`, `C83_session_roles`, `C83_wrong_kind_refuted` | `C83_lookup`, `C83_created_named`, `C83_opens`, `C83_opens_own` |
| C84 | `add_authority` and `create_session` do not advance the object's counter; `sign_v2` uses one counter for several instructions; secp session objects count requests signed with the session key; program-exec objects report failure after success | `C84_add_refuted`, `C84_two_signatures_refuted`, `C84_session_refuted`, `C84_exec_refuted` | `C84_opened`, `C84_switched`, `C84_request_partial`, `C84_others`, `C84_runs_partial`, `C84_out_of_step` |
| C85 | `can_manage_authority` ignores All; `can_spend_sol` compares with the full recurring limit, ignores the callable programs, AllButManageAuthority and destination limits; `get_recurring_sol_limit` returns nothing when a fixed limit is listed first; `get_role_count` returns the id counter; `get_balance` reads the configuration account; `get_current_authority_permissions` lists All and SOL limits only | `C85_manage_refuted`, `C85_yes_refuted`, `C85_yes_program_refuted`, `C85_no_refuted`, `C85_recurring_refuted`, `C85_count_refuted`, `C85_balance_refuted`, `C85_current_refuted` | `C85_all`, `C85_manage_partial`, `C85_sol_limit`, `C85_recurring_partial`, `C85_spend`, `C85_no_means_no_partial`, `C85_yes_means_yes_partial`, `C85_authority`, `C85_count_partial`, `C85_current_partial` |
| C86 | four methods sign with the fee payer only; `Secp256k1ClientRole::add_authority_instruction` drops a byte; `Ed25519SessionClientRole` uses the main key for V1 sub-accounts; `ProgramExecClientRole::sign_v2_instruction` wraps the instructions into one of the wallet program without accounts; `remove_authority` of the own role ends in an error | `C86_payer_refuted`, `C86_session_payer_refuted`, `C86_add_k1_refuted`, `C86_session_v1_refuted`, `C86_exec_sign_refuted`, `C86_exec_unavailable`, `C86_self_remove_refuted` | `C86_add_partial`, `C86_remove`, `C86_update`, `C86_session`, `C86_claimer`, `C86_sign_partial`, `C86_create_sub`, `C86_toggle_sub`, `C86_withdraw_sol`, `C86_withdraw_tokens`, `C86_sign_sub`, `C86_sent`, `C86_update_sent`, `C86_returns` |
| C88 | closing into the configuration account itself | `C88_close_into_itself`: `close_swig_v1` overwrites the balance it has just paid the wallet address into; the program succeeds, the runtime refuses the transaction as unbalanced |
| C89 | unreadable amounts, limits and windows fall back to defaults (1 billion, unlimited, 86400); `subAccount` takes the characters of the text as the key | `C89_amount_refuted`, `C89_recurring_refuted`, `C89_scope_refuted`, `C89_sub_account_refuted` |
| C90 | `--permissions` is split at commas before the JSON is read | `C90_refuted` |
| C91 | compressed Secp256k1 keys lose their mark; keys for session types have no session part; `Generate` prints a Secp256k1 key without the mark 04 that `format_authority` wants | `C91_compressed_refuted`, `C91_session_refuted`, `C91_generate_refuted` |
| C92 | `RemoveAuthority` passes `authority.as_bytes()` where the key bytes are expected | `C92_remove_refuted` |
| C93 | ids are padded with the character 0 and cut at 32 bytes | `C93_zero_refuted`, `C93_long_refuted` |
| C94 | the fee payer is ignored for Ed25519; authority text and private key are not compared; seven commands parse the private key of a Secp authority as a Solana keypair | `C94_fee_payer_refuted`, `C94_other_keypair_refuted`, `C94_text_ignored_refuted`, `C94_no_fee_payer_refuted` |
| C95 | no words for recurring limits, closing, replacing and sub-accounts of version 2 | `C95_unnamed_refuted` |
| C96 | the address of a sub-account is asked for and ignored; Token-2022 scopes are `todo!()` | `C96_sub_account_refuted`, `C96_token2022_refuted` |
| C98 | by the attack of C64 a request leaves the configuration account of another wallet with no lamports; the runtime deletes it | `C98_refuted` | `C98_keeps_partial`, `C98_evolves_partial`, `C98_closed_partial` (no called program takes an account from the System program) |
| C99 | anybody reaches undefined reads with a toggle flag of 2, an empty account of the program or a foreign account; roles and holders in five further ways | `C99_refuted`, `C99_refuted_flag`, `C99_refuted_empty`, `C99_refuted_foreign`, `C99_refuted_transfer`, `C99_refuted_scope`, `C99_refuted_growth`, `C99_refuted_token`, `C99_refuted_enabled` | `C99_defined_partial`, `C99_search_partial` (conditions `InBounds`) |
| C102 | `create_v1` checks the address with `create_program_address` and the given bump, so an id has several wallets; sub-account addresses depend on the id only, so they share their sub-accounts | `C102_refuted_v2`, `C102_refuted_v1` | `C102_partial` (wallets with other ids) |
| C104 | `update_authority_v1` replaces the permissions of any role, the root and the acting role included, without asking whether a managing role remains | `C104_refuted`, `C104_refuted_root` | `C104_partial` (histories without UpdateAuthority on the root) |
| C105 | `create_v1` uses System CreateAccount, which fails if the address holds a lamport (the code that follows computes the missing rent as if it did not); the record of a V2 sub-account belongs to whichever wallet with the same id asks first | `C105_refuted`, `C105_refuted_sub` | `C105_create_partial`, `C105_sub_partial` |
| C106 | `close_swig_v1` looks at the lamports of the configuration account and of the wallet address only; token accounts of the wallet address and sub-accounts are stranded | `C106_refuted` | `C106_left_behind`, `C106_nobody_else`, C44 |
| C107 | `sign_v2` tracks every entry of the account list, so a token account listed twice is counted, and charged, twice | `C107_refuted` | `C107_token_partial`, `C107_sol` |
| C108 | `program_exec_authenticate` does not mark an approval as used and binds nothing of the request | `C108_reusable`, `C108_refuted` | `C108_exact`, `C108_one_wallet_partial` |
| C113 | permissions are not additive: as soon as a role has one destination limit, `sign_v2` refuses every destination without one; a one-time limit is tried before the recurring limit of the same asset, which is then never used | `C113_refuted`, `C113_refuted_shadowed` | `C113_better_partial` |
| C115 | the inspection looks for scopes in all roles, the settlement only in the acting one: an account that any role has a scope for cannot be passed by a role with limits that has none, not even read-only | `C115_closed_to_others`, `C115_refuted` | `C115_alone_partial` |
| C118 | `CreateProgramExecSessionAuthority` (programexec/session.rs:18-31) has 120 bytes but its `Transmutable::LEN` (line 62) is the size of another record, 128 | `C118_refuted`, `C118_session_data` | `C118_lengths_partial`: the other 53 stated lengths are right |
| C119 | `sign_v2` authenticates over the inner instructions only (sign_v2.rs), without the role id; `DuplicateAuthority` (error.rs) is never raised, so roles may share a key, each with its own counter: anybody can repeat a signed payment under the other role within 60 slots | `C119_refuted` | `C119_request_partial`, `C119_same_key`, `C119_sub_account` |
| C120 | for a limited role `sign_v2` checks the rent minimum of the wallet address after all instructions of a request: paying out nearly everything and being paid back is accepted in one request, not in two (harmless) | `C120_refuted` | `C120_together_partial`, `C120_apart_partial` |
| C121 | `start_session` adds the duration to the slot without a check: with a maximum close to 2^64 a session of 2^64 - 1 slots is accepted and has already ended | `C121_refuted` | `C121_only_latest`, `C121_works_partial` |
| C122 | the layout check of recurring destination limits ignores `last_reset`, and `run` subtracts it with wrap-around: with a last reset in the future the limit counts as expired at every use until that slot, so a request is accepted in slot 100 and refused in slot 150 | `C122_refuted` | `C122_waiting_partial` |
| C125 | a withdrawal of SOL from a V1 sub-account with a seventh account, of no meaning, is taken for one of tokens and refused: the program chooses by the number of accounts (withdraw_from_sub_account_v1.rs) | `C125_refuted` | `C125_surplus_partial`, `C125_sessions`, `C125_sign_free` |
| C125 | a signing of a role with limits is refused if a frozen token account of the wallet is among the accounts passed, even read-only and unused: settlement checks the state of every token account of the wallet (sign_v2.rs:643-655) | `C125_sign_refuted` | `C125_sign` |
| C126 | a closing is refused while either account of the wallet holds more than its rent minimum, and anybody can send lamports to them: one lamport to the configuration account just before prevents it (close_swig_v1.rs); moving the surplus out in the same transaction should help, which is not proved | `C126_refuted`, `C126_close_blocked`, `C126_close_preventable` | `C126_manage_partial`, `C126_sub_v1_partial`, `C126_sub_v2_partial` |

## 5. Testing the theorems against wrong programs

`tools/mutate.py` applies one edit of `seeded/mutations.json` to a scratch copy of the project, rebuilds, replaces the proof of every lemma or
theorem that no longer checks by `sorry` until the build succeeds, and reports which property theorems then depend on `sorryAx`.
`seeded/LOG.jsonl` has one line per attempt: the definition, the edit, the claim it breaks, the theorems that failed, the theorems that were tightened.

63 of the 485 edits in `seeded/mutations.json` have not been run for lack of time; they are the ids that do not occur in `seeded/LOG.jsonl`
(among them M485 and, for C125, M477 to M480). Nothing is claimed about them.

A theorem counts as broken when its proof fails or depends on one that fails, so a failure shows that the theorem depends on the edited
code. It does not by itself show that the statement is false of the edited program.
