{"id": "C01", "title": "Account stays parseable after every history of role operations", "statement": "Starting from a freshly created wallet, after any sequence of successful role additions, removals, action updates, signer replacements and rent-claimer registrations, the account data is exactly the 48-byte header, followed by as many role records as the header counts, followed by an empty tail or exactly one rent-claimer entry; finding the end of the roles never fails and every role can be looked up.", "quantifier": "every creation input, every finite history of successful role operations with any arguments", "why_tests_cant": "The number of roles, action lists, sizes and orders of operations is unbounded; a test visits one history.", "anchors": ["state/src/swig.rs:Swig::roles_end_offset", "state/src/swig.rs:SwigBuilder::add_role", "state/src/swig.rs:SwigBuilder::remove_role", "program/src/actions/update_authority_v1.rs:perform_replace_all_operation"]}
{"id": "C02", "title": "Added role reads back exactly", "statement": "After a role is added, looking up the id it was given returns the requested authority type, the stored credential and exactly the submitted list of actions (types and payloads, in order); the header role count and the next-id counter each grow by one.", "quantifier": "every wallet state, authority type, credential and valid action list", "why_tests_cant": "Round-trip law over unbounded byte strings and role tables.", "anchors": ["state/src/swig.rs:SwigBuilder::add_role", "state/src/swig.rs:Swig::get_mut_role", "state/src/swig.rs:SwigWithRoles::get_role"]}
{"id": "C03", "title": "Adding a role leaves every other role untouched", "statement": "Adding a role does not change the id, authority bytes or action bytes of any existing role, nor any header field other than the role count and next-id counter. (The replay counter of the acting role moves, as for every authentication.)", "quantifier": "every wallet state with any number of roles, every added role", "why_tests_cant": "Frame property over all other roles of an unbounded table.", "anchors": ["state/src/swig.rs:SwigBuilder::add_role"]}
{"id": "C04", "title": "Removing a role removes exactly that role", "statement": "After role X is removed, looking X up fails; every other role still reads back with the same authority and the same actions, in the same order; the role count drops by one; the reported freed size is the size of the removed record.", "quantifier": "every wallet state, every role position (first, middle, last)", "why_tests_cant": "Removal moves bytes and rewrites offsets of all later records: a property of every table shape.", "anchors": ["state/src/swig.rs:SwigBuilder::remove_role"]}
{"id": "C05", "title": "Role ids are unique and never reused", "statement": "In every reachable wallet two roles never share an id, every live id is below the next-id counter, and an id once issued is never issued again even after its role is removed.", "quantifier": "every history of role operations with fewer than 2^32 additions", "why_tests_cant": "Invariant over unbounded histories.", "anchors": ["state/src/swig.rs:SwigBuilder::add_role", "state/src/swig.rs:SwigBuilder::remove_role"]}
{"id": "C06", "title": "Updating a role changes only that role's actions", "statement": "After an action update succeeds the target role holds exactly the requested actions (replace: the new list; add: old followed by new; remove by type: old without those types; remove by index: old without those positions), with its id, authority type and credential unchanged, and every other role is unchanged.", "quantifier": "every wallet state, every target role, every operation and argument", "why_tests_cant": "The update shifts all later records and patches offsets; correctness needs all table shapes and all size differences (growing, shrinking, equal).", "anchors": ["program/src/actions/update_authority_v1.rs:perform_replace_all_operation", "program/src/actions/update_authority_v1.rs:perform_add_actions_operation", "program/src/actions/update_authority_v1.rs:perform_remove_actions_by_type_operation", "program/src/actions/update_authority_v1.rs:perform_remove_actions_by_index_operation"]}
{"id": "C07", "title": "Every role has at least one and at most 255 well-formed actions", "statement": "A role is never stored with zero actions, with more than 255 actions, with an action of unknown type, or with an action whose payload length is wrong for its type; such requests are rejected.", "quantifier": "every action byte string, every reachable wallet", "why_tests_cant": "Universally quantified over all byte strings.", "anchors": ["state/src/swig.rs:SwigBuilder::calculate_num_actions", "state/src/action/mod.rs:ActionLoader::validate_layout", "program/src/actions/update_authority_v1.rs:calculate_num_actions"]}
{"id": "C08", "title": "Permission lookup finds a permission iff the role holds it", "statement": "Looking up a permission type in a stored role succeeds exactly when one of the role's stored actions has that type (and, for repeatable types, matches the given key), and returns the first such action's payload; permission bytes embedded in another action's payload are never mistaken for an action.", "quantifier": "every reachable role and every lookup key", "why_tests_cant": "The lookup follows stored offsets; that they never lead astray is an invariant of all reachable byte layouts.", "anchors": ["state/src/role.rs:Role::get_action", "state/src/role.rs:RoleMut::get_action", "state/src/role.rs:RoleMut::get_action_mut"]}
{"id": "C09", "title": "Duplicate scoped sub-account grants are rejected", "statement": "No stored role ever holds two scoped V2 sub-account actions of the same type for the same sub-account id, nor two create markers; requests that would store such a pair are rejected and all others are not rejected for this reason.", "quantifier": "every action list, every reachable role", "why_tests_cant": "Needs all lists and all histories (create, add, update, auto-grant).", "anchors": ["state/src/action/mod.rs:ActionLoader::reject_duplicate_v2_scoped", "state/src/action/mod.rs:v2_dedup_key"]}
{"id": "C10", "title": "The root role can never be removed", "statement": "In every wallet history the role with id 0 is still present with its authority type, as long as the wallet is not closed.", "quantifier": "every history of role operations by any authorised caller", "why_tests_cant": "Invariant over histories, including self-removal.", "anchors": ["program/src/actions/remove_authority_v1.rs:remove_authority_v1"]}
{"id": "C11", "title": "Add then remove is the identity on the account", "statement": "Adding a role and then removing it leaves the account bytes exactly as before except for the next-id counter (and the replay counters of the roles that authorised it); in particular it leaves no residue of the removed credential.", "quantifier": "every reachable wallet and every added role", "why_tests_cant": "Inverse law over all states.", "anchors": ["state/src/swig.rs:SwigBuilder::add_role", "state/src/swig.rs:SwigBuilder::remove_role", "program/src/actions/add_authority_v1.rs:add_authority_v1", "program/src/actions/remove_authority_v1.rs:remove_authority_v1"]}
{"id": "C12", "title": "Root of a newly created wallet can manage the wallet", "statement": "A wallet can only be created with a root role that holds All or ManageAuthority.", "quantifier": "every creation request", "why_tests_cant": "The check follows client-supplied offsets, so it must be judged against every byte string.", "anchors": ["program/src/actions/create_v1.rs:create_v1", "state/src/action/mod.rs:ActionLoader::find_action"]}
{"id": "C13", "title": "Sizes stay 8-byte aligned with no slack", "statement": "In every reachable wallet the account length is a multiple of 8 and equals header plus roles plus tail exactly, so the rounding-up done at allocation never introduces slack bytes that would make the tail unreadable.", "quantifier": "every reachable wallet, every authority and action type", "why_tests_cant": "Follows from all type sizes and all histories, not from one case.", "anchors": ["program/src/actions/add_authority_v1.rs:add_authority_v1", "program/src/actions/update_authority_v1.rs:update_authority_v1", "state/src/tail/mod.rs:SavedTail"]}
{"id": "C14", "title": "Rent claimer entry round-trips and has one encoding", "statement": "Decoding the entry written for a claimer yields that claimer; and any non-empty tail the strict decoder accepts is byte for byte the entry of the claimer it returns. All other tails are rejected.", "quantifier": "every 32-byte key, every byte string", "why_tests_cant": "Canonicality is a statement about all byte strings.", "anchors": ["state/src/tail/rent_claimer.rs:entry", "state/src/tail/rent_claimer.rs:read_strict"]}
{"id": "C15", "title": "Rent claimer is set at most once and never changes", "statement": "Once a rent claimer is registered, no history of instructions (role addition, removal, update, replacement, session creation, sub-account creation, signing, limit consumption, migration, a second registration attempt) changes or removes it while the wallet is open.", "quantifier": "every history of instructions after registration", "why_tests_cant": "Invariant over histories that reallocate and shift the account around the tail.", "anchors": ["state/src/tail/mod.rs:SavedTail", "program/src/actions/set_rent_claimer_v1.rs:set_rent_claimer_v1", "program/src/actions/add_authority_v1.rs:add_authority_v1", "program/src/actions/remove_authority_v1.rs:remove_authority_v1", "program/src/actions/update_authority_v1.rs:update_authority_v1"]}
{"id": "C16", "title": "Rent claimer registration is guarded", "statement": "Registration succeeds only when authorised by a role holding All or CloseSwigAuthority, with a claimer that is non-zero and is neither the wallet's configuration account nor its wallet address, and only when none is registered.", "quantifier": "every request and wallet state", "why_tests_cant": "Decision logic over all inputs.", "anchors": ["program/src/actions/set_rent_claimer_v1.rs:set_rent_claimer_v1"]}
{"id": "C17", "title": "A registered claimer receives all closing rent", "statement": "If a rent claimer is registered, closing the wallet or closing token accounts succeeds only with that claimer as destination, and the lamports of every closed token account go to the claimer.", "quantifier": "every close request against every wallet with a claimer", "why_tests_cant": "Safety over all requests.", "anchors": ["program/src/actions/close_swig_v1.rs:close_swig_v1", "program/src/actions/close_token_account_v1.rs:close_token_account_v1"]}
{"id": "C18", "title": "One-shot limits bound total spending for ever", "statement": "For a SOL, token, stake, SOL-destination or token-destination limit initialised to L, the sum of all amounts ever approved through it is at most L, remaining = L minus that sum, an amount is approved iff it does not exceed the remaining balance, the mint and destination it is bound to never change, and a refused charge changes nothing.", "quantifier": "every sequence of charge attempts with any amounts", "why_tests_cant": "Unbounded sequences of operations.", "anchors": ["state/src/action/sol_limit.rs:SolLimit::run", "state/src/action/token_limit.rs:TokenLimit::run", "state/src/action/stake_limit.rs:StakeLimit::run", "state/src/action/sol_destination_limit.rs:SolDestinationLimit::run", "state/src/action/token_destination_limit.rs:TokenDestinationLimit::run"]}
{"id": "C19", "title": "Recurring limits bound spending between two resets", "statement": "For a recurring SOL, token or stake limit R with window W > 0: whatever is attempted at slots between s and t, the total approved is at most what remained plus R times (1 + t/W - s/W), that is one refill per aligned window touched; from creation on, at most R times (1 + t/W) has been approved by slot t; a refill only ever happens when more than W slots have passed since the last reset, so within one window only what remains can be spent.", "quantifier": "every sequence of (slot, amount) charge attempts with non-decreasing slots", "why_tests_cant": "Rate limits are statements about all schedules.", "anchors": ["state/src/action/sol_recurring_limit.rs:SolRecurringLimit::run", "state/src/action/token_recurring_limit.rs:TokenRecurringLimit::run", "state/src/action/stake_recurring_limit.rs:StakeRecurringLimit::run"]}
{"id": "C20", "title": "Recurring destination limits bound spending per window", "statement": "For a recurring SOL or token destination limit R with window W, over attempts in clock order within a span of T slots at most what remained plus R times (1 + T / (W+1)) is approved, whatever reset slot is stored; when the stored reset slot is not in the future a refill only happens once more than W slots have passed.", "quantifier": "every sequence of (slot, amount) attempts with non-decreasing slots", "why_tests_cant": "Rate limits over all schedules; the elapsed time is computed with a subtraction that can wrap.", "anchors": ["state/src/action/sol_recurring_destination_limit.rs:SolRecurringDestinationLimit::run", "state/src/action/token_recurring_destination_limit.rs:TokenRecurringDestinationLimit::run"]}
{"id": "C21", "title": "A recurring limit is never unusable", "statement": "Charging a recurring limit always returns approval or refusal; it never aborts because of the way it was configured.", "quantifier": "every configuration accepted at creation, every slot and amount", "why_tests_cant": "A single bad configuration suffices; needs all configurations.", "anchors": ["state/src/action/sol_recurring_limit.rs:SolRecurringLimit::valid_layout", "state/src/action/sol_recurring_limit.rs:SolRecurringLimit::run"]}
{"id": "C22", "title": "Program scope limits bound usage", "statement": "With a Limit-type program scope (limit below the largest u128, which means unlimited) the total usage ever approved never exceeds the limit; with a RecurringLimit scope at most one limit is approved per aligned window on top of what remained; a Basic scope imposes no bound; any other scope type is refused.", "quantifier": "every sequence of usage attempts with any u128 amounts and slots", "why_tests_cant": "Unbounded sequences and saturation at u128.", "anchors": ["state/src/action/program_scope.rs:ProgramScope::run"]}
{"id": "C23", "title": "Scoped balance field is read within bounds", "statement": "Reading the tracked balance of a scoped account either reports an error or returns the little-endian value of exactly the configured bytes; it never reads outside the account data.", "quantifier": "every account data, every configured range and numeric type", "why_tests_cant": "All ranges and all data lengths.", "anchors": ["state/src/action/program_scope.rs:ProgramScope::read_account_balance", "state/src/util.rs:read_numeric_field"]}
{"id": "C24", "title": "Session keys work only until they expire", "statement": "A session-based authority accepts a session-key authentication only if the current slot is not past the stored expiry, and the required session key signed the transaction.", "quantifier": "every authority state, slot, account list and payload", "why_tests_cant": "All slots and states.", "anchors": ["state/src/authority/ed25519.rs:Ed25519SessionAuthority::authenticate_session", "state/src/authority/secp256k1.rs:Secp256k1SessionAuthority::authenticate_session", "state/src/authority/secp256r1.rs:Secp256r1SessionAuthority::authenticate_session", "state/src/authority/programexec/session.rs:ProgramExecSessionAuthority::authenticate_session"]}
{"id": "C25", "title": "A session never outlives the configured maximum", "statement": "Starting a session with a duration above the maximum is refused; otherwise the key stored is the requested one and the session expires exactly duration slots after the current slot, hence at most the configured maximum later.", "quantifier": "every session authority, key, slot and duration", "why_tests_cant": "All durations, including those near the integer bound.", "anchors": ["state/src/authority/ed25519.rs:Ed25519SessionAuthority::start_session", "state/src/authority/secp256k1.rs:Secp256k1SessionAuthority::start_session"]}
{"id": "C26", "title": "Sessions are started only by the main credential", "statement": "Session creation succeeds only for session-capable roles and only with an authentication by the role's main credential; a session key can never extend or replace its own session.", "quantifier": "every request, every role", "why_tests_cant": "Decision logic over all states and payloads.", "anchors": ["program/src/actions/create_session_v1.rs:create_session_v1"]}
{"id": "C27", "title": "Roles without sessions reject session operations", "statement": "Ed25519, Secp256k1, Secp256r1 and ProgramExec (non-session) authorities reject both starting a session and session authentication.", "quantifier": "every non-session authority and payload", "why_tests_cant": "All inputs.", "anchors": ["state/src/authority/mod.rs:Authority::authenticate_session", "state/src/authority/mod.rs:Authority::start_session"]}
{"id": "C28", "title": "Secp256k1 and Secp256r1 authorisations cannot be replayed", "statement": "Each successful main-key authentication consumes the next counter value: the authorisation's counter must be the stored odometer plus one and the odometer is then set to it. Therefore in any history the counters of accepted authorisations are consecutive and a payload accepted once is refused afterwards (until the 32-bit counter has gone through 2^32 - 1 further authorisations).", "quantifier": "every history of authentication attempts", "why_tests_cant": "Replay is about all later points of all histories.", "anchors": ["state/src/authority/secp256k1.rs:secp256k1_authority_authenticate", "state/src/authority/secp256r1.rs:secp256r1_authority_authenticate"]}
{"id": "C29", "title": "Signatures older than 60 slots are refused", "statement": "A Secp256k1 or Secp256r1 authorisation whose stated slot is in the future or more than 60 slots in the past is refused.", "quantifier": "every slot pair and payload", "why_tests_cant": "All slot values incl. boundaries.", "anchors": ["state/src/authority/secp256k1.rs:secp256k1_authenticate", "state/src/authority/secp256r1.rs:secp256r1_authenticate"]}
{"id": "C30", "title": "The signed message binds payload, accounts, slot and counter", "statement": "Two authorisations that produce the same signed message agree on the instruction payload, on the account list (keys, signer and writable flags), on the slot and on the counter.", "quantifier": "every pair of (payload, account list, slot, counter)", "why_tests_cant": "Injectivity of an encoding over all pairs.", "anchors": ["state/src/authority/secp256k1.rs:secp256k1_authenticate", "state/src/authority/secp256r1.rs:compute_message_hash"]}
{"id": "C31", "title": "Only the stored key can authenticate", "statement": "Secp256k1 authentication succeeds only if public-key recovery of the signature over the message hash yields a key whose SEC1 compressed form equals the stored key, with a low-s signature; Ed25519 only if the referenced account is a transaction signer with the stored key.", "quantifier": "every authority, signature, message and recovery function", "why_tests_cant": "All inputs, for every behaviour of the recovery syscall.", "anchors": ["state/src/authority/secp256k1.rs:secp256k1_authenticate", "state/src/authority/ed25519.rs:ed25519_authenticate"]}
{"id": "C32", "title": "Text encodings used in signed messages are faithful", "statement": "The hexadecimal and unpadded base64url encoders produce the standard encoding, of the standard length, and are injective, so two different challenges never have the same text.  An origin in a WebAuthn request is used as text exactly if its bytes are the UTF-8 encoding of some text, and then that text is signed unchanged.", "quantifier": "every byte string", "why_tests_cant": "Injectivity and correctness over all strings.", "anchors": ["state/src/authority/secp256k1.rs:hex_encode", "state/src/authority/secp256r1.rs:base64url_encode_no_pad", "state/src/authority/secp256r1.rs:webauthn_message"]}
{"id": "C33", "title": "Compact instruction payloads decode to what was encoded", "statement": "Encoding a list of inner instructions and decoding the result in the program yields the same instructions: same programs, same accounts, same data, in the same order, when the counts fit the wire format.", "quantifier": "every list of at most 255 instructions with at most 253 accounts each and data under 64 KiB", "why_tests_cant": "Round trip over unbounded structured data.", "anchors": ["instructions/src/compact_instructions.rs:CompactInstructions::into_bytes", "instructions/src/lib.rs:InstructionIterator::parse_next_instruction"]}
{"id": "C34", "title": "Client-side compaction preserves the meaning of instructions", "statement": "After compaction every account index refers, in the produced outer account list, to the account of the original instruction, and every program index to its program.", "quantifier": "every outer account list and inner instruction list producing at most 256 outer accounts", "why_tests_cant": "All lists, with repeated accounts in any pattern.", "anchors": ["instructions/src/compact_instructions.rs:compact_instructions"]}
{"id": "C35", "title": "Inner instructions get no signature the transaction did not give", "statement": "When inner instructions are decoded, an account is marked as signer only if it is the wallet address or signed the outer transaction, and never if it is restricted; whether an instruction uses the wallet's signature is reported exactly.", "quantifier": "every payload and account list", "why_tests_cant": "Privilege escalation must be excluded for all payloads.", "anchors": ["instructions/src/lib.rs:InstructionIterator::parse_next_instruction", "program/src/util/mod.rs:build_restricted_keys"]}
{"id": "C36", "title": "Malformed compact payloads are refused, never misread", "statement": "Decoding any byte string either returns instructions whose every index is within the account list and whose data lies within the payload, or an error; it consumes the payload left to right and terminates.", "quantifier": "every byte string and account list", "why_tests_cant": "Parser safety over all byte strings.", "anchors": ["instructions/src/lib.rs:InstructionIterator::parse_next_instruction"]}
{"id": "C37", "title": "Only managers can add or update roles", "statement": "Adding a role or updating a role's actions succeeds only if the acting role exists, authenticated, and holds All or ManageAuthority.", "quantifier": "every request and wallet state", "why_tests_cant": "Access control over all requests.", "anchors": ["program/src/actions/add_authority_v1.rs:add_authority_v1", "program/src/actions/update_authority_v1.rs:update_authority_v1"]}
{"id": "C38", "title": "A role is removed only by a manager or by itself", "statement": "Removing a role succeeds only if the acting role authenticated and either holds All or ManageAuthority or is the removed role itself; removing the root role always fails.", "quantifier": "every request and wallet state", "why_tests_cant": "Access control over all requests.", "anchors": ["program/src/actions/remove_authority_v1.rs:remove_authority_v1"]}
{"id": "C39", "title": "Signer replacement touches only the credential", "statement": "Replacing a role's signer keeps the role's id, authority type, permissions and every other role, stores the new key, resets the replay counter and clears any running session; it refuses a credential of the wrong length, the same signer, and ProgramExec roles.", "quantifier": "every wallet, target role and new credential", "why_tests_cant": "Frame and effect over all states.", "anchors": ["program/src/actions/replace_authority_v1.rs:replace_authority_v1", "program/src/actions/replace_authority_v1.rs:replace_target_signer"]}
{"id": "C40", "title": "Signer replacement is authorised per target", "statement": "Replacing a signer succeeds only if the acting role authenticated and holds All, ManageAuthority, or ReplaceAuthority for exactly that target role id.", "quantifier": "every request and wallet", "why_tests_cant": "Access control over all requests.", "anchors": ["program/src/actions/replace_authority_v1.rs:replace_authority_v1", "state/src/action/replace_authority.rs:ReplaceAuthority"]}
{"id": "C41", "title": "Replacement proof binds every parameter", "statement": "The proof digest pre-image determines swig account, wallet address, acting role, target role, authority type, current signer and new signer, so a proof given for one replacement cannot be used for another.", "quantifier": "every pair of replacement parameters", "why_tests_cant": "Injectivity over all pairs.", "anchors": ["program/src/actions/replace_authority_v1.rs:replacement_proof_hash", "program/src/actions/replace_authority_v1.rs:load_signed_replacement_proof"]}
{"id": "C42", "title": "Rent accounting of role changes conserves lamports", "statement": "Adding a role leaves the account rent exempt and takes at most the missing rent from the payer; removing a role refunds exactly the rent difference; the sum of lamports is conserved.", "quantifier": "every wallet and rent schedule", "why_tests_cant": "Arithmetic over all balances.", "anchors": ["program/src/actions/add_authority_v1.rs:add_authority_v1", "program/src/actions/remove_authority_v1.rs:remove_authority_v1", "program/src/actions/update_authority_v1.rs:update_authority_v1"]}
{"id": "C43", "title": "A closed wallet stays closed", "statement": "After a wallet is closed, no instruction succeeds on it again and it can never be re-created at that address.", "quantifier": "every instruction and every later history", "why_tests_cant": "All later instructions.", "anchors": ["program/src/actions/close_swig_v1.rs:close_swig_v1", "program/src/actions/create_v1.rs:create_v1", "program/src/lib.rs:is_swig_config_account"]}
{"id": "C44", "title": "Closing moves every lamport to the destination", "statement": "Closing succeeds only if neither account holds more than its rent minimum and only for an authorised role; afterwards the wallet address is empty, the configuration account keeps exactly the one-byte rent, and the destination has received everything else: the sum is conserved.", "quantifier": "every balance, destination and rent schedule", "why_tests_cant": "Arithmetic and aliasing over all accounts.", "anchors": ["program/src/actions/close_swig_v1.rs:close_swig_v1"]}
{"id": "C45", "title": "Closing is authorised", "statement": "Closing the wallet or its token accounts succeeds only if the acting role authenticated and holds All, ManageAuthority or CloseSwigAuthority.", "quantifier": "every request", "why_tests_cant": "Access control over all requests.", "anchors": ["program/src/actions/close_swig_v1.rs:close_swig_v1", "program/src/actions/close_token_account_v1.rs:close_token_account_v1"]}
{"id": "C46", "title": "V2 sub-account permissions are default-deny and scoped", "statement": "Signing with, withdrawing from or toggling sub-account k succeeds only if the acting role holds an action for exactly k that is either the all-operations grant or the grant of that operation; All or ManageAuthority alone grant nothing.", "quantifier": "every role, every sub-account id and operation", "why_tests_cant": "Access control over all roles.", "anchors": ["program/src/actions/sub_account_sign_v2.rs:has_scoped_v2", "program/src/actions/sub_account_sign_v2.rs:authorize_scoped_v2"]}
{"id": "C47", "title": "V2 sub-account ids are issued once", "statement": "Successive sub-account creations get ids 0, 1, 2, ... ; an id is never issued twice.", "quantifier": "every history of instructions", "why_tests_cant": "Invariant over histories.", "anchors": ["program/src/actions/create_sub_account_v2.rs:create_sub_account_v2", "program/src/actions/migrate_to_wallet_address_v1.rs:migrate_to_wallet_address_v1"]}
{"id": "C48", "title": "A disabled sub-account cannot act", "statement": "While a sub-account is disabled no sign or withdraw instruction on it succeeds; only toggling by an authorised role re-enables it.", "quantifier": "every request against a disabled sub-account", "why_tests_cant": "Safety over all requests.", "anchors": ["program/src/actions/sub_account_sign_v2.rs:validate_v2_state", "program/src/actions/withdraw_from_sub_account_v2.rs:withdraw_from_sub_account_v2", "program/src/actions/sub_account_sign_v1.rs:sub_account_sign_v1", "program/src/actions/withdraw_from_sub_account_v1.rs:withdraw_from_sub_account_v1"]}
{"id": "C49", "title": "Sub-account withdrawals only reach the parent wallet", "statement": "A successful withdrawal (either version) moves exactly the requested amount from the sub-account to the address of the wallet the request is for (or a token account owned by it) and nowhere else. (That another wallet with the same id can be that wallet is property C102.)", "quantifier": "every request", "why_tests_cant": "Safety over all account lists.", "anchors": ["program/src/actions/withdraw_from_sub_account_v2.rs:withdraw_from_sub_account_v2"]}
{"id": "C50", "title": "Creating a sub-account grants the creator exactly that sub-account", "statement": "After a V2 sub-account with id k is created, the creating role holds the all-operations grant for k, and no other role's permissions changed.", "quantifier": "every wallet and creating role", "why_tests_cant": "Effect and frame over all states.", "anchors": ["program/src/actions/create_sub_account_v2.rs:create_sub_account_v2", "program/src/actions/update_authority_v1.rs:append_actions_to_role"]}
{"id": "C51", "title": "Sub-account V1 signing is bound to its role", "statement": "Signing with a V1 sub-account succeeds only for a role holding the sub-account action for that address, for that wallet and that role id, while enabled; after any sub-account signing the sub-account is rent exempt.", "quantifier": "every request and role", "why_tests_cant": "Access control over all requests.", "anchors": ["program/src/actions/sub_account_sign_v1.rs:sub_account_sign_v1", "program/src/actions/toggle_sub_account_v1.rs:toggle_sub_account_v1"]}
{"id": "C52", "title": "A SOL limit bounds what a signing role can take, whatever the called programs do", "statement": "If a role without All/AllButManageAuthority signs successfully, the wallet address's lamports fall by no more than the amount by which the role's SOL limit (or recurring limit, after reset) was charged; with no SOL limit and no destination limit the balance does not fall at all.", "quantifier": "every role, every instruction list, every behaviour of every called program", "why_tests_cant": "Called programs are arbitrary: universally quantified environment.", "anchors": ["program/src/actions/sign_v2.rs:sign_v2"]}
{"id": "C53", "title": "A token limit bounds what a signing role can take, whatever the called programs do", "statement": "If a restricted role signs successfully, then for each mint the summed decrease of the wallet's writable token accounts of that mint is at most the amount charged to the role's limits for that mint.", "quantifier": "every role, account list, instruction list and behaviour of called programs", "why_tests_cant": "Universally quantified environment and account lists.", "anchors": ["program/src/actions/sign_v2.rs:sign_v2"]}
{"id": "C54", "title": "A restricted role cannot alter wallet state through called programs", "statement": "If a restricted role signs successfully, the configuration account data (apart from the replay counter and limit counters) is unchanged, and token accounts keep mint, owner, delegate and close authority, whatever the called programs do.", "quantifier": "every behaviour of called programs", "why_tests_cant": "Universally quantified environment.", "anchors": ["program/src/actions/sign_v2.rs:sign_v2", "program/src/util/mod.rs:hash_except"]}
{"id": "C55", "title": "Only permitted programs are called with the wallet's signature", "statement": "When a restricted role without ProgramAll signs, every inner instruction that carries the wallet's signature targets a program the role holds a Program action for, or a curated program if it holds ProgramCurated.", "quantifier": "every role and instruction list", "why_tests_cant": "Safety over all payloads.", "anchors": ["program/src/actions/sign_v2.rs:sign_v2", "state/src/action/program_curated.rs:ProgramCurated"]}
{"id": "C56", "title": "Destination limits confine SOL to listed destinations", "statement": "If a restricted role holds SOL destination limits, a successful signing spends SOL only by system transfers whose destinations have a limit in the role, each charged in full, the charges adding up to the whole decrease.", "quantifier": "every role, instruction list and behaviour of called programs", "why_tests_cant": "Safety over all payloads.", "anchors": ["program/src/actions/sign_v2.rs:process_sol_transfers", "program/src/actions/sign_v2.rs:sign_v2"]}
{"id": "C57", "title": "The wallet address stays usable after a restricted signing", "statement": "After a restricted role signs successfully the wallet address still holds at least its rent minimum and still belongs to the system program.", "quantifier": "every behaviour of called programs", "why_tests_cant": "Universally quantified environment.", "anchors": ["program/src/actions/sign_v2.rs:sign_v2"]}
{"id": "C58", "title": "Wallet-controlled accounts are always recognised", "statement": "Every account passed after the first two that is a token account whose owner is the wallet address, or a stake account whose withdraw authority is the wallet address, is tracked for limits.", "quantifier": "every account list", "why_tests_cant": "Completeness over all account contents.", "anchors": ["program/src/lib.rs:classify_account"]}
{"id": "C59", "title": "Migration preserves roles and identity", "statement": "Migrating a legacy wallet keeps its id, its roles, its next-id counter and every role byte; an already migrated wallet is refused.", "quantifier": "every legacy and migrated wallet", "why_tests_cant": "All states.", "anchors": ["program/src/actions/migrate_to_wallet_address_v1.rs:migrate_to_wallet_address_v1"]}
{"id": "C60", "title": "Asset transfer leaves the configuration account rent exempt", "statement": "Transferring assets to the wallet address moves exactly the lamports above the rent minimum, for authorised roles only, and conserves the sum; tokens move only from token accounts held by the configuration account to token accounts held by the wallet address, whole balances at a time.", "quantifier": "every balance and rent schedule", "why_tests_cant": "Arithmetic over all balances.", "anchors": ["program/src/actions/transfer_assets_v1.rs:transfer_assets_v1"]}
{"id": "C61", "title": "The curated program list is the documented one", "statement": "A ProgramCurated permission covers exactly the four documented programs: System, SPL Token, Token-2022 and Stake.", "quantifier": "every program address", "why_tests_cant": "Membership over all 2^256 addresses; tests only try the addresses that work.", "anchors": ["state/src/action/program_curated.rs:CURATED_PROGRAMS", "state/src/action/program_curated.rs:is_curated_program"]}
{"id": "C62", "title": "A program-execution role can be used as configured", "statement": "If an earlier instruction of the transaction was executed by the configured program, its data starts with the configured prefix and its first two accounts are the wallet configuration and wallet address, the role authenticates.", "quantifier": "every configured program and prefix, every transaction", "why_tests_cant": "Liveness over all prefixes and transactions.", "anchors": ["state/src/authority/programexec/mod.rs:program_exec_authenticate"]}
{"id": "C63", "title": "A passkey signature binds the request", "statement": "A passkey (WebAuthn) message accepted for a request is authenticator data followed by the digest of client data whose type is webauthn.get and whose challenge is the base64url text of the hash of that request; the same signature cannot serve two requests unless SHA-256 collides.", "quantifier": "every client data, field order, origin and hash", "why_tests_cant": "Injectivity of a text format over all inputs.", "anchors": ["state/src/authority/secp256r1.rs:webauthn_message", "state/src/authority/secp256r1.rs:extract_top_level_string_field", "state/src/authority/secp256r1.rs:reconstruct_client_data_json"]}
{"id": "C64", "title": "One wallet never spends another wallet configuration account", "statement": "An instruction executed on behalf of one wallet never takes lamports out of the configuration account of another wallet.", "quantifier": "every pair of wallets and every list of inner instructions", "why_tests_cant": "Relation between two unrelated accounts over all instruction lists.", "anchors": ["instructions/src/lib.rs:InstructionHolder::execute"]}
{"id": "C65", "title": "Compaction keeps account privileges", "statement": "Compacting client instructions passes every account of the original instructions with at least the signer and writable flags the original instruction asked for.", "quantifier": "every list of client instructions", "why_tests_cant": "All combinations of repeated accounts and flags.", "anchors": ["instructions/src/compact_instructions.rs:compact_instructions"]}
{"id": "C66", "title": "A program scope bounds the loss of the balance it watches", "statement": "When a role with a limited or recurring program scope signs instructions over the watched account, the balance field of that account falls by no more than what the scope is charged, the recorded usage never exceeds the limit, everything of the account outside the balance field is unchanged, and a role without a scope cannot pass an account that another role watches.", "quantifier": "every wallet, scope, account content and list of inner instructions, and every behaviour of the called programs", "why_tests_cant": "The programs that change the account are arbitrary and the limit must hold for every sequence of calls.", "anchors": ["program/src/actions/sign_v2.rs:sign_v2", "state/src/action/program_scope.rs:ProgramScope::run", "state/src/action/program_scope.rs:ProgramScope::read_account_balance", "program/src/lib.rs:classify_account"]}
{"id": "C67", "title": "Stake permissions bound what happens to the stake accounts of the wallet", "statement": "A role without a stake permission cannot perform operations on the stake accounts of the wallet; with a stake limit the lamports taken out and the changes of the delegated amount, over all stake accounts of the request together, are taken off the limit; staker, withdrawer and lock-up never change.", "quantifier": "every wallet, list of stake accounts, list of inner instructions and behaviour of the called programs", "why_tests_cant": "Sums over arbitrarily many accounts and arbitrary program behaviour.", "anchors": ["program/src/actions/sign_v2.rs:sign_v2", "state/src/action/stake_limit.rs:StakeLimit::run", "state/src/action/stake_recurring_limit.rs:StakeRecurringLimit::run", "program/src/lib.rs:classify_account"]}
{"id": "C68", "title": "A basic program scope lets the role use the account without limits", "statement": "A role whose scope for an account is of the basic kind may sign instructions over that account; nothing is limited or charged.", "quantifier": "every wallet, account and list of inner instructions", "why_tests_cant": "Liveness over every account content and program behaviour.", "anchors": ["state/src/action/program_scope.rs:ProgramScopeType", "program/src/actions/sign_v2.rs:sign_v2", "state/src/action/program_scope.rs:ProgramScope::read_account_balance"]}
{"id": "C69", "title": "Permissions mean to the program what they mean to the client", "statement": "A list of permissions serialised by the client library is read by the program as exactly these permissions in this order, different lists are serialised differently, the program identifies a repeatable permission by the program, mint, destination, account or id the client named, and charging a limit accepts exactly the amounts the client-side meaning of the limit allows and leaves the limit it should.", "quantifier": "every list of client permissions with values in the range of their types, every amount and slot", "why_tests_cant": "Two independent encodings have to agree on all values of 26 record layouts.", "anchors": ["interface/src/lib.rs:ClientAction::write", "state/src/swig.rs:SwigBuilder::add_role", "state/src/action/mod.rs:ActionLoader"]}
{"id": "C70", "title": "An honest request built by the client library succeeds and does what it says", "statement": "A request built by the client library for a role the caller holds, with enough permission and lamports, is accepted by the program and changes the wallet exactly as asked: create, add, remove, update, replace an authority, start a session, set the rent claimer.", "quantifier": "every wallet, role, kind of credential, argument and transaction that carries the request", "why_tests_cant": "End-to-end liveness over all wallets and credentials; tests cover a few of the combinations of operation and credential.", "anchors": ["interface/src/lib.rs:AddAuthorityInstruction", "interface/src/lib.rs:RemoveAuthorityInstruction", "interface/src/lib.rs:UpdateAuthorityInstruction", "interface/src/lib.rs:CreateSessionInstruction", "interface/src/lib.rs:CreateInstruction", "interface/src/replace_authority.rs:ReplaceAuthorityInstruction", "program/src/lib.rs:process_action"]}
{"id": "C71", "title": "Every request the client library offers can be accepted", "statement": "For every operation and every kind of credential for which the client library offers a builder, the holder of the credential with the needed permissions gets a request that the program accepts; in particular the payload has the length the program expects, the accounts are at the positions where the program looks for them, and other uses of the same accounts in the transaction do not invalidate the signature.", "quantifier": "every wallet, role, state, signature, transaction", "why_tests_cant": "a builder that can never succeed is found only if its one combination of operation and credential is run; the flags depend on the rest of the transaction", "anchors": ["interface/src/lib.rs: CreateSubAccountInstruction, WithdrawFromSubAccountInstruction, SubAccountSignInstruction, ToggleSubAccountInstruction, TransferAssetsV1Instruction", "state/src/authority/secp256k1.rs: secp256k1_authority_authenticate", "state/src/authority/secp256r1.rs: secp256r1_authority_authenticate", "program/src/actions/withdraw_from_sub_account_v1.rs", "program/src/actions/sub_account_sign_v1.rs"]}
{"id": "C72", "title": "Who can withdraw from a V1 sub-account", "statement": "Funds leave a V1 sub-account by withdrawal only for the role that owns it while it is enabled, for a manager whose own sub-account it is, or for a role with the All permission; a role with All can withdraw from every V1 sub-account of the wallet.", "quantifier": "every wallet, role, sub-account and request", "why_tests_cant": "Access control and liveness over all wallets; tests use few roles.", "anchors": ["program/src/actions/withdraw_from_sub_account_v1.rs:withdraw_from_sub_account_v1"]}
{"id": "C73", "title": "A role changes only through requests that name it", "statement": "Over any history of the ledger, the record of a role (type, credential, permissions and remaining amounts) stays the same as long as no request acts as the role, removes or updates it, toggles one of its sub-accounts or replaces its key; the credential changes only through requests acting as the role or replacing its key; permissions other than sub-account entries only through updates of the role and signings by it.", "quantifier": "every wallet, role and history of requests by any roles with arbitrary called programs, until the wallet is closed", "why_tests_cant": "Needs an invariant over unboundedly many requests and re-entrant calls.", "anchors": ["program/src/lib.rs:process_action", "state/src/swig.rs:SwigBuilder", "program/src/actions/update_authority_v1.rs:update_authority_v1", "program/src/actions/sign_v2.rs:sign_v2"]}
{"id": "C74", "title": "A limit bounds what all signings of a role together take", "statement": "Until a role is updated or removed, all its signings together, whatever happens between them, take at most the remaining amount of a fixed SOL, token or stake limit out of the wallet, and at most the left amount plus one full amount per window touched for a recurring limit; the same holds per destination for destination limits and per balance for program scopes; a role without SOL limits takes nothing.", "quantifier": "every wallet, limited role, history of signings by the role interleaved with arbitrary other events, arbitrary called programs", "why_tests_cant": "The bound is on a sum over unboundedly many requests, windows and arbitrary behaviour of called programs.", "anchors": ["program/src/actions/sign_v2.rs:sign_v2", "state/src/action/sol_limit.rs:SolLimit::run", "state/src/action/sol_recurring_limit.rs:SolRecurringLimit::run", "state/src/action/token_limit.rs:TokenLimit::run", "state/src/action/token_recurring_limit.rs:TokenRecurringLimit::run"]}
{"id": "C75", "title": "A signed request of a secp role is accepted at most once", "statement": "For a role with a Secp256k1 or Secp256r1 key without sessions, no signed request is accepted twice: of two accepted requests of the role the later one states another counter.", "quantifier": "every wallet, role, pair of accepted requests and history between them with fewer than 2^32 uses of the role", "why_tests_cant": "Replay protection must survive every sequence of requests between the two.", "anchors": ["state/src/authority/secp256k1.rs:secp_authority_authenticate", "state/src/authority/secp256r1.rs:secp256r1_authority_authenticate", "program/src/actions/replace_authority_v1.rs:replace_authority_v1"]}
{"id": "C76", "title": "Every accepted request authenticated the role it acts as", "statement": "Each successful request for an existing wallet acts as a role stored in it, and either the session key of that role, not expired, signed the transaction, or the stored authority accepted the credential at the end of the request over the signed part of the request (for an Ed25519 role: its key signed the transaction; for a Secp256k1 role: a signature over request, accounts, slot and next counter).", "quantifier": "every instruction number, wallet, role, ledger and request", "why_tests_cant": "All eighteen instructions and eight credential types at once, for all inputs.", "anchors": ["program/src/lib.rs:process_action", "state/src/authority/mod.rs:AuthorityInfo::authenticate", "state/src/authority/mod.rs:AuthorityInfo::authenticate_session"]}
{"id": "C77", "title": "Requests to close, to use sub-accounts and to sign built with the client library are carried out", "statement": "When the holder of a role with the needed permission builds a request with the client library and sends it on a ledger that meets the documented preconditions, the program carries it out and does exactly what the request says: closing leaves the marker and its rent and pays the rest to the destination; creating, enabling and disabling a V2 sub-account leave exactly that record; a withdrawal moves exactly that amount of SOL or is exactly that token transfer; signing for a sub-account, or for the wallet by a role with All or AllButManageAuthority, executes exactly the given instructions in order with the signature of the sub-account or the wallet.", "quantifier": "every wallet, role, authority type with a builder for the request, ledger, transaction around it, called program, amount and instruction", "why_tests_cant": "Builder and program must agree on every layout, index and check, for all inputs and authority types.", "anchors": ["interface/src/lib.rs:CloseSwigV1Instruction", "interface/src/lib.rs:CreateSubAccountV2Instruction", "interface/src/lib.rs:ToggleSubAccountV2Instruction", "interface/src/lib.rs:WithdrawFromSubAccountV2Instruction", "interface/src/lib.rs:SubAccountSignV2Instruction", "interface/src/lib.rs:SignV2Instruction", "program/src/lib.rs:process_action"]}
{"id": "C78", "title": "Whatever a role has spent, its permissions can be extended and reduced", "statement": "A request to add permissions to a role or to take permissions away, or of a role to create a V2 sub-account, that would be carried out before the role has used its limits is also carried out afterwards.", "quantifier": "every wallet, role, permission list, payment, called program and later request", "why_tests_cant": "Each request works in tests with fresh roles; the property ranges over the counters left by all earlier payments.", "anchors": ["program/src/actions/update_authority_v1.rs:calculate_num_actions", "program/src/actions/update_authority_v1.rs:perform_add_actions_operation", "state/src/action/mod.rs:ActionLoader::validate_layout", "state/src/action/sol_recurring_limit.rs:valid_layout", "program/src/actions/create_sub_account_v2.rs:create_sub_account_v2"]}
{"id": "C79", "title": "A limited role can do what its limits allow", "statement": "A role without All or AllButManageAuthority asks, with a request built by the client library and authenticated by its credential, for one instruction of a program it may call. If the called program succeeds, leaves the wallet configuration and the token accounts of the wallet in order and leaves the wallet address its rent minimum, and what the wallet address or a token account loses is covered by the limits of the role (the general limits and the limits for the destination, each of those that exist), then the request succeeds. The result is that of the call, with exactly these limits reduced by exactly the amount and the replay counter advanced. In particular payments of SOL with an honest System program and token transfers are carried out.", "quantifier": "all wallets, roles, credentials, limits, amounts, slots, instructions and called programs; requests that involve no stake accounts and no targets of program scopes", "why_tests_cant": "Tests pay with a few limits; that no combination of limits, accounts and balances makes a covered payment fail cannot be enumerated.", "anchors": ["program/src/actions/sign_v2.rs: sign_v2", "instructions/src/lib.rs: InstructionHolder::execute", "program/src/lib.rs: classify_account", "interface/src/lib.rs: SignV2Instruction"]}
{"id": "C80", "title": "The permissions the SDK shows for a role are the ones it holds", "statement": "Reading the permissions of a role with the Rust SDK returns exactly the permissions the program would apply for the role: everything shown is held with the shown amounts, and everything held is shown.", "quantifier": "every stored wallet, role and list of permissions", "why_tests_cant": "Fourteen kinds of permission in any number and order; tests read back a few roles.", "anchors": ["rust-sdk/src/types.rs:Permission::from_role", "rust-sdk/src/wallet.rs:SwigWallet::get_role_permissions", "state/src/action/mod.rs:Action"]}
{"id": "C81", "title": "A permission given through the SDK is the permission the role gets", "statement": "Each SDK permission is translated to one action of the program with the same amounts, addresses and numbers and the announced type number; recurring limits start full, scopes without a limit are unlimited; the program accepts it, and reading the role after it was added shows the permissions that were given.", "quantifier": "every list of SDK permissions with values in range, every wallet, acting role and credential type", "why_tests_cant": "Every kind of permission with every value has to be translated, accepted and read back.", "anchors": ["rust-sdk/src/types.rs:Permission::to_client_actions", "rust-sdk/src/types.rs:Permission::to_action_type", "interface/src/lib.rs:ClientAction::write"]}
{"id": "C82", "title": "Changing permissions through the SDK changes the named permissions and no others", "statement": "Removing permissions through the SDK removes the named permissions and keeps all others; replacing all permissions leaves exactly the given ones, and writing back the shown permissions of a role changes nothing.", "quantifier": "every wallet, role, list of permissions and update request", "why_tests_cant": "Ranges over all combinations of held and named permissions.", "anchors": ["rust-sdk/src/types.rs:UpdateAuthorityData", "rust-sdk/src/types.rs:Permission::to_action_type", "program/src/actions/update_authority_v1.rs:update_authority_v1"]}
{"id": "C83", "title": "The SDK opens a wallet as the role of the credential it is given", "statement": "Opening an existing wallet with a credential succeeds if the wallet has a role of that credential, selects a role of that credential (the first one stored), and takes over the replay counter stored for it; with no such role it reports an error.", "quantifier": "every stored wallet, every list of roles, every credential holder of the SDK", "why_tests_cant": "The lookup walks raw stored roles of eight kinds in any order with any counters; tests open wallets with one or two roles.", "anchors": ["rust-sdk/src/wallet.rs:SwigWallet::new", "rust-sdk/src/wallet.rs:SwigWallet::switch_authority", "state/src/swig.rs:SwigWithRoles::lookup_role_id", "state/src/authority/mod.rs:AuthorityInfo::match_data", "rust-sdk/src/client_role.rs:ClientRole::authority_bytes"]}
{"id": "C84", "title": "A wallet object of the SDK states the counter the program expects", "statement": "After opening a wallet or switching the authority, and after every request that the program has carried out, whatever others do in between, the next request of the wallet object states the replay counter that the program expects for its role, and a carried out request is reported as success.", "quantifier": "every wallet, Secp256k1 and Secp256r1 role with or without sessions, sequence of requests of the wallet object, called programs, and requests of others in between", "why_tests_cant": "The counters of object and program must agree after every history of requests; tests make a few.", "anchors": ["rust-sdk/src/wallet.rs:SwigWallet::add_authority", "rust-sdk/src/wallet.rs:SwigWallet::sign_v2", "rust-sdk/src/wallet.rs:SwigWallet::create_session", "rust-sdk/src/client_role.rs:Secp256k1ClientRole", "rust-sdk/src/client_role.rs:Secp256k1SessionClientRole", "rust-sdk/src/client_role.rs:ProgramExecClientRole", "rust-sdk/src/instruction_builder.rs:increment_odometer"]}
{"id": "C85", "title": "The answers of the SDK about a role are true", "statement": "The questions of the SDK about a role tell what it can do and has: all permissions, managing authorities, the SOL limits, whether an amount of SOL can be spent, type, kind and identity of the authority, the number of roles, the balance of the wallet, the permissions of the current authority.", "quantifier": "every stored wallet, role, amount, credential, and every request the role makes with the answer", "why_tests_cant": "The answer for an amount must agree with what the program decides for every state of the limits; tests ask for a few fresh roles.", "anchors": ["rust-sdk/src/wallet.rs:SwigWallet::has_all_permissions", "rust-sdk/src/wallet.rs:SwigWallet::can_manage_authority", "rust-sdk/src/wallet.rs:SwigWallet::get_sol_limit", "rust-sdk/src/wallet.rs:SwigWallet::get_recurring_sol_limit", "rust-sdk/src/wallet.rs:SwigWallet::can_spend_sol", "rust-sdk/src/wallet.rs:SwigWallet::get_role_count", "rust-sdk/src/wallet.rs:SwigWallet::get_authority_identity", "rust-sdk/src/wallet.rs:SwigWallet::get_balance", "rust-sdk/src/wallet.rs:SwigWallet::get_current_authority_permissions"]}
{"id": "C86", "title": "Requests of an SDK wallet object are carried out", "statement": "An SDK wallet object that holds what proves its role (key, signing function and counter, running session, or preceding instruction) can do through its methods what the role may do: add, remove and update authorities, start sessions, name a rent claimer, sign instructions, create, toggle and withdraw from sub-accounts and sign with them. The program then does exactly what the method promises and the call returns without error.", "quantifier": "every holder of every authority kind, wallet state, request, slot and set of keypairs", "why_tests_cant": "The keys that sign, the accounts, the message and the state after the request must fit for every holder and request; tests use one happy path for a few holders.", "anchors": ["rust-sdk/src/wallet.rs:SwigWallet::add_authority", "rust-sdk/src/wallet.rs:SwigWallet::remove_authority", "rust-sdk/src/wallet.rs:SwigWallet::sign_v2", "rust-sdk/src/wallet.rs:SwigWallet::update_authority", "rust-sdk/src/wallet.rs:SwigWallet::create_session", "rust-sdk/src/wallet.rs:SwigWallet::set_rent_claimer", "rust-sdk/src/client_role.rs:ClientRole", "rust-sdk/src/instruction_builder.rs:SwigInstructionBuilder"]}
{"id": "C87", "title": "A request changes only accounts it was given, and writable ones", "statement": "Whatever a request contains, no account outside its account list changes. Every account a request built by the client library changes is one that the transaction passes writable, so the rule of the runtime that read-only accounts stay as they are never refuses such a request after the program has accepted it.", "quantifier": "every request with arbitrary data and accounts, every ledger state, every behaviour of called programs the runtime allows; for the second part every builder, caller kind and argument", "why_tests_cant": "The flags are set by some eighty builder variants and used by twenty handlers, with accounts repeated or in unexpected places; a local test runs a few fixed combinations.", "anchors": ["program/src/lib.rs:execute", "interface/src/lib.rs:SignV2Instruction", "interface/src/lib.rs:AddAuthorityInstruction", "interface/src/lib.rs:SubAccountSignInstruction", "program/src/actions/mod.rs:process_action", "instructions/src/lib.rs:InstructionIterator"]}
{"id": "C88", "title": "A request neither creates nor destroys lamports", "statement": "Whatever a request contains, the accounts passed to it hold together as many lamports after it as before, and no other balance changes, so the rule of the runtime that balances must add up never refuses what the program accepted. There are exactly two exceptions, both refused by the runtime afterwards: closing a wallet with its own configuration account as the destination, and spending from an address that a called program took away from the System program.", "quantifier": "every request with arbitrary data and accounts (also the same account in several roles), every ledger state in which the configuration account holds its rent minimum, every behaviour of called programs that itself conserves lamports", "why_tests_cant": "Rent refunds, top-ups, withdrawals and closing move lamports with wrapping arithmetic between accounts that may coincide; a test checks single balances of one arrangement.", "anchors": ["program/src/lib.rs:process_instruction", "program/src/actions/remove_authority_v1.rs:remove_authority_v1", "program/src/actions/update_authority_v1.rs:update_authority_v1", "program/src/actions/close_swig_v1.rs:close_swig_v1", "program/src/actions/transfer_assets_v1.rs:transfer_assets_v1", "instructions/src/lib.rs:InstructionHolder::execute"]}
{"id": "C89", "title": "A permission written in JSON is granted as written", "statement": "A JSON document given to the command line tool for a permission is granted exactly as it says: kind, addresses, amount, window, scope. Anything else is refused with a message. This is false for amounts and limits that are not whole numbers, for recurring members without a readable window and for sub-accounts.", "quantifier": "every JSON value (any nesting, repeated members, members of wrong types) and every permission", "why_tests_cant": "The reader falls back to defaults member by member; tests give well-formed documents.", "anchors": ["cli/src/commands.rs:parse_permission_from_json"]}
{"id": "C90", "title": "Permissions on the command line arrive in one piece", "statement": "The permissions given with --permissions are granted one by one, as written. This is false: the option is split at every comma, also within a document, so that no permission with an address, an amount or a limit can be given on the command line.", "quantifier": "every command line, every list of permissions, every JSON parser that needs a comma between members", "why_tests_cant": "It is about everything a user could type; tests of the reader do not go through the option parser.", "anchors": ["cli/src/main.rs:Command::AddAuthority", "cli/src/main.rs:Command::UpdateAuthority", "cli/src/commands.rs:run_command_mode", "cli/src/commands.rs:parse_permission_from_json"]}
{"id": "C91", "title": "The text of a key stands for that key", "statement": "The text of a key given for an authority type (address, hexadecimal key with or without 0x, compressed or not) makes the program create the credential of exactly that key, for every type offered, and the keys the tool generates and prints can be given back to it. This is false for compressed Secp256k1 keys, for all session types and for generated Secp256k1 keys.", "quantifier": "every key, every text, every type, whoever adds the authority, every wallet", "why_tests_cant": "The text passes through three layers (tool, SDK, program) with different expectations on lengths; tests stay within one.", "anchors": ["cli/src/main.rs:format_authority", "cli/src/commands.rs:parse_authority_type", "cli/src/commands.rs:run_command_mode", "rust-sdk/src/wallet.rs:SwigWallet::add_authority", "program/src/actions/add_authority_v1.rs:add_authority_v1"]}
{"id": "C92", "title": "A role is found by the text of its key", "statement": "Commands that take the text of a key find the role with that key: looking up the role id reports it, removing the authority removes it. The second is false: the removal never finds a role by the text of its key.", "quantifier": "every wallet, every type and text the tool accepts as a key, every role with that key", "why_tests_cant": "It compares what two commands make of the same text, for all texts.", "anchors": ["cli/src/commands.rs:run_command_mode", "cli/src/main.rs:format_authority", "rust-sdk/src/wallet.rs:SwigWallet::remove_authority", "rust-sdk/src/wallet.rs:SwigWallet::get_role_id"]}
{"id": "C93", "title": "Different wallet names are different wallets", "statement": "Every name gives an id of 32 bytes, and different names give different ids. This is false for names that differ in trailing zeros or beyond 32 bytes.", "quantifier": "every pair of names (any characters)", "why_tests_cant": "A statement about all pairs of texts.", "anchors": ["cli/src/commands.rs:run_command_mode"]}
{"id": "C94", "title": "A command acts with the keys it is given", "statement": "A command opens the wallet as the role of the authority it is given, with its private key, and lets the fee payer named pay; if the private key does not belong to the authority it says so. This is false: for Ed25519 the named fee payer does not pay and a foreign private key is noticed only when sending fails; for the other types the text of the authority is not looked at and commands without a fee payer panic.", "quantifier": "every wallet, every authority text, private key and fee payer, every managing request", "why_tests_cant": "It ranges over all combinations of keys, and composes the tool with the SDK.", "anchors": ["cli/src/commands.rs:create_swig_instance", "rust-sdk/src/wallet.rs:SwigWallet::new", "rust-sdk/src/wallet.rs:SwigWallet::get_keypairs"]}
{"id": "C95", "title": "Removing permissions by kind removes every kind", "statement": "Removing permissions by the word of their kind leaves exactly the permissions of other kinds, for every kind a role can have. The second part is false: twelve kinds, among them all recurring limits, have no word.", "quantifier": "every list of words, every list of permissions a role can have", "why_tests_cant": "Quantified over all permission lists; the tests remove one kind from one list.", "anchors": ["cli/src/commands.rs:run_command_mode", "rust-sdk/src/types.rs:Permission", "program/src/actions/update_authority_v1.rs:update_authority_v1"]}
{"id": "C96", "title": "Answers to prompts grant what they say", "statement": "In the interactive mode the permission granted is the one the answers describe. This is false for sub-accounts, whose address is thrown away, and for scopes of the Token-2022 program, which end the tool.", "quantifier": "every sequence of answers for one permission", "why_tests_cant": "All addresses, amounts and windows; the prompts have no tests.", "anchors": ["cli/src/main.rs:get_permissions_interactive"]}
{"id": "C97", "title": "A request takes lamports from, and rewrites, only accounts the wallet program owns", "statement": "Whatever a request contains, the wallet program by itself takes lamports from and rewrites only accounts that belong to it; everything else it does through the System program on accounts of the System program, through calls of other programs, or by giving lamports. So a token or stake account passed to a request changes only through a call of its program, and the rule of the runtime on owners never refuses what the program accepted. Together with C87 and C88: what the client library builds and the program accepts, the runtime accepts.", "quantifier": "every request with arbitrary data and accounts (also the same account in several roles), every ledger state in which the configuration account holds its rent minimum, every behaviour of called programs that does not take accounts away from their owner", "why_tests_cant": "Each of the twenty handlers decides for itself which owners it checks; a test passes the account kinds its author had in mind.", "anchors": ["program/src/lib.rs:process_instruction", "program/src/actions/remove_authority_v1.rs:remove_authority_v1", "program/src/actions/toggle_sub_account_v2.rs:toggle_sub_account_v2", "program/src/actions/create_sub_account_v2.rs:create_sub_account_v2", "program/src/actions/migrate_to_wallet_address_v1.rs:migrate_to_wallet_address_v1", "program/src/actions/sign_v2.rs:sign_v2", "assertions/src/lib.rs:check_self_owned"]}
{"id": "C98", "title": "A configuration account never falls below its rent minimum", "statement": "No request leaves the configuration account of a wallet, its own or that of any other wallet, open or closed, with fewer lamports than the rent minimum of its size. So the runtime never deletes it: over every history, deletions of empty accounts included, an open wallet is the successor of itself by the changes the requests may make, or closed; and a closed wallet stays closed.", "quantifier": "every request with arbitrary data and accounts, every ledger, every history of requests, calls, deposits and deletions of accounts without lamports", "why_tests_cant": "Eight handlers change size or balance of the account, each with its own arithmetic of what to top up or refund; whether one of them can be led below the minimum by some order of requests and sizes no finite set of tests shows.", "anchors": ["program/src/actions/update_authority_v1.rs:update_authority_v1", "program/src/actions/remove_authority_v1.rs:remove_authority_v1", "program/src/actions/close_swig_v1.rs:close_swig_v1", "program/src/actions/transfer_assets_v1.rs:transfer_assets_v1", "program/src/actions/add_authority_v1.rs:add_authority_v1", "program/src/actions/create_sub_account_v2.rs:create_sub_account_v2", "instructions/src/lib.rs:execute"]}
{"id": "C99", "title": "No request makes the program read outside the memory it was given", "statement": "Whatever bytes and accounts a request contains, the program never reads past the end of an account or of the instruction, never uses a byte that is neither 0 nor 1 as a truth value and never reads a value that was not set: it succeeds, returns an error or stops with a panic.", "quantifier": "every request with arbitrary data, accounts and account contents, every ledger state, every behaviour of called programs that is itself defined", "why_tests_cant": "The code reads account and instruction bytes through unchecked pointers in some sixty places; undefined behaviour shows in a test only if it happens to crash the test.", "anchors": ["program/src/lib.rs:process_instruction", "state/src/swig.rs:get_mut_role", "state/src/transmute.rs:load_unchecked", "instructions/src/lib.rs:execute", "program/src/util/mod.rs:read_program_scope_account_balance", "program/src/actions/toggle_sub_account_v1.rs:toggle_sub_account_v1", "program/src/actions/migrate_to_wallet_address_v1.rs:migrate_to_wallet_address_v1", "program/src/actions/withdraw_from_sub_account_v1.rs:withdraw_from_sub_account_v1"]}
{"id": "C100", "title": "Stolen credentials without administrative permissions cannot damage a wallet beyond their own roles", "statement": "If every request for a wallet acts as one of a set of roles none of which may administer the wallet (everything, manage roles, close, replace keys), then however many requests are made, with whatever data, and whatever other programs do in between or are made to call: the wallet stays open, its id, address bump, rent claimer and role counter stay as they are, every other role keeps its key, permissions, remaining limits, replay counter and session exactly, no role is added, and the roles used keep their keys and gain no permission other than over sub-accounts they themselves create. So whoever steals such a credential can neither take over the wallet, nor lock its owners out, nor keep them from revoking the role.", "quantifier": "every wallet, every set of roles without administrative permissions, every history of any length of requests with arbitrary data and accounts, all requests made from within called programs included, and every behaviour of other programs", "why_tests_cant": "Every one of the twenty instructions is a possible way up, also in combination and through re-entrant calls; tests try single instructions with single wrong permissions.", "anchors": ["program/src/lib.rs:process_instruction", "program/src/actions/add_authority_v1.rs:add_authority_v1", "program/src/actions/remove_authority_v1.rs:remove_authority_v1", "program/src/actions/update_authority_v1.rs:update_authority_v1", "program/src/actions/replace_authority_v1.rs:replace_authority_v1", "program/src/actions/close_swig_v1.rs:close_swig_v1", "program/src/actions/toggle_sub_account_v1.rs:toggle_sub_account_v1"]}
{"id": "C101", "title": "A request uses no signature but those given to it and those of the addresses of its own wallet", "statement": "A request for a wallet makes the System program take lamports only from accounts that signed the request or that are addresses of this very wallet (its configuration account, its wallet address, its sub-accounts), and presents no other account as a signer to a called program; a creation signs only for the new configuration account. Hence an account that did not sign and is no address of the wallet keeps its owner and data and loses no lamports, wherever it appears in the request, as long as the called programs take nothing without a signature and the account is not one of the wallet program itself; in particular the wallet address and the sub-accounts of a wallet with another id lose nothing.", "quantifier": "every environment, every ledger, every request with any data and any accounts (all twenty instructions), every behaviour of called programs; every second wallet", "why_tests_cant": "The program signs for derived addresses with seeds that come partly from account data and partly from the request; a single handler that lets a caller choose them gives away the funds of all wallets, and tests try only the handlers and accounts they think of.", "anchors": ["program/src/lib.rs:process_instruction", "program/src/actions/sub_account_sign_v1.rs:sub_account_sign_v1", "program/src/actions/sub_account_sign_v2.rs:sub_account_sign_v2", "program/src/actions/withdraw_from_sub_account_v1.rs:withdraw_from_sub_account_v1", "program/src/actions/withdraw_from_sub_account_v2.rs:withdraw_from_sub_account_v2", "program/src/actions/create_v1.rs:create_v1", "state/src/swig.rs:sub_account_signer"]}
{"id": "C102", "title": "The sub-accounts of a wallet obey that wallet only", "statement": "Lamports leave a sub-account of a wallet only by requests for that wallet, signed by one of its roles with a permission for the sub-account. Nobody else can withdraw from it, however many other wallets they create.", "quantifier": "every wallet, every sub-account of either version, every stranger who can pay the rent of a wallet, every bump that gives another address", "why_tests_cant": "The addresses of sub-accounts are derived from the id of the wallet and creation accepts every bump; a test would have to search a second bump for an id it already used.", "anchors": ["program/src/actions/create_v1.rs:create_v1", "assertions/src/lib.rs:check_self_pda", "state/src/swig.rs:sub_account_seeds", "state/src/swig.rs:sub_account_v2_seeds", "program/src/actions/withdraw_from_sub_account_v1.rs:withdraw_from_sub_account_v1", "program/src/actions/withdraw_from_sub_account_v2.rs:withdraw_from_sub_account_v2", "program/src/actions/sub_account_sign_v2.rs:validate_v2_state"]}
{"id": "C103", "title": "A stolen role without administrative permissions can always be revoked, for good", "statement": "Suppose the credential of a role that has none of the permissions All, ManageAuthority, CloseSwigAuthority and ReplaceAuthority is stolen. Whatever the thief does with it, and whatever happens outside the wallet, the owner of a managing role can then remove the stolen role with the request the client library builds, using their credential as it was before the theft; the request succeeds unless the role is already gone. Afterwards the stolen role does not exist, every other role is as before the theft apart from the use of the credential that removed it, and nothing sent in the name of the stolen role changes any role again.", "quantifier": "every wallet, every role without administrative permissions, every history of requests by that role and of outside events, every managing role and every kind of credential and session", "why_tests_cant": "What the thief can do before the owner notices is an unbounded history; a test tries one theft.", "anchors": ["program/src/actions/remove_authority_v1.rs:remove_authority_v1", "program/src/actions/sign_v2.rs:sign_v2", "rust-sdk/src/instruction_builder.rs:remove_authority", "state/src/swig.rs:SwigBuilder::remove_role"]}
{"id": "C104", "title": "A wallet always keeps a role that can manage it", "statement": "A wallet that is created with a root that may manage it keeps, until it is closed, at least one role with All or ManageAuthority; nobody can lock its owners out, and only the root itself can reduce the permissions of the root.", "quantifier": "every wallet, every sequence of requests of any kind by any senders, every list of new permissions", "why_tests_cant": "The question is about every later history, not about one request, and the only special rule in the code (root cannot be removed) looks as if it settled it.", "anchors": ["program/src/actions/update_authority_v1.rs:update_authority_v1", "program/src/actions/remove_authority_v1.rs:remove_authority_v1", "state/src/swig.rs:SwigBuilder"]}
{"id": "C105", "title": "Nobody can prevent the creation of a wallet or of a sub-account", "statement": "Whoever can pay the rent can create the wallet for an unused id, and a role with the permission can create the next sub-account of its wallet, whatever lamports others have sent to the addresses involved and whatever other wallets they have created.", "quantifier": "every address, every amount sent to it in advance, every creation request, every wallet without sub-accounts, every stranger who can pay the rent", "why_tests_cant": "Tests start from a ledger in which the addresses are untouched; the attack happens before the request and outside of the program.", "anchors": ["program/src/actions/create_v1.rs:create_v1", "program/src/actions/create_sub_account_v2.rs:create_sub_account_v2", "state/src/swig.rs:sub_account_v2_state_seeds"]}
{"id": "C106", "title": "Closing a wallet strands nothing that only the wallet could move", "statement": "A wallet is not closed while its address still holds tokens or its sub-accounts still hold lamports or tokens: after it is closed no request could ever move them.", "quantifier": "every wallet, every set of token accounts and sub-accounts it has, every request that closes it, every history afterwards", "why_tests_cant": "A test of closing looks at the accounts of the request; what is lost are accounts the request does not name, and it is lost for every later request.", "anchors": ["program/src/actions/close_swig_v1.rs:close_swig_v1", "program/src/actions/close_token_account_v1.rs:close_token_account_v1", "state/src/lib.rs:Discriminator"]}
{"id": "C107", "title": "A request uses up no more of a limit than left the wallet", "statement": "A successful request of a restricted role takes off its SOL limit exactly what left the wallet address, counted inner instruction by inner instruction; off a token limit no more than what left the token accounts of that mint; off a stake limit no more than what moved in the stake accounts.  A request that takes nothing uses up nothing.", "quantifier": "every wallet, every restricted role, every list of inner instructions and accounts of the request, every behaviour of the called programs", "why_tests_cant": "A test shows a limit after one payment; that no mixture of payments, deposits, duplicate accounts and foreign programs uses up a limit without spending is a statement about all of them.", "anchors": ["program/src/actions/sign_v2.rs:sign_v2", "state/src/action/sol_limit.rs:SolLimit", "state/src/action/token_limit.rs:TokenLimit", "state/src/action/stake_limit.rs:StakeLimit"]}
{"id": "C108", "title": "One approval by the configured program authorises one request", "statement": "A program-execution role acts only with an approval: an earlier instruction of the transaction by the configured program, with the configured prefix, naming the wallet. One approval authorises one request of one wallet.", "quantifier": "every transaction, every program-execution role, every number of requests of the transaction, every content of the requests", "why_tests_cant": "A test sends an approval and a request; that an approval cannot be used again is a statement about all further requests of all transactions.", "anchors": ["state/src/authority/programexec/mod.rs:program_exec_authenticate", "state/src/authority/programexec/session.rs:ProgramExecSessionAuthority", "program/src/actions/sign_v2.rs:sign_v2"]}
{"id": "C109", "title": "A management request is accepted exactly when its stated conditions hold", "statement": "For adding, removing, updating and re-keying a role, registering the rent claimer, opening a session, closing, migrating and switching a V2 sub-account there is a list of conditions on the bytes of the request, its accounts, the balances and the stored wallet such that the program carries the request out if and only if all of them hold: nothing is refused for another reason, and nothing is carried out without one of them.", "quantifier": "every well-formed wallet, every request of these kinds (any bytes, any accounts), every ledger state", "why_tests_cant": "A test can show one accepted and one refused request; that a list of conditions is complete and that each is needed is a statement about every request.", "anchors": ["program/src/actions/add_authority_v1.rs:add_authority_v1", "program/src/actions/remove_authority_v1.rs:remove_authority_v1", "program/src/actions/update_authority_v1.rs:update_authority_v1", "program/src/actions/replace_authority_v1.rs:replace_authority_v1", "program/src/actions/set_rent_claimer_v1.rs:set_rent_claimer_v1", "program/src/actions/create_session_v1.rs:create_session_v1", "program/src/actions/close_swig_v1.rs:close_swig_v1", "program/src/actions/migrate_to_wallet_address_v1.rs:migrate_to_wallet_address_v1", "program/src/actions/toggle_sub_account_v2.rs:toggle_sub_account_v2"]}
{"id": "C110", "title": "Creating wallets, using sub-accounts and moving tokens are accepted exactly when their stated conditions hold", "statement": "For creating a wallet, creating, switching, signing with and withdrawing from a sub-account of either version, closing token accounts and moving the assets of the configuration account there is a list of conditions on the bytes of the request, its accounts, the balances, the stored wallet and the called programs such that the request is carried out if and only if all of them hold.", "quantifier": "every well-formed wallet (or empty address), every request of these kinds (any bytes, any accounts), every ledger state, every behaviour of the called programs", "why_tests_cant": "A test can show one accepted and one refused request; that a list of conditions is complete and that each is needed is a statement about every request.", "anchors": ["program/src/actions/create_v1.rs:create_v1", "program/src/actions/create_sub_account_v1.rs:create_sub_account_v1", "program/src/actions/toggle_sub_account_v1.rs:toggle_sub_account_v1", "program/src/actions/sub_account_sign_v1.rs:sub_account_sign_v1", "program/src/actions/withdraw_from_sub_account_v1.rs:withdraw_from_sub_account_v1", "program/src/actions/create_sub_account_v2.rs:create_sub_account_v2", "program/src/actions/sub_account_sign_v2.rs:sub_account_sign_v2", "program/src/actions/withdraw_from_sub_account_v2.rs:withdraw_from_sub_account_v2", "program/src/actions/close_token_account_v1.rs:close_token_account_v1", "program/src/actions/transfer_assets_v1.rs:transfer_assets_v1"]}
{"id": "C111", "title": "Signing requests are accepted exactly when their stated conditions hold", "statement": "There is a list of conditions on the bytes of a signing request, its accounts, the stored role, the credential, the called programs and the balances before and after their calls such that the request is carried out if and only if all of them hold: for an unrestricted role no limit matters; for a restricted role every program called is allowed, and each watched account ends with a balance that the limits of the role cover.", "quantifier": "every well-formed wallet, every signing request (any bytes, any accounts), every ledger state, every role with any set of limits, every behaviour of the called programs", "why_tests_cant": "A test can show one accepted and one refused request; that a list of conditions is complete and that each is needed is a statement about every request and every combination of limits.", "anchors": ["program/src/actions/sign_v2.rs:sign_v2", "program/src/lib.rs:classify_account", "instructions/src/lib.rs:InstructionIterator"]}
{"id": "C112", "title": "Every kind of credential is accepted exactly when its stated conditions hold", "statement": "A session is accepted if and only if it has not expired and the account at the stated position holds the session key and signed. A Secp256r1 request is accepted if and only if the counter is the next one, the stated slot is at most 60 slots old, at most 64 accounts are passed, the instructions sysvar is at the stated position, and the instruction just before is a call of the secp256r1 precompile, in the one layout the program knows, for the stored key and the message of the request. A program-execution request that names no instruction means the one just before.", "quantifier": "every stored credential, session, slot, transaction, account list, proof and request", "why_tests_cant": "Tests try single signatures; that nothing else is accepted and that nothing acceptable is refused is a statement about all byte strings.", "anchors": ["state/src/authority/secp256r1.rs:secp256r1_authenticate", "state/src/authority/secp256r1.rs:verify_secp256r1_instruction_data", "state/src/authority/ed25519.rs:authenticate_session", "state/src/authority/secp256k1.rs:authenticate_session", "state/src/authority/programexec/mod.rs:program_exec_authenticate"]}
{"id": "C113", "title": "A further permission never takes away what a role could do", "statement": "If a signing request of a role is accepted, then it is still accepted after the role has been given a further permission, or larger limits.", "quantifier": "every wallet, role, permission list, signing request, ledger state and behaviour of the called programs", "why_tests_cant": "The claim compares the outcomes of all requests under two permission lists; a test compares one request under one pair.", "anchors": ["program/src/actions/sign_v2.rs:sign_v2", "state/src/action/sol_recurring_limit.rs:SolRecurringLimit", "state/src/action/sol_destination_limit.rs:SolDestinationLimit", "state/src/action/token_recurring_limit.rs:TokenRecurringLimit"]}
{"id": "C114", "title": "Exactly the signing requests that the rules allow are accepted, whatever accounts are passed", "statement": "A request to have instructions executed in the name of the wallet is accepted exactly if: the parts of the request are there; it is not made by another program; the second account belongs to the System program; every stake account of the wallet that is passed is in a known state and the balance of every passed target of a scope can be read; the credential of the role accepts the instructions; they can be decoded; and the role may do everything and the instructions can be executed, or its limits cover what the instructions take in SOL, tokens, stake and scoped balances, and every watched account is otherwise what it was.", "quantifier": "every wallet, role, permission list, request, set of accounts, ledger state and behaviour of the called programs", "why_tests_cant": "The claim is an equivalence over all requests and accounts; a test shows one request accepted or refused.", "anchors": ["program/src/actions/sign_v2.rs:sign_v2", "program/src/lib.rs:classify_account", "state/src/action/stake_limit.rs:StakeLimit", "state/src/action/program_scope.rs:ProgramScope"]}
{"id": "C115", "title": "A permission given to one role takes nothing away from another", "statement": "Whether a signing request of a role is accepted does not depend on the permissions that other roles of the wallet have.", "quantifier": "every wallet, pair of roles, permission lists, request, set of accounts and ledger state", "why_tests_cant": "The claim compares the outcomes of all requests in wallets that differ in another role; a test compares one pair.", "anchors": ["program/src/lib.rs:classify_account", "program/src/util/mod.rs:ProgramScopeCache", "program/src/actions/sign_v2.rs:sign_v2"]}
{"id": "C116", "title": "A passkey assertion for a request is accepted", "statement": "Let a browser and an authenticator produce an assertion for the hash of a request of a Secp256r1 role: authenticator data of up to 195 bytes and client data that begin, as the WebAuthn standard prescribes, with the type webauthn.get and the base64url text of the hash as challenge, and go on in any way.  With the client data attached (up to 1024 bytes), or, for client data that go on with an origin and crossOrigin false, with the origin coded in any prefix code, the verified signature over the assertion authorises the request, provided the slot is fresh and the counter is the next one.", "quantifier": "every request, hash, authenticator data, client data, origin, prefix code and table for it", "why_tests_cant": "The claim ranges over all client data browsers may write and over all prefix codes; a test tries one.", "anchors": ["state/src/authority/secp256r1.rs:webauthn_message", "state/src/authority/secp256r1.rs:webauthn_raw_client_data_json_message", "state/src/authority/secp256r1.rs:decode_huffman_origin", "state/src/authority/secp256r1.rs:secp256r1_authenticate"]}
{"id": "C117", "title": "Independent management requests may come in any order", "statement": "Take management requests (add, remove or update a role, start a session, replace a signer, migrate, register the rent claimer) of which no two change the same role, none changes a role another one acts as, and no two add a role, migrate or register.  In whatever order they are carried out, by whatever senders, on ledgers that agree on the wallet account, and whatever happens elsewhere in between, the wallet account ends with the same bytes.  And a removal, a session start or a signer replacement that would be accepted is still accepted after any such requests about other roles.", "quantifier": "every wallet, every list of requests, every permutation of it, every interleaving with activity elsewhere", "why_tests_cant": "A test runs one schedule; the claim compares all orders of all lists of requests.", "anchors": ["program/src/actions/mod.rs:process_action", "program/src/actions/add_authority_v1.rs:add_authority_v1", "program/src/actions/remove_authority_v1.rs:remove_authority_v1", "program/src/actions/update_authority_v1.rs:update_authority_v1", "program/src/actions/create_session_v1.rs:create_session_v1", "program/src/actions/replace_authority_v1.rs:replace_authority_v1", "program/src/actions/set_rent_claimer_v1.rs:set_rent_claimer_v1"]}
{"id": "C118", "title": "Every record is exactly its fields in order, and its stated length is its size", "statement": "Requests, account headers, role and permission records, limits and credentials are records whose bytes are their fields one after the other, without bytes that belong to no field; the length the code states for a record is its size; and the program reads every field where the declared record has it.  So a request contains its whole record and the parts whose lengths it states, the role it names there is the role that acts, and the credential is what follows.", "quantifier": "every record layout, every byte string, every accepted request", "why_tests_cant": "The layout of a record and the bytes read from it are a statement about all contents; a round-trip test on one value does not notice a field read from the wrong place with the same value, nor a length that reads beyond the record.", "anchors": ["no-padding/src/lib.rs:generate_size_assertions", "state/src/lib.rs:Transmutable", "state/src/swig.rs:Swig", "state/src/role.rs:Position", "state/src/action/mod.rs:Action", "state/src/authority/programexec/session.rs:CreateProgramExecSessionAuthority", "program/src/actions/add_authority_v1.rs:AddAuthorityV1Args", "program/src/actions/sign_v2.rs:SignV2Args"]}
{"id": "C119", "title": "A signature authorises one request of one role", "statement": "What a key signed for one request is not executed as another request: not as a request of another kind, not for another role, not for a sub-account instead of the wallet; and it is executed once, also when the key belongs to several roles of the wallet.", "quantifier": "every pair of requests for one wallet with the same accounts and the same signed bytes, at any two points of its history, every pair of roles, every answer of the called programs", "why_tests_cant": "Whether the bytes signed for one kind of request can be read as another kind, or be accepted for another role, is a statement about all pairs of requests; tests send each signature once.", "anchors": ["program/src/actions/sign_v2.rs:sign_v2", "program/src/actions/sub_account_sign_v1.rs:sub_account_sign_v1", "state/src/authority/secp256k1.rs:secp256k1_authenticate", "program/src/error.rs:DuplicateAuthority", "instructions/src/compact_instructions.rs:CompactInstructions"]}
{"id": "C120", "title": "Instructions do the same in one signing request as in several", "statement": "Whether the instructions of a signing request are sent in one request or, in the same order, in several requests one after the other makes no difference: the same are accepted and the ledger ends up the same; a request without instructions changes nothing.", "quantifier": "every wallet, role, list of instructions and way to cut it in two, every account list, every answer of the called programs that leaves the configuration account alone", "why_tests_cant": "Cutting any list of any instructions at any point is unbounded, and the called programs may do anything; tests compare no two ways of sending the same instructions.", "anchors": ["program/src/actions/sign_v2.rs:sign_v2", "instructions/src/lib.rs:InstructionIterator", "instructions/src/compact_instructions.rs:CompactInstructions"]}
{"id": "C121", "title": "Only the latest session of a role counts, for as long as was stated", "statement": "After a session of a role was started, and until another one is started or its key replaced, every accepted request of the role, except one that starts a session, is signed by the key of this session and comes no later than the stated number of slots after its start; and until then, unless the role is removed or the wallet closed, that key is accepted for the role.", "quantifier": "every wallet, role, session request, history of other requests in between, slot and later request", "why_tests_cant": "The histories between the start and the use of a session are unbounded, and so are durations and slots; tests start one session and use it directly.", "anchors": ["state/src/authority/ed25519.rs:start_session", "state/src/authority/secp256k1.rs:start_session", "state/src/authority/secp256r1.rs:start_session", "state/src/authority/programexec/session.rs:start_session", "program/src/actions/create_session_v1.rs:create_session_v1"]}
{"id": "C122", "title": "Waiting never turns an accepted signing request into a refused one", "statement": "A signing request that would be accepted now is accepted at every later slot if nothing else has changed, unless its credential has aged meanwhile (an ended session, a signature over an old slot): limits that come back only get larger with time.", "quantifier": "every wallet, role, list of permissions the program accepts when a role is created, request, ledger and pair of slots", "why_tests_cant": "Slots, windows and amounts are unbounded and the arithmetic wraps; tests advance the clock by a few windows for limits that were just created.", "anchors": ["state/src/action/sol_recurring_limit.rs:run", "state/src/action/token_recurring_limit.rs:run", "state/src/action/stake_recurring_limit.rs:run", "state/src/action/sol_recurring_destination_limit.rs:run", "state/src/action/token_recurring_destination_limit.rs:run", "state/src/action/program_scope.rs:run", "program/src/actions/sign_v2.rs:sign_v2"]}
{"id": "C123", "title": "A recurring limit comes back in full, whatever was spent of it", "statement": "Once more than its window has passed since a recurring limit was last refilled, the role may do again everything it could do before it spent anything of that limit: every signing request accepted with the limits as they were is accepted with the used ones, for lamports, tokens, stake and payments to one destination alike.", "quantifier": "every wallet, role, history of spending from its recurring limits, request, ledger and later slot", "why_tests_cant": "The amounts left, windows, times of refill and requests are unbounded and several limits may be used up at once; tests exhaust one limit and try one payment after the window.", "anchors": ["state/src/action/sol_recurring_limit.rs:run", "state/src/action/token_recurring_limit.rs:run", "state/src/action/stake_recurring_limit.rs:run", "state/src/action/sol_recurring_destination_limit.rs:run", "state/src/action/token_recurring_destination_limit.rs:run", "program/src/actions/sign_v2.rs:sign_v2"]}
{"id": "C124", "title": "Waiting changes nothing for requests other than signings", "statement": "A request that manages the wallet, its sub-accounts or its closing has exactly the same result, accepted or refused, at every later slot if the ledger is the same, unless the credential it uses ages (a session that ends, a signature over a slot); a session that a key or a program may start now it may start at any time.", "quantifier": "every wallet, request but a signing, list of accounts, ledger and pair of slots", "why_tests_cant": "Requests, accounts, ledgers and slots are unbounded; tests run each request at one slot.", "anchors": ["program/src/actions/mod.rs:process_action", "program/src/actions/add_authority_v1.rs:add_authority_v1", "program/src/actions/remove_authority_v1.rs:remove_authority_v1", "program/src/actions/update_authority_v1.rs:update_authority_v1", "program/src/actions/replace_authority_v1.rs:replace_authority_v1", "program/src/actions/create_session_v1.rs:create_session_v1", "program/src/actions/sub_account_sign_v2.rs:sub_account_sign_v2", "program/src/actions/close_swig_v1.rs:close_swig_v1"]}
{"id": "C125", "title": "Further accounts change nothing", "statement": "A request that is accepted is accepted with any further accounts after the ones it passes, and leaves the same ledger, if the credential of the acting role does not sign the list of accounts and none of the further accounts is a stake account or the target of a program scope of the wallet.", "quantifier": "every wallet, request, list of accounts, list of further accounts, ledger and called programs", "why_tests_cant": "Requests, account lists and ledgers are unbounded; tests pass exactly the accounts a request needs.", "anchors": ["program/src/lib.rs:execute", "program/src/actions/mod.rs:process_action", "program/src/actions/withdraw_from_sub_account_v1.rs:withdraw_from_sub_account_v1", "program/src/actions/sign_v2.rs:sign_v2", "program/src/actions/create_session_v1.rs:create_session_v1", "state/src/authority/ed25519.rs:ed25519_authenticate", "state/src/authority/programexec/mod.rs:program_exec_authenticate"]}
{"id": "C126", "title": "A gift takes nothing away", "statement": "Lamports sent by anybody to any accounts of the ledger never turn a request that is accepted into one that is refused.", "quantifier": "every wallet, request, list of accounts, ledger and ledger with the same owners and data and at least the same lamports", "why_tests_cant": "Ledgers, gifts and requests are unbounded; tests run with the balances the test has set up.", "anchors": ["program/src/actions/close_swig_v1.rs:close_swig_v1", "program/src/actions/add_authority_v1.rs:add_authority_v1", "program/src/actions/update_authority_v1.rs:update_authority_v1", "program/src/actions/set_rent_claimer_v1.rs:set_rent_claimer_v1", "program/src/actions/create_sub_account_v2.rs:create_sub_account_v2", "program/src/actions/withdraw_from_sub_account_v1.rs:withdraw_from_sub_account_v1"]}
