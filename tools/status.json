{
 "C02": [
  "proved",
  "for every well-formed wallet with room for one more role"
 ],
 "C03": [
  "proved",
  ""
 ],
 "C04": [
  "proved",
  ""
 ],
 "C06": [
  "proved",
  ""
 ],
 "C07": [
  "proved",
  "validation exact; reachability of well-formed wallets is C01"
 ],
 "C08": [
  "proved",
  ""
 ],
 "C09": [
  "proved",
  ""
 ],
 "C11": [
  "proved",
  "the two instructions may be separated by anything that keeps the account data"
 ],
 "C12": [
  "partial",
  "false as stated (C12_refuted); proved for requests whose action headers carry honest boundaries"
 ],
 "C13": [
  "proved",
  ""
 ],
 "C14": [
  "proved",
  ""
 ],
 "C16": [
  "proved",
  ""
 ],
 "C18": [
  "proved",
  "All five one-shot limits: conservation over every history, exact decision, mint and destination fixed."
 ],
 "C19": [
  "proved",
  "SOL, stake and token: per-interval and lifetime bounds for every history; a refill requires more than a window to have elapsed; availability for SOL."
 ],
 "C20": [
  "proved",
  "SOL and token destination limits; attempts in clock order, slots below 2^64. A stored reset slot in the future causes one early refill (witness C20_sol_future_reset_refills_at_once), which the bound accounts for."
 ],
 "C21": [
  "partial",
  "False as stated for window 0, which the layout check accepts for SOL, token, stake and scope limits: C21_zero_window_always_aborts. Proved for positive windows."
 ],
 "C22": [
  "proved",
  "Fixed, recurring and basic scopes. A limit equal to the largest u128 means unlimited (C22_max_limit_is_unlimited)."
 ],
 "C23": [
  "partial",
  "False as stated: a stored field range with start > end passes the wrapping width check (C23_out_of_range_read_witness). Proved for start <= end."
 ],
 "C24": [
  "proved",
  "Session authentication accepted iff slot <= expiry and the session key signed (payload shape per type); handlers use only this path for session roles."
 ],
 "C25": [
  "proved",
  "Exact decision and effect; the expiry bound also when slot + duration wraps."
 ],
 "C26": [
  "proved",
  ""
 ],
 "C27": [
  "proved",
  "Both operations return AuthorityDoesNotSupportSessionBasedAuth."
 ],
 "C28": [
  "proved",
  "Step theorem, consecutive counters over every history of attempts, no replay before 2^32 - 1 further acceptances."
 ],
 "C29": [
  "proved",
  "Both secp types."
 ],
 "C30": [
  "partial",
  "False as stated: C30_ambiguous, C30_ambiguous_always (an account record can move into the payload). Slot and counter always bound; everything bound for equal account counts and for self-delimiting payload formats."
 ],
 "C31": [
  "proved",
  "Ed25519 and Secp256k1: exact decision with recovery as a parameter; low-s, hence (r, n-s) is refused; Secp256r1 and program-exec: what acceptance implies about the transaction."
 ],
 "C32": [
  "proved",
  "Both encoders equal an RFC 4648 specification; injective; length."
 ],
 "C37": [
  "proved",
  ""
 ],
 "C38": [
  "proved",
  ""
 ],
 "C39": [
  "proved",
  ""
 ],
 "C40": [
  "proved",
  ""
 ],
 "C41": [
  "proved",
  "up to SHA-256 collisions"
 ],
 "C42": [
  "proved",
  "remove: assumes the runtime's rent exemption and no overflow of the total supply"
 ],
 "C61": [
  "partial",
  "False as stated: the byte arrays given for Token-2022 and Stake are other addresses (C61_wrong_entries)."
 ],
 "C62": [
  "partial",
  "False as stated: the account count is read from the instruction data, so prefixes starting with 0 0 or 1 0 never work (C62_some_prefixes_never_work). Proved when the first two data bytes are at least 2."
 ],
 "C63": [
  "partial",
  "Holds for raw client data and for rebuilt client data whose origin has no quote or backslash; C63_unescaped_origin shows the builder does not escape the origin. C63_nested_refuted: braces inside strings of inner objects are counted as structure, so an inner object can supply the challenge."
 ],
 "C33": [
  "proved",
  ""
 ],
 "C34": [
  "proved",
  ""
 ],
 "C35": [
  "proved",
  ""
 ],
 "C36": [
  "proved",
  ""
 ],
 "C17": [
  "proved",
  ""
 ],
 "C45": [
  "proved",
  ""
 ],
 "C60": [
  "proved",
  "token programs called in the same instruction are assumed to move no lamports"
 ],
 "C44": [
  "partial",
  "False when the destination is the wallet address itself (C44_refuted); proved for every other destination."
 ],
 "C59": [
  "partial",
  "Roles, ids and counters are kept for legacy wallets; an already migrated wallet is not refused (C59_refuted)."
 ],
 "C65": [
  "partial",
  "False when an account is used read-only first and writable later (C65_refuted); proved when each key is always used with the same flags."
 ],
 "C46": [
  "proved",
  ""
 ],
 "C49": [
  "proved",
  ""
 ],
 "C50": [
  "proved",
  ""
 ],
 "C51": [
  "proved",
  ""
 ],
 "C47": [
  "partial",
  "Each creation takes the counter value and increments it; over every history without migration the counter never goes back. False with a second migration (C47_refuted): id 0 is issued twice."
 ],
 "C48": [
  "partial",
  "Holds for the record of the sub-account; false when the wallet is migrated again (C48_v2_refuted) and for V1 withdrawals by a role with All (C48_v1_refuted)."
 ],
 "C52": [
  "proved",
  "fixed, recurring and no limit; an explicit SHA-256 collision of the configuration account is the only alternative"
 ],
 "C53": [
  "partial",
  "false as stated: a closed token account is not charged (C53_refuted); proved for accounts that stay open, and closing needs the close permission (C53_closed)"
 ],
 "C54": [
  "proved",
  "configuration account and token accounts (unless closed); explicit SHA-256 collisions are the only alternative"
 ],
 "C55": [
  "proved",
  "the permission is read at the time of the call: unconditional for called programs that do not write the configuration account"
 ],
 "C56": [
  "proved",
  "every transfer out of the wallet goes to a listed destination, is charged in full, and they cover the whole decrease"
 ],
 "C57": [
  "partial",
  "rent minimum proved; ownership is false as stated (C57_refuted), with the consequence C57_lost_forever"
 ],
 "C58": [
  "proved",
  ""
 ],
 "C43": [
  "partial",
  "A closed account stays closed over every history that does not delete it for lack of lamports, and every request for it fails. The full property is false: C43_refuted brings a closed wallet back."
 ],
 "C64": [
  "partial",
  "C64_data_partial and C64_lamports_partial say what holds for every request. The property itself is false: C64_refuted and C64_takeover."
 ],
 "C01": [
  "proved",
  "Creation gives a well-formed one-role wallet (C01_created); every history refines the wallet state machine (C01_refines), so the account splits exactly and lookups agree (C01_readable). Assumes fewer than 2^16 roles, role counter below 2^32 and no SHA-256 collision in a signing (structure Fine)."
 ],
 "C05": [
  "proved",
  "Over every history of an open wallet: ids distinct, below the counter, counter monotone, freed ids never reappear. Same assumptions as C01."
 ],
 "C10": [
  "proved",
  "Role 0 present with its authority type after every history of an open wallet, unless closed. Same assumptions as C01."
 ],
 "C15": [
  "proved",
  "A registered claimer is the same after every history unless the wallet is closed. Same assumptions as C01."
 ],
 "C66": [
  "partial",
  "Proved when no role with a smaller id has a scope for the account; without that condition false (C66_refuted)."
 ],
 "C67": [
  "partial",
  "Amounts and authorities proved; operations that move no amount need no permission (C67_refuted: a role without stake permission deactivates the stake)."
 ],
 "C68": [
  "partial",
  "False for the basic scope the SDK makes: C68_refuted, C68_basic_blocks (every request over the account is refused). A basic scope that names a balance field is never charged (C68_field_partial)."
 ],
 "C69": [
  "proved",
  "All 26 permission records; values in the range of the Rust types."
 ],
 "C70": [
  "proved",
  "Create, add, remove, update, replace, session, rent claimer: for every kind of credential the builder supports, sessions included. Conditions: the accounts of the request are no stake accounts and no targets of program scopes of the wallet (the program inspects those first), and the first two data bytes of an instruction that proves a program-exec credential are not a number below 2 (C62). A replacement by a program-exec role needs the proof data the library computes (proofData)."
 ],
 "C71": [
  "partial",
  "False as stated (C71_refuted): the builders of V1 sub-account requests and of the asset transfer are always refused for Secp256k1 roles (C71_secp256k1, C71_secp256k1_withdraw) and, but for the SOL withdrawal, for Secp256r1 roles (C71_secp256r1); three program-exec builders put accounts at wrong positions (C71_exec_withdraw, C71_exec_withdraw_token, C71_exec_sign); account flags that differ from the signed ones invalidate the signature (C71_flags, C71_secp256r1_withdraw). The builders that do work: C70."
 ],
 "C72": [
  "partial",
  "False as stated: a role with All cannot withdraw from the sub-account of a role with id above 10 (C72_refuted, C72_only_first_roles), and a role that also holds ManageAuthority only from its own (C72_refuted_manager, C72_manager_loses). Who can withdraw: C72_authorised_partial."
 ],
 "C74": [
  "partial",
  "Covers fixed and recurring limits for SOL, tokens and stake, fixed and recurring destination limits for SOL and tokens, and total and recurring program scopes. All signings are summed: between them any requests may come, for this wallet and others, at any depth of calls, except updates and removals of the role, and signings asked for by called programs are refused (C74_called). Partial because the code violates the rest: token amounts are counted over accounts passed writable and not closed (see C53, C57 for what lies outside); scopes need the assumption that no earlier role has a scope for the account (C66_refuted)."
 ],
 "C75": [
  "partial",
  "False as stated (C75_refuted): replacing the key of a role sets its counter to zero, so when a key is replaced and restored within 60 slots the requests it signed before are accepted again. Holds as long as the key is not replaced (C75_counters_partial, C75_no_replay_partial)."
 ],
 "C73": [
  "proved",
  ""
 ],
 "C76": [
  "proved",
  "Each credential type is characterised by C31; the corollaries spell out Ed25519 and Secp256k1."
 ],
 "C77": [
  "proved",
  "Signing by roles with limits is outside this property; closing token accounts has no theorem here; the V1 requests are C71."
 ],
 "C78": [
  "partial",
  "False in the code (C78_refuted, C78_refused, C78_refused_create, C78_after_payment): permissions that stay are checked as if newly submitted, so a recurring SOL, stake or token limit that was used, or a created V1 sub-account, blocks every later addition and removal. Proved for roles without these permissions."
 ],
 "C79": [
  "proved",
  "Requests of the client library (one instruction). C79_call: any call that takes no tokens; C79_pay_sol: payments with an honest System program under general and destination limits; C79_pay_token: token transfers. The Token program is any function that makes the transfer. Requests that pass stake accounts or targets of program scopes are outside the quantifier; token accounts of the configuration address must not be passed (restricted signing refuses them)."
 ],
 "C80": [
  "partial",
  "False in the code (C80_refuted, C80_scopes_hidden, C80_sub_accounts_hidden, C80_close_not_expressible, C80_scope_limit_cut): program scopes and created V1 sub-accounts are looked up under a fixed address and not shown, the right to close the wallet has no SDK permission, limits of scopes are cut to 64 bits. Proved: everything else held is shown (of kinds that count once, the first), and everything shown is held."
 ],
 "C81": [
  "proved",
  "C81_granted, C81_type, C81_scope_without_limit, C81_recurring_starts_full: the translation. C81_acceptable: the program takes it unless a recurring destination limit has window 0 or a V1 sub-account is given an address. C81_add_reads_back: a role added through the client library is read back with the given permissions (with the exceptions of C80)."
 ],
 "C82": [
  "partial",
  "False in the code (C82_refuted, C82_write_back_refuted): removal goes by kind, so naming one token limit removes the limits of all tokens; writing back what was read refills recurring limits and drops rights the SDK does not show. Proved: removal keeps exactly the permissions of other kinds (C82_remove, C82_named_are_removed); a replacement is read back as given (C82_replace_reads_back)."
 ],
 "C83": [
  "partial",
  "False in the code for session roles (C83_refuted): the bytes a session holder is looked up by are its creation data, which match no stored session authority, so the wallet cannot be opened (C83_session_roles); and a holder can be opened as a role of another kind whose stored bytes its credential names (C83_wrong_kind_refuted). Proved for every holder of a well-formed credential: the bytes it presents when a role is created for it create that role (C83_creates). Proved for the plain holders: C83_lookup (exact result of the lookup), C83_created_named, C83_opens, C83_opens_own."
 ],
 "C84": [
  "partial",
  "False in the code: adding an authority does not advance the counter of the object, after which everything it asks for is refused until it is opened again (C84_add_refuted, C84_out_of_step); two instructions signed with one call use one counter (C84_two_signatures_refuted); objects of secp session roles count requests that do not move the counter of the role (C84_session_refuted); for program-exec roles carried out requests are reported as failed (C84_exec_refuted). Proved for the other requests of plain Secp256k1 and Secp256r1 roles: in step after opening and switching (C84_opened, C84_switched), after each request (C84_request_partial), whatever others do (C84_others), hence after any run (C84_runs_partial)."
 ],
 "C85": [
  "partial",
  "False in the code: can_manage_authority is false for All (C85_manage_refuted); can_spend_sol says yes for the full recurring limit although less is left, and without permission to call any program (C85_yes_refuted, C85_yes_program_refuted), and no for AllButManageAuthority and for destination limits (C85_no_refuted); the recurring limit is hidden by a fixed one (C85_recurring_refuted, C85_recurring_hidden); get_role_count counts removed roles (C85_count_refuted); get_balance is the balance of the configuration account (C85_balance_refuted); get_current_authority_permissions lists All and SOL limits only (C85_current_refuted, C85_current_partial). Proved: C85_all, C85_sol_limit, C85_spend (exactly when the answer is yes), C85_authority; yes means yes for fixed limits (C85_yes_means_yes_partial); no means no for roles with a general limit or without destination limits (C85_no_means_no_partial)."
 ],
 "C86": [
  "partial",
  "False in the code: adding and removing authorities, naming a rent claimer and starting an Ed25519 session are signed by the fee payer only, so a role with another key cannot do it (C86_payer_refuted, C86_session_payer_refuted); a Secp256k1 holder cuts off the first byte of the new credential, so none the program accepts can be added (C86_add_k1_refuted); Ed25519 session holders sign V1 sub-account requests with the main key (C86_session_v1_refuted); whatever a program-exec holder signs is refused (C86_exec_sign_refuted, given that the wallet program calling itself behaves as when called directly), and other requests are unavailable to it (C86_exec_unavailable); removing its own role returns an error although it is carried out (C86_self_remove_refuted). Proved for the other cases: what each request does when sent (C86_add_partial .. C86_sign_sub), exactly when managing requests are sent (C86_sent, C86_update_sent), and that the call returns (C86_returns). Missing: V1 sub-account requests (C71, C72), signing by restricted roles (C79) and of several instructions."
 ],
 "C87": [
  "proved",
  "C87_passed: only passed accounts change. C87_writable: what changes was passed writable or is at one of the positions ownWrites lists. C87_library: for all builders but one these are passed writable too; C87_sub_sign: the remaining one, signing for a V1 sub-account, passes the configuration account read-only and does not change it for a caller with a key; other callers of it are refused (C71, C72). C87_assigned: the condition that called programs leave the signing address with the System program is needed."
 ],
 "C88": [
  "proved",
  "C88_total: the sum over any duplicate-free list with all accounts of the request is unchanged. C88_within: with C87, balances outside the list are unchanged too. C88_close_into_itself and C88_wraps: the two excluded cases do destroy and create lamports in the program, so the conditions are needed."
 ],
 "C89": [
  "partial",
  "C89_says_partial, C89_accepted_partial: documents whose numbers are numbers and that name no sub-account are read exactly as they say, and nothing else is accepted. C89_amount_refuted: an unreadable amount grants one billion. C89_recurring_refuted: recurring null grants a limit that comes back every 86400 slots. C89_scope_refuted: an unreadable limit of a program scope grants an unlimited one. C89_sub_account_refuted: the address of a sub-account is never granted and mostly panics. C89_kinds: which kinds exist."
 ],
 "C90": [
  "partial",
  "C90_refuted: whatever is typed, what is granted is one of five permissions without members or a SOL limit of exactly one billion lamports. C90_plain_partial: documents without commas are granted one by one, in order."
 ],
 "C91": [
  "partial",
  "C91_means_partial: addresses, uncompressed Secp256k1 keys and Secp256r1 keys. C91_addresses: an address has one text. C91_compressed_refuted, C91_session_refuted: what the tool makes of compressed Secp256k1 keys and of keys for the session types is refused by the program, whoever adds it. C91_generate_partial, C91_generate_refuted: printed keys."
 ],
 "C92": [
  "partial",
  "C92_role_id_partial: GetRoleId reports the first role whose stored authority has the key. C92_remove_refuted: RemoveAuthority looks up the characters of the text and never finds a role with the key the text stands for."
 ],
 "C93": [
  "partial",
  "C93_id_length. C93_distinct_partial: names of at most 32 bytes that do not end in 0. C93_zero_refuted, C93_long_refuted: appending a 0 to a short name, or anything to a long one, names the same wallet."
 ],
 "C94": [
  "partial",
  "C94_opens_partial: with its own key an Ed25519 authority opens the wallet as its first role and sends every managing request. C94_types: only types without sessions. C94_fee_payer_refuted, C94_other_keypair_refuted, C94_no_fee_payer_refuted, C94_text_ignored_refuted."
 ],
 "C95": [
  "partial",
  "C95_removes: for the fourteen words, exactly the permissions of other kinds stay. C95_unnamed_refuted: permissions of the twelve kinds without a word stay, whatever is typed."
 ],
 "C96": [
  "partial",
  "C96_answers_partial, C96_granted_partial: both directions for the other answers. C96_sub_account_refuted, C96_token2022_refuted; C96_scope_without_limit: a scope without a limit allows any amount."
 ],
 "C97": [
  "proved",
  "C97_lawful: a request is a run (Runs) of changes by the wallet program to its own accounts, changes by the System program to its accounts, gifts and calls. C97_foreign: accounts of third programs change only through calls. C97_library: with C87 and C88, the rules of the runtime never refuse what the client library builds and the program accepts. Conditions as for C88 (the signing address stays with the System program during the request, the wallet is not closed into its own configuration account)."
 ],
 "C98": [
  "partial",
  "C98_refuted: the attack of C64 takes all lamports out of the configuration account of a stranger, which is then deleted. C98_keeps_partial, C98_evolves_partial, C98_closed_partial: the claim for one request and over all histories, where no called program takes an account from the System program during a request. C98_created: where histories start."
 ],
 "C99": [
  "partial",
  "False as stated in eight ways (C99_refuted, _flag, _empty, _foreign, _transfer, _scope, _growth, _token, _enabled), of which the toggle flag, the empty account and the foreign account need no signature at all. C99_defined_partial: under InBounds (stored wallets, runtime-filled sysvar, flag 0 or 1, account of the program, complete inner transfers, long enough token destination, sane scopes) every request is free of undefined reads. C99_search_partial: also the scan for scopes, whose errors the program ignores."
 ],
 "C100": [
  "proved",
  "C100_contained: the wallet stays open, its header and every other role unchanged, the used roles keep keys and permission types (plus SubAccountV2 All for sub-accounts they create) and stay without administrative permissions. C100_no_new_roles and C100_unused are consequences. Conditions (Fine): typed ledger, fewer than 65535 roles, no SHA-256 collision between the two versions of the configuration account a SignV2 compares. A request that a called program makes as another role counts as use of that role."
 ],
 "C101": [
  "proved",
  "C101_signers (requests on a wallet) and C101_create (requests on an address without one): the run consists of steps of the program, System transfers from signers or own addresses and calls whose signers are signers or own addresses. C101_bystander and C101_other_wallet are consequences. Accounts of the wallet program itself are excluded in C101_bystander because some handlers change them without a signature (C64, C73). A wallet created with the same id at another bump shares sub-accounts: see C102."
 ],
 "C102": [
  "partial",
  "False of the code. C102_refuted_v2 and C102_refuted_v1: for every wallet, every enabled V2 sub-account (every V1 sub-account of the roles 0 to 10) and every stranger with the rent of a wallet and a second bump for the id, two requests signed by the stranger alone, in which the configuration account of the victim does not occur, move all lamports of the sub-account to the stranger's wallet address. C102_partial: requests for wallets with another id take nothing."
 ],
 "C103": [
  "proved",
  "C103_revoke (from C100 and C70_remove) and C103_final. The owner's credential is the one stored before the theft: the thief cannot advance its counter or end its session."
 ],
 "C104": [
  "partial",
  "False of the code. C104_refuted: the last role that can manage a wallet may take this permission from itself by UpdateAuthority, and through every later history nobody can manage the wallet. C104_refuted_root: every role with ManageAuthority can take all permissions from the root, which only removal protects. C104_partial: as long as no UpdateAuthority names the root, the root keeps its permission to manage the wallet until the wallet is closed."
 ],
 "C105": [
  "partial",
  "False of the code. C105_refuted: one lamport at the address of the configuration account makes every creation request for this address fail. C105_refuted_sub: a stranger with a second bump for the id of a wallet without sub-accounts creates the first sub-account in its place; no request that names this record succeeds afterwards. C105_create_partial and C105_sub_partial: lamports sent to any other address, in particular to the wallet address and to both addresses of a V2 sub-account, prevent nothing."
 ],
 "C106": [
  "partial",
  "False of the code. C106_refuted: the owner closes a wallet that still holds 500 tokens and whose sub-account holds 3000000 lamports. C106_left_behind: this is so for every wallet with nothing left but rent at its two addresses, whatever its token accounts and sub-accounts hold; they are left as they are and no request for the wallet succeeds afterwards. C106_nobody_else: no request for another wallet, and no creation, uses the signature of the closed wallet's address. What does hold, that lamports of the two addresses are not lost, is C44."
 ],
 "C107": [
  "partial",
  "Proved for SOL, with equality: C107_sol, C107_sol_recurring, C107_free. Stake: C107_stake_partial and C107_stake_recurring_partial need that no inner instruction shrinks a stake account. Tokens: false of the code, C107_refuted: a token account listed twice in the request is charged twice. C107_token_partial and C107_token_recurring_partial count such an account as often as it is listed."
 ],
 "C108": [
  "partial",
  "False of the code. C108_exact: exactly when a request that names the approval is accepted; nothing of the request counts. C108_reusable: an approval that was accepted once is accepted for every later request of the wallet in the transaction. C108_refuted: one approval, three payments. What holds: C108_one_wallet_partial, an approval is for one program and one wallet (the approval must have two accounts and two bytes of data; see C31 and C62)."
 ],
 "C109": [
  "proved",
  "C109_remove, C109_claimer, C109_session, C109_add, C109_update, C109_replace, C109_close, C109_migrate, C109_toggle, each an equivalence with `process`. Assumed: a well-formed wallet at the first account, no stake account and no program-scope target among the accounts (C67), at most 254 accounts. C109_add: role counters not exhausted. C109_replace: the acting role is not a program-execution role. The signature check itself (`authenticate`) is one of the conditions; it is characterised by C24-C31, C62, C63, C108."
 ],
 "C110": [
  "proved",
  "C110_create, C110_sub_create, C110_sub_toggle, C110_sub_sign, C110_sub_withdraw, C110_v2_create, C110_v2_sign, C110_v2_withdraw, C110_close_tokens, C110_transfer, each an equivalence with `process`. Assumed as in C109: a well-formed wallet at the first account (C110_create: no account of the program), no stake account and no program-scope target among the accounts (C67), at most 254 accounts. Addresses of version 1 sub-accounts have 32 bytes. C110_create and C110_v2_create: the payer is none of the accounts paid to. C110_close_tokens: configuration and wallet address differ. The decoding and execution of the inner instructions of a signing request are conditions in the model's words (`decodeIxs`, `execAll`); C33-C36 say what they mean."
 ],
 "C111": [
  "proved",
  "C111_sign_free (role that holds All or AllButManageAuthority) and C111_sign_limited (any other role), each an equivalence with `process`. Conditions in Verif/Spec/AcceptSign.lean. Assumed: a well-formed wallet at the first account, no stake account and no program-scope target among the accounts (C67), 32-byte keys, at most 254 accounts; for restricted roles the called programs leave the configuration account alone (it is owned by this program, and the runtime lets only the owner write). The decoding and execution of the inner instructions are conditions in the model's words; C33-C36 say what they mean."
 ],
 "C112": [
  "proved",
  "C112_session (all four kinds), C112_secp256r1, C112_exec_previous, C112_exec_first, C112_exec_payload. With C31_ed25519, C31_secp256k1 and C108_exact this gives both directions for every kind of credential. C112_secp256r1: the transaction is any list of instructions whose sysvar encoding fits in 64 KiB; the message for a WebAuthn proof is the model's `r1Message` (C30, C63 say what it binds)."
 ],
 "C113": [
  "partial",
  "False as stated. C113_refuted: a first limit for one destination forbids all other destinations. C113_refuted_shadowed: a one-time limit puts the recurring limit of the same role out of use. C113_better_partial: larger amounts (for SOL, tokens or stake), and further permissions that are neither limits nor program scopes, never take anything away, whatever accounts the request passes. Missing: larger amounts of a program scope. Assumed: as C114, and the called programs do not look into the configuration account (`Cpi.Blind`)."
 ],
 "C114": [
  "proved",
  "C114_sign_free and C114_sign_limited: C111 without the restriction to requests that pass no stake account and no target of a scope. Assumed: at most 254 accounts; for roles with limits 32-byte addresses and called programs that leave the configuration account alone (otherwise C53)."
 ],
 "C115": [
  "partial",
  "False as stated. C115_closed_to_others: a scope that any role has for an account closes the account to every role that has limits and no scope of its own for it: no request that passes the account is accepted. C115_refuted: a request accepted before the owner gets a scope is refused afterwards. C115_alone_partial: without scopes of other roles on the passed accounts the conditions are those of the wallet without the other roles."
 ],
 "C116": [
  "proved",
  "C116_raw_accepted and C116_packed_accepted: the whole credential; C116_raw, C116_packed, C116_packed_browser: the message the program expects; C116_origin: the decoder inverts every prefix code. C116_too_long: with 196 or more bytes of authenticator data no form is accepted. The compressed form has no way to state crossOrigin true or further members; the raw form has."
 ],
 "C117": [
  "proved",
  "C117_any_order: all lists and permutations; C117_still_accepted: requests that need no lamports. C117_additions: why two additions are left out, the ids follow the order. The lamports paid for rent may depend on the order; the theorem is about the account data."
 ],
 "C118": [
  "partial",
  "C118_refuted: CreateProgramExecSessionAuthority has 120 bytes and states 128, so its own bytes are refused (C118_session_data) and viewing it as bytes reads beyond it; C118_lengths_partial: all other records. C118_no_padding: the compile-time check is exact for every layout; C118_reads, C118_records, C118_within, C118_acts, C118_fields, C118_state, C118_limits, C118_credentials, C118_offsets: fields are where the model reads them."
 ],
 "C119": [
  "partial",
  "C119_refuted: SignV2 signs the inner instructions but not the role, and two roles may share a key: one signed payment is executed twice by changing the role id. What holds: C119_request_partial (same signed bytes and accounts: same number, role and fields, or both are SignV2/SubAccountSignV1), C119_same_key, C119_same_key_r1 (another secp256k1 or secp256r1 role accepts the credential only with the same key and counter), C119_sub_account (a payload signed for the wallet address is not executed for a V1 sub-account unless addresses collide)."
 ],
 "C120": [
  "partial",
  "Proved for roles with All or AllButManageAuthority whose credential is a transaction signature (Ed25519 and all session types), in both directions: C120_together_partial, C120_apart_partial (as long as the role can sign at all in between), C120_nothing. C120_refuted: false for roles with limits, because the rent minimum of the wallet address is checked at the end of each request."
 ],
 "C121": [
  "partial",
  "C121_only_latest: no other key and no later slot, for every duration. C121_works_partial: the session key is accepted until the stated slot if that is a number below 2^64. C121_refuted: otherwise the end wraps around and the accepted session is expired at once."
 ],
 "C122": [
  "partial",
  "False of the code. C122_refuted: a recurring limit for a destination may be created with a last refill in the future; the time since then is computed modulo 2^64, so it is refilled before that slot and not after it. C122_waiting_partial: holds for every request and any accounts if the recurring limits of the role are in order (a window, no more left than the full amount, for destinations no refill in the future); C122_later, C122_stays: limits in order stay so as time passes and when charged. Assumed: as C114."
 ],
 "C123": [
  "proved",
  "C123_comes_back: for every request and any accounts. C123_ready: the same for a role whose windows are over, compared with any other amounts left. C123_history: no history of signings by the role, with any other requests in between that do not update or remove it, puts that off. Limits of a window of at least one slot for lamports, tokens and stake (a window of 0 panics, see C21) and last refills not in the future (for destinations see C122). The credential must not have aged. Assumed: as C114, and called programs do not look into the configuration account."
 ],
 "C124": [
  "proved",
  "C124_others: the results are equal for every request but 5 and 11, any accounts, called programs and ledger, accepted or refused (the same error). C124_sessions: acceptance of the start of a session; the result differs in the slot the session ends. The first account must be an open wallet. Called programs are a parameter of the model that does not depend on the slot."
 ],
 "C125": [
  "partial",
  "C125_refuted: false for withdrawals of SOL from V1 sub-accounts, which are taken for withdrawals of tokens if there is a seventh account. C125_sign_refuted: false for signings of roles with limits if a frozen token account of the wallet is a further account, even one no instruction uses. C125_surplus_partial: every request but 5, 7, 11, 13, 14, 21. C125_sessions: starts of sessions by keys and programs. C125_sign_free: signings of roles without limits. C125_sign: signings of all roles, if no further account is a token account. C125_withdraw_tokens: withdrawals of tokens from V1 sub-accounts. C125_withdraw_count, C125_withdraw_count_v2: with which numbers of accounts withdrawals can be accepted at all (6 or at least 9; 7 or 10). Requests 13 and 14 act on every account passed, so the claim does not apply to them."
 ],
 "C126": [
  "partial",
  "C126_refuted: a closing that is accepted is refused after a gift of one lamport to the configuration account; C126_close_blocked and C126_close_preventable: this holds for every closing, whoever signs, with a gift to either of the wallet's two accounts. C126_manage_partial: true for requests 1, 2, 3, 5, 12, 16, 17, 19. C126_sub_v1_partial, C126_sub_v2_partial: true for creating and switching sub-accounts and withdrawing SOL from them. Missing: requests that call other programs (9, 11, 13, 14, 20 and withdrawals of tokens), whose outcome is theirs, and the creation of wallets, for which see C105."
 ]
}