{
 "claims": [
  {
   "property": "C01",
   "status": "proved",
   "theorems": [
    "Verif.C01_refines",
    "Verif.C01_readable",
    "Verif.C01_created"
   ],
   "note": "Creation gives a well-formed one-role wallet (C01_created); every history refines the wallet state machine (C01_refines), so the account splits exactly and lookups agree (C01_readable). Assumes fewer than 2^16 roles, role counter below 2^32 and no SHA-256 collision in a signing (structure Fine)."
  },
  {
   "property": "C02",
   "status": "proved",
   "theorems": [
    "Verif.C02_added_role_reads_back"
   ],
   "note": "for every well-formed wallet with room for one more role"
  },
  {
   "property": "C03",
   "status": "proved",
   "theorems": [
    "Verif.C03_add_leaves_others",
    "Verif.C03_use_moves_only_counter"
   ],
   "note": ""
  },
  {
   "property": "C04",
   "status": "proved",
   "theorems": [
    "Verif.C04_remove_exactly_one"
   ],
   "note": ""
  },
  {
   "property": "C05",
   "status": "proved",
   "theorems": [
    "Verif.C05_ids"
   ],
   "note": "Over every history of an open wallet: ids distinct, below the counter, counter monotone, freed ids never reappear. Same assumptions as C01."
  },
  {
   "property": "C06",
   "status": "proved",
   "theorems": [
    "Verif.C06_update_only_target"
   ],
   "note": ""
  },
  {
   "property": "C07",
   "status": "proved",
   "theorems": [
    "Verif.C07_added_actions_valid",
    "Verif.C07_updated_actions_valid",
    "Verif.C07_validation_exact"
   ],
   "note": "validation exact; reachability of well-formed wallets is C01"
  },
  {
   "property": "C08",
   "status": "proved",
   "theorems": [
    "Verif.C08_lookup_exact",
    "Verif.C08_found_iff"
   ],
   "note": ""
  },
  {
   "property": "C09",
   "status": "proved",
   "theorems": [
    "Verif.C09_duplicates_exact",
    "Verif.C09_added_no_duplicate",
    "Verif.C09_updated_no_duplicate"
   ],
   "note": ""
  },
  {
   "property": "C10",
   "status": "proved",
   "theorems": [
    "Verif.C10_root_stays"
   ],
   "note": "Role 0 present with its authority type after every history of an open wallet, unless closed. Same assumptions as C01."
  },
  {
   "property": "C11",
   "status": "proved",
   "theorems": [
    "Verif.C11_add_remove_identity"
   ],
   "note": "the two instructions may be separated by anything that keeps the account data"
  },
  {
   "property": "C12",
   "status": "partial",
   "theorems": [
    "Verif.C12_root_manages_partial",
    "Verif.C12_refuted"
   ],
   "note": "false as stated (C12_refuted); proved for requests whose action headers carry honest boundaries"
  },
  {
   "property": "C13",
   "status": "proved",
   "theorems": [
    "Verif.C13_aligned_no_slack",
    "Verif.C13_rounding_adds_nothing"
   ],
   "note": ""
  },
  {
   "property": "C14",
   "status": "proved",
   "theorems": [
    "Verif.C14_claimer_codec",
    "Verif.C14_claimer_round_trip"
   ],
   "note": ""
  },
  {
   "property": "C15",
   "status": "proved",
   "theorems": [
    "Verif.C15_claimer_stays"
   ],
   "note": "A registered claimer is the same after every history unless the wallet is closed. Same assumptions as C01."
  },
  {
   "property": "C16",
   "status": "proved",
   "theorems": [
    "Verif.C16_claimer_guarded"
   ],
   "note": ""
  },
  {
   "property": "C17",
   "status": "proved",
   "theorems": [
    "Verif.C17_close_to_claimer",
    "Verif.C17_close_tokens_to_claimer",
    "Verif.C17_token_rent"
   ],
   "note": ""
  },
  {
   "property": "C18",
   "status": "proved",
   "theorems": [
    "Verif.C18_sol_total",
    "Verif.C18_sol_decision",
    "Verif.C18_stake_total",
    "Verif.C18_stake_decision",
    "Verif.C18_token_total",
    "Verif.C18_token_decision",
    "Verif.C18_solDestination_total",
    "Verif.C18_solDestination_decision",
    "Verif.C18_tokenDestination_total",
    "Verif.C18_tokenDestination_decision"
   ],
   "note": "All five one-shot limits: conservation over every history, exact decision, mint and destination fixed."
  },
  {
   "property": "C19",
   "status": "proved",
   "theorems": [
    "Verif.C19_sol_interval",
    "Verif.C19_sol_lifetime",
    "Verif.C19_sol_window",
    "Verif.C19_sol_refill_only_after_window",
    "Verif.C19_stake_interval",
    "Verif.C19_stake_lifetime",
    "Verif.C19_stake_refill_only_after_window",
    "Verif.C19_token_interval",
    "Verif.C19_token_lifetime",
    "Verif.C19_token_refill_only_after_window",
    "Verif.C19_sol_available"
   ],
   "note": "SOL, stake and token: per-interval and lifetime bounds for every history; a refill requires more than a window to have elapsed; availability for SOL."
  },
  {
   "property": "C20",
   "status": "proved",
   "theorems": [
    "Verif.C20_sol_interval",
    "Verif.C20_sol_refill_only_after_window",
    "Verif.C20_sol_future_reset_refills_at_once",
    "Verif.C20_token_interval",
    "Verif.C20_token_refill_only_after_window"
   ],
   "note": "SOL and token destination limits; attempts in clock order, slots below 2^64. A stored reset slot in the future causes one early refill (witness C20_sol_future_reset_refills_at_once), which the bound accounts for."
  },
  {
   "property": "C21",
   "status": "partial",
   "theorems": [
    "Verif.C21_never_panics_partial",
    "Verif.C21_zero_window_always_aborts"
   ],
   "note": "False as stated for window 0, which the layout check accepts for SOL, token, stake and scope limits: C21_zero_window_always_aborts. Proved for positive windows."
  },
  {
   "property": "C22",
   "status": "proved",
   "theorems": [
    "Verif.C22_limit_total",
    "Verif.C22_max_limit_is_unlimited",
    "Verif.C22_recurring_interval",
    "Verif.C22_basic_and_unknown"
   ],
   "note": "Fixed, recurring and basic scopes. A limit equal to the largest u128 means unlimited (C22_max_limit_is_unlimited)."
  },
  {
   "property": "C23",
   "status": "partial",
   "theorems": [
    "Verif.C23_read_balance_partial",
    "Verif.C23_out_of_range_read_witness"
   ],
   "note": "False as stated: a stored field range with start > end passes the wrapping width check (C23_out_of_range_read_witness). Proved for start <= end."
  },
  {
   "property": "C24",
   "status": "proved",
   "theorems": [
    "Verif.C24_session_accepts_only",
    "Verif.C24_session_accepts",
    "Verif.C24_session_role"
   ],
   "note": "Session authentication accepted iff slot <= expiry and the session key signed (payload shape per type); handlers use only this path for session roles."
  },
  {
   "property": "C25",
   "status": "proved",
   "theorems": [
    "Verif.C25_start_session",
    "Verif.C25_never_outlives"
   ],
   "note": "Exact decision and effect; the expiry bound also when slot + duration wraps."
  },
  {
   "property": "C26",
   "status": "proved",
   "theorems": [
    "Verif.C26_session_needs_main_credential",
    "Verif.C26_session_needs_main_signature",
    "Verif.C26_session_key_irrelevant"
   ],
   "note": ""
  },
  {
   "property": "C27",
   "status": "proved",
   "theorems": [
    "Verif.C27_no_session"
   ],
   "note": "Both operations return AuthorityDoesNotSupportSessionBasedAuth."
  },
  {
   "property": "C28",
   "status": "proved",
   "theorems": [
    "Verif.C28_step",
    "Verif.C28_counters_consecutive",
    "Verif.C28_no_replay"
   ],
   "note": "Step theorem, consecutive counters over every history of attempts, no replay before 2^32 - 1 further acceptances."
  },
  {
   "property": "C29",
   "status": "proved",
   "theorems": [
    "Verif.C29_secp256k1_age",
    "Verif.C29_secp256r1_age"
   ],
   "note": "Both secp types."
  },
  {
   "property": "C30",
   "status": "partial",
   "theorems": [
    "Verif.C30_slot_and_counter",
    "Verif.C30_binds_partial",
    "Verif.C30_binds_self_delimiting",
    "Verif.C30_ambiguous",
    "Verif.C30_ambiguous_always"
   ],
   "note": "False as stated: C30_ambiguous, C30_ambiguous_always (an account record can move into the payload). Slot and counter always bound; everything bound for equal account counts and for self-delimiting payload formats."
  },
  {
   "property": "C31",
   "status": "proved",
   "theorems": [
    "Verif.C31_ed25519",
    "Verif.C31_secp256k1",
    "Verif.C31_secp256k1_shape",
    "Verif.C31_compressed",
    "Verif.C31_not_malleable",
    "Verif.C31_secp256r1",
    "Verif.C31_program_exec"
   ],
   "note": "Ed25519 and Secp256k1: exact decision with recovery as a parameter; low-s, hence (r, n-s) is refused; Secp256r1 and program-exec: what acceptance implies about the transaction."
  },
  {
   "property": "C32",
   "status": "proved",
   "theorems": [
    "Verif.C32_hex_standard",
    "Verif.C32_base64url_standard",
    "Verif.C32_hex_injective",
    "Verif.C32_base64url_injective",
    "Verif.C32_utf8",
    "Verif.C32_origin"
   ],
   "note": "Both encoders equal an RFC 4648 specification; injective; length."
  },
  {
   "property": "C33",
   "status": "proved",
   "theorems": [
    "Verif.C33_round_trip",
    "Verif.C33_decodes"
   ],
   "note": ""
  },
  {
   "property": "C34",
   "status": "proved",
   "theorems": [
    "Verif.C34_compaction",
    "Verif.C34_end_to_end"
   ],
   "note": ""
  },
  {
   "property": "C35",
   "status": "proved",
   "theorems": [
    "Verif.C35_no_forged_signature"
   ],
   "note": ""
  },
  {
   "property": "C36",
   "status": "proved",
   "theorems": [
    "Verif.C36_no_misreading",
    "Verif.C36_unambiguous"
   ],
   "note": ""
  },
  {
   "property": "C37",
   "status": "proved",
   "theorems": [
    "Verif.C37_add_needs_manager",
    "Verif.C37_update_needs_manager"
   ],
   "note": ""
  },
  {
   "property": "C38",
   "status": "proved",
   "theorems": [
    "Verif.C38_remove_authorised"
   ],
   "note": ""
  },
  {
   "property": "C39",
   "status": "proved",
   "theorems": [
    "Verif.C39_replace_only_credential"
   ],
   "note": ""
  },
  {
   "property": "C40",
   "status": "proved",
   "theorems": [
    "Verif.C40_replace_authorised"
   ],
   "note": ""
  },
  {
   "property": "C41",
   "status": "proved",
   "theorems": [
    "Verif.C41_preimage_injective",
    "Verif.C41_digest_binds",
    "Verif.C41_replacement_needs_digest"
   ],
   "note": "up to SHA-256 collisions"
  },
  {
   "property": "C42",
   "status": "proved",
   "theorems": [
    "Verif.C42_add_rent",
    "Verif.C42_remove_rent",
    "Verif.C42_update_rent",
    "Verif.C42_claimer_rent",
    "Verif.C42_create_rent"
   ],
   "note": "remove: assumes the runtime's rent exemption and no overflow of the total supply"
  },
  {
   "property": "C43",
   "status": "partial",
   "theorems": [
    "Verif.C43_stays_closed_partial",
    "Verif.C43_refuted"
   ],
   "note": "A closed account stays closed over every history that does not delete it for lack of lamports, and every request for it fails. The full property is false: C43_refuted brings a closed wallet back."
  },
  {
   "property": "C44",
   "status": "partial",
   "theorems": [
    "Verif.C44_close_conserves_partial",
    "Verif.C44_refuted"
   ],
   "note": "False when the destination is the wallet address itself (C44_refuted); proved for every other destination."
  },
  {
   "property": "C45",
   "status": "proved",
   "theorems": [
    "Verif.C45_close_authorised",
    "Verif.C45_close_tokens_authorised",
    "Verif.C45_closed_only_by_request"
   ],
   "note": ""
  },
  {
   "property": "C46",
   "status": "proved",
   "theorems": [
    "Verif.C46_sign",
    "Verif.C46_withdraw",
    "Verif.C46_toggle",
    "Verif.C46_default_deny"
   ],
   "note": ""
  },
  {
   "property": "C47",
   "status": "partial",
   "theorems": [
    "Verif.C47_counter_partial",
    "Verif.C47_step_partial",
    "Verif.C47_refuted"
   ],
   "note": "Each creation takes the counter value and increments it; over every history without migration the counter never goes back. False with a second migration (C47_refuted): id 0 is issued twice."
  },
  {
   "property": "C48",
   "status": "partial",
   "theorems": [
    "Verif.C48_v2_partial",
    "Verif.C48_v1_partial",
    "Verif.C48_toggle_v1",
    "Verif.C48_v2_refuted",
    "Verif.C48_v1_refuted"
   ],
   "note": "Holds for the record of the sub-account; false when the wallet is migrated again (C48_v2_refuted) and for V1 withdrawals by a role with All (C48_v1_refuted)."
  },
  {
   "property": "C49",
   "status": "proved",
   "theorems": [
    "Verif.C49_v1_sol",
    "Verif.C49_v1_token",
    "Verif.C49_sol",
    "Verif.C49_token",
    "Verif.C49_no_other_layout"
   ],
   "note": ""
  },
  {
   "property": "C50",
   "status": "proved",
   "theorems": [
    "Verif.C50_create"
   ],
   "note": ""
  },
  {
   "property": "C51",
   "status": "proved",
   "theorems": [
    "Verif.C51_rent_v1",
    "Verif.C51_rent_v2",
    "Verif.C51_sign_v1"
   ],
   "note": ""
  },
  {
   "property": "C52",
   "status": "proved",
   "theorems": [
    "Verif.C52_sol_limit",
    "Verif.C52_sol_recurring",
    "Verif.C52_sol_limit_each",
    "Verif.C52_no_limit"
   ],
   "note": "fixed, recurring and no limit; an explicit SHA-256 collision of the configuration account is the only alternative"
  },
  {
   "property": "C53",
   "status": "partial",
   "theorems": [
    "Verif.C53_limit_partial",
    "Verif.C53_recurring_partial",
    "Verif.C53_no_limit_partial",
    "Verif.C53_destinations_partial",
    "Verif.C53_closed",
    "Verif.C53_refuted"
   ],
   "note": "false as stated: a closed token account is not charged (C53_refuted); proved for accounts that stay open, and closing needs the close permission (C53_closed)"
  },
  {
   "property": "C54",
   "status": "proved",
   "theorems": [
    "Verif.C54_config",
    "Verif.C54_token"
   ],
   "note": "configuration account and token accounts (unless closed); explicit SHA-256 collisions are the only alternative"
  },
  {
   "property": "C55",
   "status": "proved",
   "theorems": [
    "Verif.C55_permitted",
    "Verif.C55_foreign_programs"
   ],
   "note": "the permission is read at the time of the call: unconditional for called programs that do not write the configuration account"
  },
  {
   "property": "C56",
   "status": "proved",
   "theorems": [
    "Verif.C56_destinations",
    "Verif.C56_only"
   ],
   "note": "every transfer out of the wallet goes to a listed destination, is charged in full, and they cover the whole decrease"
  },
  {
   "property": "C57",
   "status": "partial",
   "theorems": [
    "Verif.C57_rent_partial",
    "Verif.C57_lost_forever",
    "Verif.C57_refuted"
   ],
   "note": "rent minimum proved; ownership is false as stated (C57_refuted), with the consequence C57_lost_forever"
  },
  {
   "property": "C58",
   "status": "proved",
   "theorems": [
    "Verif.C58_tracked"
   ],
   "note": ""
  },
  {
   "property": "C59",
   "status": "partial",
   "theorems": [
    "Verif.C59_migration_partial",
    "Verif.C59_refuted"
   ],
   "note": "Roles, ids and counters are kept for legacy wallets; an already migrated wallet is not refused (C59_refuted)."
  },
  {
   "property": "C60",
   "status": "proved",
   "theorems": [
    "Verif.C60_transfer_keeps_rent",
    "Verif.C60_tokens"
   ],
   "note": "token programs called in the same instruction are assumed to move no lamports"
  },
  {
   "property": "C61",
   "status": "partial",
   "theorems": [
    "Verif.C61_ids",
    "Verif.C61_curated_partial",
    "Verif.C61_system_token",
    "Verif.C61_wrong_entries"
   ],
   "note": "False as stated: the byte arrays given for Token-2022 and Stake are other addresses (C61_wrong_entries)."
  },
  {
   "property": "C62",
   "status": "partial",
   "theorems": [
    "Verif.C62_some_prefixes_never_work",
    "Verif.C62_usable_partial"
   ],
   "note": "False as stated: the account count is read from the instruction data, so prefixes starting with 0 0 or 1 0 never work (C62_some_prefixes_never_work). Proved when the first two data bytes are at least 2."
  },
  {
   "property": "C63",
   "status": "partial",
   "theorems": [
    "Verif.C63_parser",
    "Verif.C63_found",
    "Verif.C63_nested_refuted",
    "Verif.C63_rebuilt",
    "Verif.C63_message",
    "Verif.C63_one_hash",
    "Verif.C63_binds",
    "Verif.C63_unescaped_origin"
   ],
   "note": "Holds for raw client data and for rebuilt client data whose origin has no quote or backslash; C63_unescaped_origin shows the builder does not escape the origin. C63_nested_refuted: braces inside strings of inner objects are counted as structure, so an inner object can supply the challenge."
  },
  {
   "property": "C64",
   "status": "partial",
   "theorems": [
    "Verif.C64_refuted",
    "Verif.C64_takeover",
    "Verif.C64_data_partial",
    "Verif.C64_lamports_partial"
   ],
   "note": "C64_data_partial and C64_lamports_partial say what holds for every request. The property itself is false: C64_refuted and C64_takeover."
  },
  {
   "property": "C65",
   "status": "partial",
   "theorems": [
    "Verif.C65_refuted",
    "Verif.C65_privileges_partial"
   ],
   "note": "False when an account is used read-only first and writable later (C65_refuted); proved when each key is always used with the same flags."
  },
  {
   "property": "C66",
   "status": "partial",
   "theorems": [
    "Verif.C66_limit_partial",
    "Verif.C66_recurring_partial",
    "Verif.C66_deny_partial",
    "Verif.C66_integrity_partial",
    "Verif.C66_refuted"
   ],
   "note": "Proved when no role with a smaller id has a scope for the account; without that condition false (C66_refuted)."
  },
  {
   "property": "C67",
   "status": "partial",
   "theorems": [
    "Verif.C67_limit_partial",
    "Verif.C67_recurring_partial",
    "Verif.C67_no_limit_partial",
    "Verif.C67_authorities_partial",
    "Verif.C67_refuted"
   ],
   "note": "Amounts and authorities proved; operations that move no amount need no permission (C67_refuted: a role without stake permission deactivates the stake)."
  },
  {
   "property": "C68",
   "status": "partial",
   "theorems": [
    "Verif.C68_basic_blocks",
    "Verif.C68_field_partial",
    "Verif.C68_refuted"
   ],
   "note": "False for the basic scope the SDK makes: C68_refuted, C68_basic_blocks (every request over the account is refused). A basic scope that names a balance field is never charged (C68_field_partial)."
  },
  {
   "property": "C69",
   "status": "proved",
   "theorems": [
    "Verif.C69_written_as_stored",
    "Verif.C69_injective",
    "Verif.C69_key",
    "Verif.C69_limits"
   ],
   "note": "All 26 permission records; values in the range of the Rust types."
  },
  {
   "property": "C70",
   "status": "proved",
   "theorems": [
    "Verif.C70_create",
    "Verif.C70_add",
    "Verif.C70_remove",
    "Verif.C70_update",
    "Verif.C70_claimer",
    "Verif.C70_session",
    "Verif.C70_replace"
   ],
   "note": "Create, add, remove, update, replace, session, rent claimer: for every kind of credential the builder supports, sessions included. Conditions: the accounts of the request are no stake accounts and no targets of program scopes of the wallet (the program inspects those first), and the first two data bytes of an instruction that proves a program-exec credential are not a number below 2 (C62). A replacement by a program-exec role needs the proof data the library computes (proofData)."
  },
  {
   "property": "C71",
   "status": "partial",
   "theorems": [
    "Verif.C71_secp256k1",
    "Verif.C71_secp256k1_withdraw",
    "Verif.C71_secp256r1",
    "Verif.C71_exec_withdraw",
    "Verif.C71_exec_withdraw_token",
    "Verif.C71_exec_sign",
    "Verif.C71_flags",
    "Verif.C71_secp256r1_withdraw",
    "Verif.C71_refuted"
   ],
   "note": "False as stated (C71_refuted): the builders of V1 sub-account requests and of the asset transfer are always refused for Secp256k1 roles (C71_secp256k1, C71_secp256k1_withdraw) and, but for the SOL withdrawal, for Secp256r1 roles (C71_secp256r1); three program-exec builders put accounts at wrong positions (C71_exec_withdraw, C71_exec_withdraw_token, C71_exec_sign); account flags that differ from the signed ones invalidate the signature (C71_flags, C71_secp256r1_withdraw). The builders that do work: C70."
  },
  {
   "property": "C72",
   "status": "partial",
   "theorems": [
    "Verif.C72_authorised_partial",
    "Verif.C72_only_first_roles",
    "Verif.C72_manager_loses",
    "Verif.C72_refuted",
    "Verif.C72_refuted_manager"
   ],
   "note": "False as stated: a role with All cannot withdraw from the sub-account of a role with id above 10 (C72_refuted, C72_only_first_roles), and a role that also holds ManageAuthority only from its own (C72_refuted_manager, C72_manager_loses). Who can withdraw: C72_authorised_partial."
  },
  {
   "property": "C73",
   "status": "proved",
   "theorems": [
    "Verif.C73_unnamed",
    "Verif.C73_credential",
    "Verif.C73_permissions"
   ],
   "note": ""
  },
  {
   "property": "C74",
   "status": "partial",
   "theorems": [
    "Verif.C74_called",
    "Verif.C74_sol_limit",
    "Verif.C74_sol_recurring",
    "Verif.C74_sol_none",
    "Verif.C74_token_limit",
    "Verif.C74_token_recurring",
    "Verif.C74_stake_limit",
    "Verif.C74_stake_recurring",
    "Verif.C74_sol_destination",
    "Verif.C74_sol_recurring_destination",
    "Verif.C74_sol_destinations_cover",
    "Verif.C74_sol_destinations_total",
    "Verif.C74_token_destination",
    "Verif.C74_token_recurring_destination",
    "Verif.C74_scope_limit",
    "Verif.C74_scope_recurring"
   ],
   "note": "Covers fixed and recurring limits for SOL, tokens and stake, fixed and recurring destination limits for SOL and tokens, and total and recurring program scopes. All signings are summed: between them any requests may come, for this wallet and others, at any depth of calls, except updates and removals of the role, and signings asked for by called programs are refused (C74_called). Partial because the code violates the rest: token amounts are counted over accounts passed writable and not closed (see C53, C57 for what lies outside); scopes need the assumption that no earlier role has a scope for the account (C66_refuted)."
  },
  {
   "property": "C75",
   "status": "partial",
   "theorems": [
    "Verif.C75_counts",
    "Verif.C75_counters_partial",
    "Verif.C75_no_replay_partial",
    "Verif.C75_refuted"
   ],
   "note": "False as stated (C75_refuted): replacing the key of a role sets its counter to zero, so when a key is replaced and restored within 60 slots the requests it signed before are accepted again. Holds as long as the key is not replaced (C75_counters_partial, C75_no_replay_partial)."
  },
  {
   "property": "C76",
   "status": "proved",
   "theorems": [
    "Verif.C76_authenticates",
    "Verif.C76_ed25519",
    "Verif.C76_secp256k1",
    "Verif.C76_secp256r1"
   ],
   "note": "Each credential type is characterised by C31; the corollaries spell out Ed25519 and Secp256k1."
  },
  {
   "property": "C77",
   "status": "proved",
   "theorems": [
    "Verif.C77_close",
    "Verif.C77_create_sub",
    "Verif.C77_toggle_sub",
    "Verif.C77_withdraw_sol",
    "Verif.C77_withdraw_tokens",
    "Verif.C77_sign_sub",
    "Verif.C77_sign"
   ],
   "note": "Signing by roles with limits is outside this property; closing token accounts has no theorem here; the V1 requests are C71."
  },
  {
   "property": "C78",
   "status": "partial",
   "theorems": [
    "Verif.C78_refused",
    "Verif.C78_refused_create",
    "Verif.C78_after_payment",
    "Verif.C78_stays_manageable_partial",
    "Verif.C78_refuted"
   ],
   "note": "False in the code (C78_refuted, C78_refused, C78_refused_create, C78_after_payment): permissions that stay are checked as if newly submitted, so a recurring SOL, stake or token limit that was used, or a created V1 sub-account, blocks every later addition and removal. Proved for roles without these permissions."
  },
  {
   "property": "C79",
   "status": "proved",
   "theorems": [
    "Verif.C79_call",
    "Verif.C79_pay_sol",
    "Verif.C79_pay_token"
   ],
   "note": "Requests of the client library (one instruction). C79_call: any call that takes no tokens; C79_pay_sol: payments with an honest System program under general and destination limits; C79_pay_token: token transfers. The Token program is any function that makes the transfer. Requests that pass stake accounts or targets of program scopes are outside the quantifier; token accounts of the configuration address must not be passed (restricted signing refuses them)."
  },
  {
   "property": "C80",
   "status": "partial",
   "theorems": [
    "Verif.C80_sound_partial",
    "Verif.C80_complete_partial",
    "Verif.C80_no_role",
    "Verif.C80_ask_sound_partial",
    "Verif.C80_ask_complete_partial",
    "Verif.C80_ask_no_role",
    "Verif.C80_scopes_hidden",
    "Verif.C80_sub_accounts_hidden",
    "Verif.C80_close_not_expressible",
    "Verif.C80_refuted",
    "Verif.C80_scope_limit_cut"
   ],
   "note": "False in the code (C80_refuted, C80_scopes_hidden, C80_sub_accounts_hidden, C80_close_not_expressible, C80_scope_limit_cut): program scopes and created V1 sub-accounts are looked up under a fixed address and not shown, the right to close the wallet has no SDK permission, limits of scopes are cut to 64 bits. Proved: everything else held is shown (of kinds that count once, the first), and everything shown is held."
  },
  {
   "property": "C81",
   "status": "proved",
   "theorems": [
    "Verif.C81_granted",
    "Verif.C81_type",
    "Verif.C81_acceptable",
    "Verif.C81_scope_without_limit",
    "Verif.C81_recurring_starts_full",
    "Verif.C81_add_reads_back"
   ],
   "note": "C81_granted, C81_type, C81_scope_without_limit, C81_recurring_starts_full: the translation. C81_acceptable: the program takes it unless a recurring destination limit has window 0 or a V1 sub-account is given an address. C81_add_reads_back: a role added through the client library is read back with the given permissions (with the exceptions of C80)."
  },
  {
   "property": "C82",
   "status": "partial",
   "theorems": [
    "Verif.C82_remove_keeps_other_kinds",
    "Verif.C82_named_are_removed",
    "Verif.C82_remove",
    "Verif.C82_replace_reads_back",
    "Verif.C82_refuted",
    "Verif.C82_write_back_refuted"
   ],
   "note": "False in the code (C82_refuted, C82_write_back_refuted): removal goes by kind, so naming one token limit removes the limits of all tokens; writing back what was read refills recurring limits and drops rights the SDK does not show. Proved: removal keeps exactly the permissions of other kinds (C82_remove, C82_named_are_removed); a replacement is read back as given (C82_replace_reads_back)."
  },
  {
   "property": "C83",
   "status": "partial",
   "theorems": [
    "Verif.C83_lookup",
    "Verif.C83_prefix_fits",
    "Verif.C83_creates",
    "Verif.C83_created_named",
    "Verif.C83_opens",
    "Verif.C83_opens_own",
    "Verif.C83_session_roles",
    "Verif.C83_refuted",
    "Verif.C83_wrong_kind_refuted"
   ],
   "note": "False in the code for session roles (C83_refuted): the bytes a session holder is looked up by are its creation data, which match no stored session authority, so the wallet cannot be opened (C83_session_roles); and a holder can be opened as a role of another kind whose stored bytes its credential names (C83_wrong_kind_refuted). Proved for every holder of a well-formed credential: the bytes it presents when a role is created for it create that role (C83_creates). Proved for the plain holders: C83_lookup (exact result of the lookup), C83_created_named, C83_opens, C83_opens_own."
  },
  {
   "property": "C84",
   "status": "partial",
   "theorems": [
    "Verif.C84_out_of_step",
    "Verif.C84_others",
    "Verif.C84_request_partial",
    "Verif.C84_runs_partial",
    "Verif.C84_opened",
    "Verif.C84_switched",
    "Verif.C84_add_refuted",
    "Verif.C84_two_signatures_refuted",
    "Verif.C84_session_refuted",
    "Verif.C84_exec_refuted"
   ],
   "note": "False in the code: adding an authority does not advance the counter of the object, after which everything it asks for is refused until it is opened again (C84_add_refuted, C84_out_of_step); two instructions signed with one call use one counter (C84_two_signatures_refuted); objects of secp session roles count requests that do not move the counter of the role (C84_session_refuted); for program-exec roles carried out requests are reported as failed (C84_exec_refuted). Proved for the other requests of plain Secp256k1 and Secp256r1 roles: in step after opening and switching (C84_opened, C84_switched), after each request (C84_request_partial), whatever others do (C84_others), hence after any run (C84_runs_partial)."
  },
  {
   "property": "C85",
   "status": "partial",
   "theorems": [
    "Verif.C85_all",
    "Verif.C85_manage_partial",
    "Verif.C85_sol_limit",
    "Verif.C85_recurring_partial",
    "Verif.C85_recurring_hidden",
    "Verif.C85_spend",
    "Verif.C85_no_means_no_partial",
    "Verif.C85_yes_means_yes_partial",
    "Verif.C85_authority",
    "Verif.C85_count_partial",
    "Verif.C85_current_partial",
    "Verif.C85_manage_refuted",
    "Verif.C85_yes_refuted",
    "Verif.C85_yes_program_refuted",
    "Verif.C85_no_refuted",
    "Verif.C85_recurring_refuted",
    "Verif.C85_count_refuted",
    "Verif.C85_balance_refuted",
    "Verif.C85_current_refuted"
   ],
   "note": "False in the code: can_manage_authority is false for All (C85_manage_refuted); can_spend_sol says yes for the full recurring limit although less is left, and without permission to call any program (C85_yes_refuted, C85_yes_program_refuted), and no for AllButManageAuthority and for destination limits (C85_no_refuted); the recurring limit is hidden by a fixed one (C85_recurring_refuted, C85_recurring_hidden); get_role_count counts removed roles (C85_count_refuted); get_balance is the balance of the configuration account (C85_balance_refuted); get_current_authority_permissions lists All and SOL limits only (C85_current_refuted, C85_current_partial). Proved: C85_all, C85_sol_limit, C85_spend (exactly when the answer is yes), C85_authority; yes means yes for fixed limits (C85_yes_means_yes_partial); no means no for roles with a general limit or without destination limits (C85_no_means_no_partial)."
  },
  {
   "property": "C86",
   "status": "partial",
   "theorems": [
    "Verif.C86_add_partial",
    "Verif.C86_remove",
    "Verif.C86_update",
    "Verif.C86_session",
    "Verif.C86_claimer",
    "Verif.C86_sign_partial",
    "Verif.C86_create_sub",
    "Verif.C86_toggle_sub",
    "Verif.C86_withdraw_sol",
    "Verif.C86_withdraw_tokens",
    "Verif.C86_sign_sub",
    "Verif.C86_sent",
    "Verif.C86_payer_refuted",
    "Verif.C86_update_sent",
    "Verif.C86_session_payer_refuted",
    "Verif.C86_exec_unavailable",
    "Verif.C86_add_k1_refuted",
    "Verif.C86_session_v1_refuted",
    "Verif.C86_exec_sign_refuted",
    "Verif.C86_self_remove_refuted",
    "Verif.C86_returns"
   ],
   "note": "False in the code: adding and removing authorities, naming a rent claimer and starting an Ed25519 session are signed by the fee payer only, so a role with another key cannot do it (C86_payer_refuted, C86_session_payer_refuted); a Secp256k1 holder cuts off the first byte of the new credential, so none the program accepts can be added (C86_add_k1_refuted); Ed25519 session holders sign V1 sub-account requests with the main key (C86_session_v1_refuted); whatever a program-exec holder signs is refused (C86_exec_sign_refuted, given that the wallet program calling itself behaves as when called directly), and other requests are unavailable to it (C86_exec_unavailable); removing its own role returns an error although it is carried out (C86_self_remove_refuted). Proved for the other cases: what each request does when sent (C86_add_partial .. C86_sign_sub), exactly when managing requests are sent (C86_sent, C86_update_sent), and that the call returns (C86_returns). Missing: V1 sub-account requests (C71, C72), signing by restricted roles (C79) and of several instructions."
  },
  {
   "property": "C87",
   "status": "proved",
   "theorems": [
    "Verif.C87_passed",
    "Verif.C87_writable",
    "Verif.C87_library",
    "Verif.C87_sub_sign",
    "Verif.C87_assigned"
   ],
   "note": "C87_passed: only passed accounts change. C87_writable: what changes was passed writable or is at one of the positions ownWrites lists. C87_library: for all builders but one these are passed writable too; C87_sub_sign: the remaining one, signing for a V1 sub-account, passes the configuration account read-only and does not change it for a caller with a key; other callers of it are refused (C71, C72). C87_assigned: the condition that called programs leave the signing address with the System program is needed."
  },
  {
   "property": "C88",
   "status": "proved",
   "theorems": [
    "Verif.C88_total",
    "Verif.C88_within",
    "Verif.C88_close_into_itself",
    "Verif.C88_wraps"
   ],
   "note": "C88_total: the sum over any duplicate-free list with all accounts of the request is unchanged. C88_within: with C87, balances outside the list are unchanged too. C88_close_into_itself and C88_wraps: the two excluded cases do destroy and create lamports in the program, so the conditions are needed."
  },
  {
   "property": "C89",
   "status": "partial",
   "theorems": [
    "Verif.C89_members",
    "Verif.C89_says_partial",
    "Verif.C89_accepted_partial",
    "Verif.C89_amount_refuted",
    "Verif.C89_recurring_refuted",
    "Verif.C89_scope_refuted",
    "Verif.C89_sub_account_refuted",
    "Verif.C89_kinds"
   ],
   "note": "C89_says_partial, C89_accepted_partial: documents whose numbers are numbers and that name no sub-account are read exactly as they say, and nothing else is accepted. C89_amount_refuted: an unreadable amount grants one billion. C89_recurring_refuted: recurring null grants a limit that comes back every 86400 slots. C89_scope_refuted: an unreadable limit of a program scope grants an unlimited one. C89_sub_account_refuted: the address of a sub-account is never granted and mostly panics. C89_kinds: which kinds exist."
  },
  {
   "property": "C90",
   "status": "partial",
   "theorems": [
    "Verif.C90_refuted",
    "Verif.C90_plain_partial"
   ],
   "note": "C90_refuted: whatever is typed, what is granted is one of five permissions without members or a SOL limit of exactly one billion lamports. C90_plain_partial: documents without commas are granted one by one, in order."
  },
  {
   "property": "C91",
   "status": "partial",
   "theorems": [
    "Verif.C91_means_partial",
    "Verif.C91_addresses",
    "Verif.C91_compressed_refuted",
    "Verif.C91_session_refuted",
    "Verif.C91_generate_partial",
    "Verif.C91_generate_refuted"
   ],
   "note": "C91_means_partial: addresses, uncompressed Secp256k1 keys and Secp256r1 keys. C91_addresses: an address has one text. C91_compressed_refuted, C91_session_refuted: what the tool makes of compressed Secp256k1 keys and of keys for the session types is refused by the program, whoever adds it. C91_generate_partial, C91_generate_refuted: printed keys."
  },
  {
   "property": "C92",
   "status": "partial",
   "theorems": [
    "Verif.C92_role_id_partial",
    "Verif.C92_remove_refuted"
   ],
   "note": "C92_role_id_partial: GetRoleId reports the first role whose stored authority has the key. C92_remove_refuted: RemoveAuthority looks up the characters of the text and never finds a role with the key the text stands for."
  },
  {
   "property": "C93",
   "status": "partial",
   "theorems": [
    "Verif.C93_id_length",
    "Verif.C93_distinct_partial",
    "Verif.C93_zero_refuted",
    "Verif.C93_long_refuted"
   ],
   "note": "C93_id_length. C93_distinct_partial: names of at most 32 bytes that do not end in 0. C93_zero_refuted, C93_long_refuted: appending a 0 to a short name, or anything to a long one, names the same wallet."
  },
  {
   "property": "C94",
   "status": "partial",
   "theorems": [
    "Verif.C94_fee_payer_refuted",
    "Verif.C94_other_keypair_refuted",
    "Verif.C94_opens_partial",
    "Verif.C94_no_fee_payer_refuted",
    "Verif.C94_types",
    "Verif.C94_text_ignored_refuted"
   ],
   "note": "C94_opens_partial: with its own key an Ed25519 authority opens the wallet as its first role and sends every managing request. C94_types: only types without sessions. C94_fee_payer_refuted, C94_other_keypair_refuted, C94_no_fee_payer_refuted, C94_text_ignored_refuted."
  },
  {
   "property": "C95",
   "status": "partial",
   "theorems": [
    "Verif.C95_removes",
    "Verif.C95_unnamed_refuted"
   ],
   "note": "C95_removes: for the fourteen words, exactly the permissions of other kinds stay. C95_unnamed_refuted: permissions of the twelve kinds without a word stay, whatever is typed."
  },
  {
   "property": "C96",
   "status": "partial",
   "theorems": [
    "Verif.C96_answers_partial",
    "Verif.C96_granted_partial",
    "Verif.C96_sub_account_refuted",
    "Verif.C96_token2022_refuted",
    "Verif.C96_scope_without_limit"
   ],
   "note": "C96_answers_partial, C96_granted_partial: both directions for the other answers. C96_sub_account_refuted, C96_token2022_refuted; C96_scope_without_limit: a scope without a limit allows any amount."
  },
  {
   "property": "C97",
   "status": "proved",
   "theorems": [
    "Verif.C97_lawful",
    "Verif.C97_foreign",
    "Verif.C97_library"
   ],
   "note": "C97_lawful: a request is a run (Runs) of changes by the wallet program to its own accounts, changes by the System program to its accounts, gifts and calls. C97_foreign: accounts of third programs change only through calls. C97_library: with C87 and C88, the rules of the runtime never refuse what the client library builds and the program accepts. Conditions as for C88 (the signing address stays with the System program during the request, the wallet is not closed into its own configuration account)."
  },
  {
   "property": "C98",
   "status": "partial",
   "theorems": [
    "Verif.C98_refuted",
    "Verif.C98_keeps_partial",
    "Verif.C98_evolves_partial",
    "Verif.C98_closed_partial",
    "Verif.C98_created"
   ],
   "note": "C98_refuted: the attack of C64 takes all lamports out of the configuration account of a stranger, which is then deleted. C98_keeps_partial, C98_evolves_partial, C98_closed_partial: the claim for one request and over all histories, where no called program takes an account from the System program during a request. C98_created: where histories start."
  },
  {
   "property": "C99",
   "status": "partial",
   "theorems": [
    "Verif.C99_refuted",
    "Verif.C99_refuted_flag",
    "Verif.C99_refuted_empty",
    "Verif.C99_refuted_foreign",
    "Verif.C99_refuted_transfer",
    "Verif.C99_refuted_scope",
    "Verif.C99_refuted_growth",
    "Verif.C99_refuted_token",
    "Verif.C99_refuted_enabled",
    "Verif.C99_defined_partial",
    "Verif.C99_search_partial"
   ],
   "note": "False as stated in eight ways (C99_refuted, _flag, _empty, _foreign, _transfer, _scope, _growth, _token, _enabled), of which the toggle flag, the empty account and the foreign account need no signature at all. C99_defined_partial: under InBounds (stored wallets, runtime-filled sysvar, flag 0 or 1, account of the program, complete inner transfers, long enough token destination, sane scopes) every request is free of undefined reads. C99_search_partial: also the scan for scopes, whose errors the program ignores."
  },
  {
   "property": "C100",
   "status": "proved",
   "theorems": [
    "Verif.C100_contained",
    "Verif.C100_no_new_roles",
    "Verif.C100_unused"
   ],
   "note": "C100_contained: the wallet stays open, its header and every other role unchanged, the used roles keep keys and permission types (plus SubAccountV2 All for sub-accounts they create) and stay without administrative permissions. C100_no_new_roles and C100_unused are consequences. Conditions (Fine): typed ledger, fewer than 65535 roles, no SHA-256 collision between the two versions of the configuration account a SignV2 compares. A request that a called program makes as another role counts as use of that role."
  },
  {
   "property": "C101",
   "status": "proved",
   "theorems": [
    "Verif.C101_signers",
    "Verif.C101_create",
    "Verif.C101_bystander",
    "Verif.C101_other_wallet"
   ],
   "note": "C101_signers (requests on a wallet) and C101_create (requests on an address without one): the run consists of steps of the program, System transfers from signers or own addresses and calls whose signers are signers or own addresses. C101_bystander and C101_other_wallet are consequences. Accounts of the wallet program itself are excluded in C101_bystander because some handlers change them without a signature (C64, C73). A wallet created with the same id at another bump shares sub-accounts: see C102."
  },
  {
   "property": "C102",
   "status": "partial",
   "theorems": [
    "Verif.C102_refuted_v2",
    "Verif.C102_refuted_v1",
    "Verif.C102_partial"
   ],
   "note": "False of the code. C102_refuted_v2 and C102_refuted_v1: for every wallet, every enabled V2 sub-account (every V1 sub-account of the roles 0 to 10) and every stranger with the rent of a wallet and a second bump for the id, two requests signed by the stranger alone, in which the configuration account of the victim does not occur, move all lamports of the sub-account to the stranger's wallet address. C102_partial: requests for wallets with another id take nothing."
  },
  {
   "property": "C103",
   "status": "proved",
   "theorems": [
    "Verif.C103_revoke",
    "Verif.C103_final"
   ],
   "note": "C103_revoke (from C100 and C70_remove) and C103_final. The owner's credential is the one stored before the theft: the thief cannot advance its counter or end its session."
  },
  {
   "property": "C104",
   "status": "partial",
   "theorems": [
    "Verif.C104_refuted",
    "Verif.C104_refuted_root",
    "Verif.C104_partial"
   ],
   "note": "False of the code. C104_refuted: the last role that can manage a wallet may take this permission from itself by UpdateAuthority, and through every later history nobody can manage the wallet. C104_refuted_root: every role with ManageAuthority can take all permissions from the root, which only removal protects. C104_partial: as long as no UpdateAuthority names the root, the root keeps its permission to manage the wallet until the wallet is closed."
  },
  {
   "property": "C105",
   "status": "partial",
   "theorems": [
    "Verif.C105_refuted",
    "Verif.C105_refuted_sub",
    "Verif.C105_create_partial",
    "Verif.C105_sub_partial"
   ],
   "note": "False of the code. C105_refuted: one lamport at the address of the configuration account makes every creation request for this address fail. C105_refuted_sub: a stranger with a second bump for the id of a wallet without sub-accounts creates the first sub-account in its place; no request that names this record succeeds afterwards. C105_create_partial and C105_sub_partial: lamports sent to any other address, in particular to the wallet address and to both addresses of a V2 sub-account, prevent nothing."
  },
  {
   "property": "C106",
   "status": "partial",
   "theorems": [
    "Verif.C106_left_behind",
    "Verif.C106_nobody_else",
    "Verif.C106_refuted"
   ],
   "note": "False of the code. C106_refuted: the owner closes a wallet that still holds 500 tokens and whose sub-account holds 3000000 lamports. C106_left_behind: this is so for every wallet with nothing left but rent at its two addresses, whatever its token accounts and sub-accounts hold; they are left as they are and no request for the wallet succeeds afterwards. C106_nobody_else: no request for another wallet, and no creation, uses the signature of the closed wallet's address. What does hold, that lamports of the two addresses are not lost, is C44."
  },
  {
   "property": "C107",
   "status": "partial",
   "theorems": [
    "Verif.C107_sol",
    "Verif.C107_sol_recurring",
    "Verif.C107_token_partial",
    "Verif.C107_token_recurring_partial",
    "Verif.C107_stake_partial",
    "Verif.C107_stake_recurring_partial",
    "Verif.C107_free",
    "Verif.C107_refuted"
   ],
   "note": "Proved for SOL, with equality: C107_sol, C107_sol_recurring, C107_free. Stake: C107_stake_partial and C107_stake_recurring_partial need that no inner instruction shrinks a stake account. Tokens: false of the code, C107_refuted: a token account listed twice in the request is charged twice. C107_token_partial and C107_token_recurring_partial count such an account as often as it is listed."
  },
  {
   "property": "C108",
   "status": "partial",
   "theorems": [
    "Verif.C108_exact",
    "Verif.C108_reusable",
    "Verif.C108_one_wallet_partial",
    "Verif.C108_refuted"
   ],
   "note": "False of the code. C108_exact: exactly when a request that names the approval is accepted; nothing of the request counts. C108_reusable: an approval that was accepted once is accepted for every later request of the wallet in the transaction. C108_refuted: one approval, three payments. What holds: C108_one_wallet_partial, an approval is for one program and one wallet (the approval must have two accounts and two bytes of data; see C31 and C62)."
  },
  {
   "property": "C109",
   "status": "proved",
   "theorems": [
    "Verif.C109_remove",
    "Verif.C109_claimer",
    "Verif.C109_session",
    "Verif.C109_add",
    "Verif.C109_update",
    "Verif.C109_replace",
    "Verif.C109_close",
    "Verif.C109_migrate",
    "Verif.C109_toggle"
   ],
   "note": "C109_remove, C109_claimer, C109_session, C109_add, C109_update, C109_replace, C109_close, C109_migrate, C109_toggle, each an equivalence with `process`. Assumed: a well-formed wallet at the first account, no stake account and no program-scope target among the accounts (C67), at most 254 accounts. C109_add: role counters not exhausted. C109_replace: the acting role is not a program-execution role. The signature check itself (`authenticate`) is one of the conditions; it is characterised by C24-C31, C62, C63, C108."
  },
  {
   "property": "C110",
   "status": "proved",
   "theorems": [
    "Verif.C110_sub_create",
    "Verif.C110_sub_toggle",
    "Verif.C110_sub_sign",
    "Verif.C110_sub_withdraw",
    "Verif.C110_v2_sign",
    "Verif.C110_v2_withdraw",
    "Verif.C110_close_tokens",
    "Verif.C110_transfer",
    "Verif.C110_v2_create",
    "Verif.C110_create"
   ],
   "note": "C110_create, C110_sub_create, C110_sub_toggle, C110_sub_sign, C110_sub_withdraw, C110_v2_create, C110_v2_sign, C110_v2_withdraw, C110_close_tokens, C110_transfer, each an equivalence with `process`. Assumed as in C109: a well-formed wallet at the first account (C110_create: no account of the program), no stake account and no program-scope target among the accounts (C67), at most 254 accounts. Addresses of version 1 sub-accounts have 32 bytes. C110_create and C110_v2_create: the payer is none of the accounts paid to. C110_close_tokens: configuration and wallet address differ. The decoding and execution of the inner instructions of a signing request are conditions in the model's words (`decodeIxs`, `execAll`); C33-C36 say what they mean."
  },
  {
   "property": "C111",
   "status": "proved",
   "theorems": [
    "Verif.C111_sign_free",
    "Verif.C111_sign_limited"
   ],
   "note": "C111_sign_free (role that holds All or AllButManageAuthority) and C111_sign_limited (any other role), each an equivalence with `process`. Conditions in Verif/Spec/AcceptSign.lean. Assumed: a well-formed wallet at the first account, no stake account and no program-scope target among the accounts (C67), 32-byte keys, at most 254 accounts; for restricted roles the called programs leave the configuration account alone (it is owned by this program, and the runtime lets only the owner write). The decoding and execution of the inner instructions are conditions in the model's words; C33-C36 say what they mean."
  },
  {
   "property": "C112",
   "status": "proved",
   "theorems": [
    "Verif.C112_session",
    "Verif.C112_secp256r1",
    "Verif.C112_exec_previous",
    "Verif.C112_exec_first",
    "Verif.C112_exec_payload"
   ],
   "note": "C112_session (all four kinds), C112_secp256r1, C112_exec_previous, C112_exec_first, C112_exec_payload. With C31_ed25519, C31_secp256k1 and C108_exact this gives both directions for every kind of credential. C112_secp256r1: the transaction is any list of instructions whose sysvar encoding fits in 64 KiB; the message for a WebAuthn proof is the model's `r1Message` (C30, C63 say what it binds)."
  },
  {
   "property": "C113",
   "status": "partial",
   "theorems": [
    "Verif.C113_better_partial",
    "Verif.C113_refuted",
    "Verif.C113_refuted_shadowed"
   ],
   "note": "False as stated. C113_refuted: a first limit for one destination forbids all other destinations. C113_refuted_shadowed: a one-time limit puts the recurring limit of the same role out of use. C113_better_partial: larger amounts (for SOL, tokens or stake), and further permissions that are neither limits nor program scopes, never take anything away, whatever accounts the request passes. Missing: larger amounts of a program scope. Assumed: as C114, and the called programs do not look into the configuration account (`Cpi.Blind`)."
  },
  {
   "property": "C114",
   "status": "proved",
   "theorems": [
    "Verif.C114_sign_free",
    "Verif.C114_sign_limited"
   ],
   "note": "C114_sign_free and C114_sign_limited: C111 without the restriction to requests that pass no stake account and no target of a scope. Assumed: at most 254 accounts; for roles with limits 32-byte addresses and called programs that leave the configuration account alone (otherwise C53)."
  },
  {
   "property": "C115",
   "status": "partial",
   "theorems": [
    "Verif.C115_closed_to_others",
    "Verif.C115_alone_partial",
    "Verif.C115_refuted"
   ],
   "note": "False as stated. C115_closed_to_others: a scope that any role has for an account closes the account to every role that has limits and no scope of its own for it: no request that passes the account is accepted. C115_refuted: a request accepted before the owner gets a scope is refused afterwards. C115_alone_partial: without scopes of other roles on the passed accounts the conditions are those of the wallet without the other roles."
  },
  {
   "property": "C116",
   "status": "proved",
   "theorems": [
    "Verif.C116_origin",
    "Verif.C116_raw",
    "Verif.C116_packed",
    "Verif.C116_packed_browser",
    "Verif.C116_too_long",
    "Verif.C116_raw_accepted",
    "Verif.C116_packed_accepted"
   ],
   "note": "C116_raw_accepted and C116_packed_accepted: the whole credential; C116_raw, C116_packed, C116_packed_browser: the message the program expects; C116_origin: the decoder inverts every prefix code. C116_too_long: with 196 or more bytes of authenticator data no form is accepted. The compressed form has no way to state crossOrigin true or further members; the raw form has."
  },
  {
   "property": "C117",
   "status": "proved",
   "theorems": [
    "Verif.C117_any_order",
    "Verif.C117_still_accepted",
    "Verif.C117_additions"
   ],
   "note": "C117_any_order: all lists and permutations; C117_still_accepted: requests that need no lamports. C117_additions: why two additions are left out, the ids follow the order. The lamports paid for rent may depend on the order; the theorem is about the account data."
  },
  {
   "property": "C118",
   "status": "partial",
   "theorems": [
    "Verif.C118_no_padding",
    "Verif.C118_reads",
    "Verif.C118_records",
    "Verif.C118_within",
    "Verif.C118_acts",
    "Verif.C118_fields",
    "Verif.C118_state",
    "Verif.C118_limits",
    "Verif.C118_credentials",
    "Verif.C118_offsets",
    "Verif.C118_lengths_partial",
    "Verif.C118_refuted",
    "Verif.C118_session_data"
   ],
   "note": "C118_refuted: CreateProgramExecSessionAuthority has 120 bytes and states 128, so its own bytes are refused (C118_session_data) and viewing it as bytes reads beyond it; C118_lengths_partial: all other records. C118_no_padding: the compile-time check is exact for every layout; C118_reads, C118_records, C118_within, C118_acts, C118_fields, C118_state, C118_limits, C118_credentials, C118_offsets: fields are where the model reads them."
  },
  {
   "property": "C119",
   "status": "partial",
   "theorems": [
    "Verif.C119_refuted",
    "Verif.C119_request_partial",
    "Verif.C119_same_key",
    "Verif.C119_same_key_r1",
    "Verif.C119_sub_account"
   ],
   "note": "C119_refuted: SignV2 signs the inner instructions but not the role, and two roles may share a key: one signed payment is executed twice by changing the role id. What holds: C119_request_partial (same signed bytes and accounts: same number, role and fields, or both are SignV2/SubAccountSignV1), C119_same_key, C119_same_key_r1 (another secp256k1 or secp256r1 role accepts the credential only with the same key and counter), C119_sub_account (a payload signed for the wallet address is not executed for a V1 sub-account unless addresses collide)."
  },
  {
   "property": "C120",
   "status": "partial",
   "theorems": [
    "Verif.C120_together_partial",
    "Verif.C120_apart_partial",
    "Verif.C120_nothing",
    "Verif.C120_refuted"
   ],
   "note": "Proved for roles with All or AllButManageAuthority whose credential is a transaction signature (Ed25519 and all session types), in both directions: C120_together_partial, C120_apart_partial (as long as the role can sign at all in between), C120_nothing. C120_refuted: false for roles with limits, because the rent minimum of the wallet address is checked at the end of each request."
  },
  {
   "property": "C121",
   "status": "partial",
   "theorems": [
    "Verif.C121_only_latest",
    "Verif.C121_works_partial",
    "Verif.C121_refuted"
   ],
   "note": "C121_only_latest: no other key and no later slot, for every duration. C121_works_partial: the session key is accepted until the stated slot if that is a number below 2^64. C121_refuted: otherwise the end wraps around and the accepted session is expired at once."
  },
  {
   "property": "C122",
   "status": "partial",
   "theorems": [
    "Verif.C122_waiting_partial",
    "Verif.C122_later",
    "Verif.C122_stays",
    "Verif.C122_refuted"
   ],
   "note": "False of the code. C122_refuted: a recurring limit for a destination may be created with a last refill in the future; the time since then is computed modulo 2^64, so it is refilled before that slot and not after it. C122_waiting_partial: holds for every request and any accounts if the recurring limits of the role are in order (a window, no more left than the full amount, for destinations no refill in the future); C122_later, C122_stays: limits in order stay so as time passes and when charged. Assumed: as C114."
  },
  {
   "property": "C123",
   "status": "proved",
   "theorems": [
    "Verif.C123_comes_back",
    "Verif.C123_ready",
    "Verif.C123_history"
   ],
   "note": "C123_comes_back: for every request and any accounts. C123_ready: the same for a role whose windows are over, compared with any other amounts left. C123_history: no history of signings by the role, with any other requests in between that do not update or remove it, puts that off. Limits of a window of at least one slot for lamports, tokens and stake (a window of 0 panics, see C21) and last refills not in the future (for destinations see C122). The credential must not have aged. Assumed: as C114, and called programs do not look into the configuration account."
  },
  {
   "property": "C124",
   "status": "proved",
   "theorems": [
    "Verif.C124_others",
    "Verif.C124_sessions"
   ],
   "note": "C124_others: the results are equal for every request but 5 and 11, any accounts, called programs and ledger, accepted or refused (the same error). C124_sessions: acceptance of the start of a session; the result differs in the slot the session ends. The first account must be an open wallet. Called programs are a parameter of the model that does not depend on the slot."
  },
  {
   "property": "C125",
   "status": "partial",
   "theorems": [
    "Verif.C125_surplus_partial",
    "Verif.C125_sessions",
    "Verif.C125_sign_free",
    "Verif.C125_refuted",
    "Verif.C125_sign",
    "Verif.C125_sign_refuted",
    "Verif.C125_withdraw_tokens",
    "Verif.C125_withdraw_count",
    "Verif.C125_withdraw_count_v2"
   ],
   "note": "C125_refuted: false for withdrawals of SOL from V1 sub-accounts, which are taken for withdrawals of tokens if there is a seventh account. C125_sign_refuted: false for signings of roles with limits if a frozen token account of the wallet is a further account, even one no instruction uses. C125_surplus_partial: every request but 5, 7, 11, 13, 14, 21. C125_sessions: starts of sessions by keys and programs. C125_sign_free: signings of roles without limits. C125_sign: signings of all roles, if no further account is a token account. C125_withdraw_tokens: withdrawals of tokens from V1 sub-accounts. C125_withdraw_count, C125_withdraw_count_v2: with which numbers of accounts withdrawals can be accepted at all (6 or at least 9; 7 or 10). Requests 13 and 14 act on every account passed, so the claim does not apply to them."
  },
  {
   "property": "C126",
   "status": "partial",
   "theorems": [
    "Verif.C126_manage_partial",
    "Verif.C126_sub_v1_partial",
    "Verif.C126_sub_v2_partial",
    "Verif.C126_close_blocked",
    "Verif.C126_close_preventable",
    "Verif.C126_refuted"
   ],
   "note": "C126_refuted: a closing that is accepted is refused after a gift of one lamport to the configuration account; C126_close_blocked and C126_close_preventable: this holds for every closing, whoever signs, with a gift to either of the wallet's two accounts. C126_manage_partial: true for requests 1, 2, 3, 5, 12, 16, 17, 19. C126_sub_v1_partial, C126_sub_v2_partial: true for creating and switching sub-accounts and withdrawing SOL from them. Missing: requests that call other programs (9, 11, 13, 14, 20 and withdrawals of tokens), whose outcome is theirs, and the creation of wallets, for which see C105."
  }
 ]
}