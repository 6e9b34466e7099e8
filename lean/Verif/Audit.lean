import Verif.Props.Accept
import Verif.Props.AcceptCred
import Verif.Props.AcceptFull
import Verif.Props.AcceptSign
import Verif.Props.AcceptSub
import Verif.Props.Allowed
import Verif.Props.Approve
import Verif.Props.Auth
import Verif.Props.Batch
import Verif.Props.Cli
import Verif.Props.CliKeys
import Verif.Props.Client
import Verif.Props.ClientMore
import Verif.Props.ClientRefused
import Verif.Props.Close
import Verif.Props.Compact
import Verif.Props.Contain
import Verif.Props.Curated
import Verif.Props.Exact
import Verif.Props.Fields
import Verif.Props.Gift
import Verif.Props.History
import Verif.Props.Isolation
import Verif.Props.Lawful
import Verif.Props.Lifetime
import Verif.Props.LifetimeMore
import Verif.Props.Limits
import Verif.Props.Manage
import Verif.Props.Manager
import Verif.Props.Memory
import Verif.Props.More
import Verif.Props.Moves
import Verif.Props.OneRequest
import Verif.Props.Order
import Verif.Props.Passkey
import Verif.Props.Prefund
import Verif.Props.Recover
import Verif.Props.Refill
import Verif.Props.Rent
import Verif.Props.Roles
import Verif.Props.Scope
import Verif.Props.Sdk
import Verif.Props.SdkAsk
import Verif.Props.SdkCounter
import Verif.Props.SdkLookup
import Verif.Props.SdkSend
import Verif.Props.Sessions
import Verif.Props.Sign
import Verif.Props.SignCalls
import Verif.Props.SignTokens
import Verif.Props.Signed
import Verif.Props.Stake
import Verif.Props.Strand
import Verif.Props.Stuck
import Verif.Props.Sub
import Verif.Props.Surplus
import Verif.Props.SurplusSign
import Verif.Props.SurplusWithdraw
import Verif.Props.Text
import Verif.Props.Timeless
import Verif.Props.Total
import Verif.Props.Touch
import Verif.Props.Twin
import Verif.Props.Wait
import Verif.Props.WebAuthn

/-! Axioms of every property theorem (generated by tools/gen_manifest.py).
Expected: a subset of propext, Classical.choice, Quot.sound. -/

#print axioms Verif.C01_refines
#print axioms Verif.C01_readable
#print axioms Verif.C01_created
#print axioms Verif.C02_added_role_reads_back
#print axioms Verif.C03_add_leaves_others
#print axioms Verif.C03_use_moves_only_counter
#print axioms Verif.C04_remove_exactly_one
#print axioms Verif.C05_ids
#print axioms Verif.C06_update_only_target
#print axioms Verif.C07_added_actions_valid
#print axioms Verif.C07_updated_actions_valid
#print axioms Verif.C07_validation_exact
#print axioms Verif.C08_lookup_exact
#print axioms Verif.C08_found_iff
#print axioms Verif.C09_duplicates_exact
#print axioms Verif.C09_added_no_duplicate
#print axioms Verif.C09_updated_no_duplicate
#print axioms Verif.C10_root_stays
#print axioms Verif.C100_contained
#print axioms Verif.C100_no_new_roles
#print axioms Verif.C100_unused
#print axioms Verif.C101_signers
#print axioms Verif.C101_create
#print axioms Verif.C101_bystander
#print axioms Verif.C101_other_wallet
#print axioms Verif.C102_refuted_v2
#print axioms Verif.C102_refuted_v1
#print axioms Verif.C102_partial
#print axioms Verif.C103_revoke
#print axioms Verif.C103_final
#print axioms Verif.C104_refuted
#print axioms Verif.C104_refuted_root
#print axioms Verif.C104_partial
#print axioms Verif.C105_refuted
#print axioms Verif.C105_refuted_sub
#print axioms Verif.C105_create_partial
#print axioms Verif.C105_sub_partial
#print axioms Verif.C106_left_behind
#print axioms Verif.C106_nobody_else
#print axioms Verif.C106_refuted
#print axioms Verif.C107_sol
#print axioms Verif.C107_sol_recurring
#print axioms Verif.C107_token_partial
#print axioms Verif.C107_token_recurring_partial
#print axioms Verif.C107_stake_partial
#print axioms Verif.C107_stake_recurring_partial
#print axioms Verif.C107_free
#print axioms Verif.C107_refuted
#print axioms Verif.C108_exact
#print axioms Verif.C108_reusable
#print axioms Verif.C108_one_wallet_partial
#print axioms Verif.C108_refuted
#print axioms Verif.C109_remove
#print axioms Verif.C109_claimer
#print axioms Verif.C109_session
#print axioms Verif.C109_add
#print axioms Verif.C109_update
#print axioms Verif.C109_replace
#print axioms Verif.C109_close
#print axioms Verif.C109_migrate
#print axioms Verif.C109_toggle
#print axioms Verif.C11_add_remove_identity
#print axioms Verif.C110_sub_create
#print axioms Verif.C110_sub_toggle
#print axioms Verif.C110_sub_sign
#print axioms Verif.C110_sub_withdraw
#print axioms Verif.C110_v2_sign
#print axioms Verif.C110_v2_withdraw
#print axioms Verif.C110_close_tokens
#print axioms Verif.C110_transfer
#print axioms Verif.C110_v2_create
#print axioms Verif.C110_create
#print axioms Verif.C111_sign_free
#print axioms Verif.C111_sign_limited
#print axioms Verif.C112_session
#print axioms Verif.C112_secp256r1
#print axioms Verif.C112_exec_previous
#print axioms Verif.C112_exec_first
#print axioms Verif.C112_exec_payload
#print axioms Verif.C113_better_partial
#print axioms Verif.C113_refuted
#print axioms Verif.C113_refuted_shadowed
#print axioms Verif.C114_sign_free
#print axioms Verif.C114_sign_limited
#print axioms Verif.C115_closed_to_others
#print axioms Verif.C115_alone_partial
#print axioms Verif.C115_refuted
#print axioms Verif.C116_origin
#print axioms Verif.C116_raw
#print axioms Verif.C116_packed
#print axioms Verif.C116_packed_browser
#print axioms Verif.C116_too_long
#print axioms Verif.C116_raw_accepted
#print axioms Verif.C116_packed_accepted
#print axioms Verif.C117_any_order
#print axioms Verif.C117_still_accepted
#print axioms Verif.C117_additions
#print axioms Verif.C118_no_padding
#print axioms Verif.C118_reads
#print axioms Verif.C118_records
#print axioms Verif.C118_within
#print axioms Verif.C118_acts
#print axioms Verif.C118_fields
#print axioms Verif.C118_state
#print axioms Verif.C118_limits
#print axioms Verif.C118_credentials
#print axioms Verif.C118_offsets
#print axioms Verif.C118_lengths_partial
#print axioms Verif.C118_refuted
#print axioms Verif.C118_session_data
#print axioms Verif.C119_refuted
#print axioms Verif.C119_request_partial
#print axioms Verif.C119_same_key
#print axioms Verif.C119_same_key_r1
#print axioms Verif.C119_sub_account
#print axioms Verif.C12_root_manages_partial
#print axioms Verif.C12_refuted
#print axioms Verif.C120_together_partial
#print axioms Verif.C120_apart_partial
#print axioms Verif.C120_nothing
#print axioms Verif.C120_refuted
#print axioms Verif.C121_only_latest
#print axioms Verif.C121_works_partial
#print axioms Verif.C121_refuted
#print axioms Verif.C122_waiting_partial
#print axioms Verif.C122_later
#print axioms Verif.C122_stays
#print axioms Verif.C122_refuted
#print axioms Verif.C123_comes_back
#print axioms Verif.C123_ready
#print axioms Verif.C123_history
#print axioms Verif.C124_others
#print axioms Verif.C124_sessions
#print axioms Verif.C125_surplus_partial
#print axioms Verif.C125_sessions
#print axioms Verif.C125_sign_free
#print axioms Verif.C125_refuted
#print axioms Verif.C125_sign
#print axioms Verif.C125_sign_refuted
#print axioms Verif.C125_withdraw_tokens
#print axioms Verif.C125_withdraw_count
#print axioms Verif.C125_withdraw_count_v2
#print axioms Verif.C126_manage_partial
#print axioms Verif.C126_sub_v1_partial
#print axioms Verif.C126_sub_v2_partial
#print axioms Verif.C126_close_blocked
#print axioms Verif.C126_close_preventable
#print axioms Verif.C126_refuted
#print axioms Verif.C13_aligned_no_slack
#print axioms Verif.C13_rounding_adds_nothing
#print axioms Verif.C14_claimer_codec
#print axioms Verif.C14_claimer_round_trip
#print axioms Verif.C15_claimer_stays
#print axioms Verif.C16_claimer_guarded
#print axioms Verif.C17_close_to_claimer
#print axioms Verif.C17_close_tokens_to_claimer
#print axioms Verif.C17_token_rent
#print axioms Verif.C18_sol_total
#print axioms Verif.C18_sol_decision
#print axioms Verif.C18_stake_total
#print axioms Verif.C18_stake_decision
#print axioms Verif.C18_token_total
#print axioms Verif.C18_token_decision
#print axioms Verif.C18_solDestination_total
#print axioms Verif.C18_solDestination_decision
#print axioms Verif.C18_tokenDestination_total
#print axioms Verif.C18_tokenDestination_decision
#print axioms Verif.C19_sol_interval
#print axioms Verif.C19_sol_lifetime
#print axioms Verif.C19_sol_window
#print axioms Verif.C19_sol_refill_only_after_window
#print axioms Verif.C19_stake_interval
#print axioms Verif.C19_stake_lifetime
#print axioms Verif.C19_stake_refill_only_after_window
#print axioms Verif.C19_token_interval
#print axioms Verif.C19_token_lifetime
#print axioms Verif.C19_token_refill_only_after_window
#print axioms Verif.C19_sol_available
#print axioms Verif.C20_sol_interval
#print axioms Verif.C20_sol_refill_only_after_window
#print axioms Verif.C20_sol_future_reset_refills_at_once
#print axioms Verif.C20_token_interval
#print axioms Verif.C20_token_refill_only_after_window
#print axioms Verif.C21_never_panics_partial
#print axioms Verif.C21_zero_window_always_aborts
#print axioms Verif.C22_limit_total
#print axioms Verif.C22_max_limit_is_unlimited
#print axioms Verif.C22_recurring_interval
#print axioms Verif.C22_basic_and_unknown
#print axioms Verif.C23_read_balance_partial
#print axioms Verif.C23_out_of_range_read_witness
#print axioms Verif.C24_session_accepts_only
#print axioms Verif.C24_session_accepts
#print axioms Verif.C24_session_role
#print axioms Verif.C25_start_session
#print axioms Verif.C25_never_outlives
#print axioms Verif.C26_session_needs_main_credential
#print axioms Verif.C26_session_needs_main_signature
#print axioms Verif.C26_session_key_irrelevant
#print axioms Verif.C27_no_session
#print axioms Verif.C28_step
#print axioms Verif.C28_counters_consecutive
#print axioms Verif.C28_no_replay
#print axioms Verif.C29_secp256k1_age
#print axioms Verif.C29_secp256r1_age
#print axioms Verif.C30_slot_and_counter
#print axioms Verif.C30_binds_partial
#print axioms Verif.C30_binds_self_delimiting
#print axioms Verif.C30_ambiguous
#print axioms Verif.C30_ambiguous_always
#print axioms Verif.C31_ed25519
#print axioms Verif.C31_secp256k1
#print axioms Verif.C31_secp256k1_shape
#print axioms Verif.C31_compressed
#print axioms Verif.C31_not_malleable
#print axioms Verif.C31_secp256r1
#print axioms Verif.C31_program_exec
#print axioms Verif.C32_hex_standard
#print axioms Verif.C32_base64url_standard
#print axioms Verif.C32_hex_injective
#print axioms Verif.C32_base64url_injective
#print axioms Verif.C32_utf8
#print axioms Verif.C32_origin
#print axioms Verif.C33_round_trip
#print axioms Verif.C33_decodes
#print axioms Verif.C34_compaction
#print axioms Verif.C34_end_to_end
#print axioms Verif.C35_no_forged_signature
#print axioms Verif.C36_no_misreading
#print axioms Verif.C36_unambiguous
#print axioms Verif.C37_add_needs_manager
#print axioms Verif.C37_update_needs_manager
#print axioms Verif.C38_remove_authorised
#print axioms Verif.C39_replace_only_credential
#print axioms Verif.C40_replace_authorised
#print axioms Verif.C41_preimage_injective
#print axioms Verif.C41_digest_binds
#print axioms Verif.C41_replacement_needs_digest
#print axioms Verif.C42_add_rent
#print axioms Verif.C42_remove_rent
#print axioms Verif.C42_update_rent
#print axioms Verif.C42_claimer_rent
#print axioms Verif.C42_create_rent
#print axioms Verif.C43_stays_closed_partial
#print axioms Verif.C43_refuted
#print axioms Verif.C44_close_conserves_partial
#print axioms Verif.C44_refuted
#print axioms Verif.C45_close_authorised
#print axioms Verif.C45_close_tokens_authorised
#print axioms Verif.C45_closed_only_by_request
#print axioms Verif.C46_sign
#print axioms Verif.C46_withdraw
#print axioms Verif.C46_toggle
#print axioms Verif.C46_default_deny
#print axioms Verif.C47_counter_partial
#print axioms Verif.C47_step_partial
#print axioms Verif.C47_refuted
#print axioms Verif.C48_v2_partial
#print axioms Verif.C48_v1_partial
#print axioms Verif.C48_toggle_v1
#print axioms Verif.C48_v2_refuted
#print axioms Verif.C48_v1_refuted
#print axioms Verif.C49_v1_sol
#print axioms Verif.C49_v1_token
#print axioms Verif.C49_sol
#print axioms Verif.C49_token
#print axioms Verif.C49_no_other_layout
#print axioms Verif.C50_create
#print axioms Verif.C51_rent_v1
#print axioms Verif.C51_rent_v2
#print axioms Verif.C51_sign_v1
#print axioms Verif.C52_sol_limit
#print axioms Verif.C52_sol_recurring
#print axioms Verif.C52_sol_limit_each
#print axioms Verif.C52_no_limit
#print axioms Verif.C53_limit_partial
#print axioms Verif.C53_recurring_partial
#print axioms Verif.C53_no_limit_partial
#print axioms Verif.C53_destinations_partial
#print axioms Verif.C53_closed
#print axioms Verif.C53_refuted
#print axioms Verif.C54_config
#print axioms Verif.C54_token
#print axioms Verif.C55_permitted
#print axioms Verif.C55_foreign_programs
#print axioms Verif.C56_destinations
#print axioms Verif.C56_only
#print axioms Verif.C57_rent_partial
#print axioms Verif.C57_lost_forever
#print axioms Verif.C57_refuted
#print axioms Verif.C58_tracked
#print axioms Verif.C59_migration_partial
#print axioms Verif.C59_refuted
#print axioms Verif.C60_transfer_keeps_rent
#print axioms Verif.C60_tokens
#print axioms Verif.C61_ids
#print axioms Verif.C61_curated_partial
#print axioms Verif.C61_system_token
#print axioms Verif.C61_wrong_entries
#print axioms Verif.C62_some_prefixes_never_work
#print axioms Verif.C62_usable_partial
#print axioms Verif.C63_parser
#print axioms Verif.C63_found
#print axioms Verif.C63_nested_refuted
#print axioms Verif.C63_rebuilt
#print axioms Verif.C63_message
#print axioms Verif.C63_one_hash
#print axioms Verif.C63_binds
#print axioms Verif.C63_unescaped_origin
#print axioms Verif.C64_refuted
#print axioms Verif.C64_takeover
#print axioms Verif.C64_data_partial
#print axioms Verif.C64_lamports_partial
#print axioms Verif.C65_refuted
#print axioms Verif.C65_privileges_partial
#print axioms Verif.C66_limit_partial
#print axioms Verif.C66_recurring_partial
#print axioms Verif.C66_deny_partial
#print axioms Verif.C66_integrity_partial
#print axioms Verif.C66_refuted
#print axioms Verif.C67_limit_partial
#print axioms Verif.C67_recurring_partial
#print axioms Verif.C67_no_limit_partial
#print axioms Verif.C67_authorities_partial
#print axioms Verif.C67_refuted
#print axioms Verif.C68_basic_blocks
#print axioms Verif.C68_field_partial
#print axioms Verif.C68_refuted
#print axioms Verif.C69_written_as_stored
#print axioms Verif.C69_injective
#print axioms Verif.C69_key
#print axioms Verif.C69_limits
#print axioms Verif.C70_create
#print axioms Verif.C70_add
#print axioms Verif.C70_remove
#print axioms Verif.C70_update
#print axioms Verif.C70_claimer
#print axioms Verif.C70_session
#print axioms Verif.C70_replace
#print axioms Verif.C71_secp256k1
#print axioms Verif.C71_secp256k1_withdraw
#print axioms Verif.C71_secp256r1
#print axioms Verif.C71_exec_withdraw
#print axioms Verif.C71_exec_withdraw_token
#print axioms Verif.C71_exec_sign
#print axioms Verif.C71_flags
#print axioms Verif.C71_secp256r1_withdraw
#print axioms Verif.C71_refuted
#print axioms Verif.C72_authorised_partial
#print axioms Verif.C72_only_first_roles
#print axioms Verif.C72_manager_loses
#print axioms Verif.C72_refuted
#print axioms Verif.C72_refuted_manager
#print axioms Verif.C73_unnamed
#print axioms Verif.C73_credential
#print axioms Verif.C73_permissions
#print axioms Verif.C74_called
#print axioms Verif.C74_sol_limit
#print axioms Verif.C74_sol_recurring
#print axioms Verif.C74_sol_none
#print axioms Verif.C74_token_limit
#print axioms Verif.C74_token_recurring
#print axioms Verif.C74_stake_limit
#print axioms Verif.C74_stake_recurring
#print axioms Verif.C74_sol_destination
#print axioms Verif.C74_sol_recurring_destination
#print axioms Verif.C74_sol_destinations_cover
#print axioms Verif.C74_sol_destinations_total
#print axioms Verif.C74_token_destination
#print axioms Verif.C74_token_recurring_destination
#print axioms Verif.C74_scope_limit
#print axioms Verif.C74_scope_recurring
#print axioms Verif.C75_counts
#print axioms Verif.C75_counters_partial
#print axioms Verif.C75_no_replay_partial
#print axioms Verif.C75_refuted
#print axioms Verif.C76_authenticates
#print axioms Verif.C76_ed25519
#print axioms Verif.C76_secp256k1
#print axioms Verif.C76_secp256r1
#print axioms Verif.C77_close
#print axioms Verif.C77_create_sub
#print axioms Verif.C77_toggle_sub
#print axioms Verif.C77_withdraw_sol
#print axioms Verif.C77_withdraw_tokens
#print axioms Verif.C77_sign_sub
#print axioms Verif.C77_sign
#print axioms Verif.C78_refused
#print axioms Verif.C78_refused_create
#print axioms Verif.C78_after_payment
#print axioms Verif.C78_stays_manageable_partial
#print axioms Verif.C78_refuted
#print axioms Verif.C79_call
#print axioms Verif.C79_pay_sol
#print axioms Verif.C79_pay_token
#print axioms Verif.C80_sound_partial
#print axioms Verif.C80_complete_partial
#print axioms Verif.C80_no_role
#print axioms Verif.C80_ask_sound_partial
#print axioms Verif.C80_ask_complete_partial
#print axioms Verif.C80_ask_no_role
#print axioms Verif.C80_scopes_hidden
#print axioms Verif.C80_sub_accounts_hidden
#print axioms Verif.C80_close_not_expressible
#print axioms Verif.C80_refuted
#print axioms Verif.C80_scope_limit_cut
#print axioms Verif.C81_granted
#print axioms Verif.C81_type
#print axioms Verif.C81_acceptable
#print axioms Verif.C81_scope_without_limit
#print axioms Verif.C81_recurring_starts_full
#print axioms Verif.C81_add_reads_back
#print axioms Verif.C82_remove_keeps_other_kinds
#print axioms Verif.C82_named_are_removed
#print axioms Verif.C82_remove
#print axioms Verif.C82_replace_reads_back
#print axioms Verif.C82_refuted
#print axioms Verif.C82_write_back_refuted
#print axioms Verif.C83_lookup
#print axioms Verif.C83_prefix_fits
#print axioms Verif.C83_creates
#print axioms Verif.C83_created_named
#print axioms Verif.C83_opens
#print axioms Verif.C83_opens_own
#print axioms Verif.C83_session_roles
#print axioms Verif.C83_refuted
#print axioms Verif.C83_wrong_kind_refuted
#print axioms Verif.C84_out_of_step
#print axioms Verif.C84_others
#print axioms Verif.C84_request_partial
#print axioms Verif.C84_runs_partial
#print axioms Verif.C84_opened
#print axioms Verif.C84_switched
#print axioms Verif.C84_add_refuted
#print axioms Verif.C84_two_signatures_refuted
#print axioms Verif.C84_session_refuted
#print axioms Verif.C84_exec_refuted
#print axioms Verif.C85_all
#print axioms Verif.C85_manage_partial
#print axioms Verif.C85_sol_limit
#print axioms Verif.C85_recurring_partial
#print axioms Verif.C85_recurring_hidden
#print axioms Verif.C85_spend
#print axioms Verif.C85_no_means_no_partial
#print axioms Verif.C85_yes_means_yes_partial
#print axioms Verif.C85_authority
#print axioms Verif.C85_count_partial
#print axioms Verif.C85_current_partial
#print axioms Verif.C85_manage_refuted
#print axioms Verif.C85_yes_refuted
#print axioms Verif.C85_yes_program_refuted
#print axioms Verif.C85_no_refuted
#print axioms Verif.C85_recurring_refuted
#print axioms Verif.C85_count_refuted
#print axioms Verif.C85_balance_refuted
#print axioms Verif.C85_current_refuted
#print axioms Verif.C86_add_partial
#print axioms Verif.C86_remove
#print axioms Verif.C86_update
#print axioms Verif.C86_session
#print axioms Verif.C86_claimer
#print axioms Verif.C86_sign_partial
#print axioms Verif.C86_create_sub
#print axioms Verif.C86_toggle_sub
#print axioms Verif.C86_withdraw_sol
#print axioms Verif.C86_withdraw_tokens
#print axioms Verif.C86_sign_sub
#print axioms Verif.C86_sent
#print axioms Verif.C86_payer_refuted
#print axioms Verif.C86_update_sent
#print axioms Verif.C86_session_payer_refuted
#print axioms Verif.C86_exec_unavailable
#print axioms Verif.C86_add_k1_refuted
#print axioms Verif.C86_session_v1_refuted
#print axioms Verif.C86_exec_sign_refuted
#print axioms Verif.C86_self_remove_refuted
#print axioms Verif.C86_returns
#print axioms Verif.C87_passed
#print axioms Verif.C87_writable
#print axioms Verif.C87_library
#print axioms Verif.C87_sub_sign
#print axioms Verif.C87_assigned
#print axioms Verif.C88_total
#print axioms Verif.C88_within
#print axioms Verif.C88_close_into_itself
#print axioms Verif.C88_wraps
#print axioms Verif.C89_members
#print axioms Verif.C89_says_partial
#print axioms Verif.C89_accepted_partial
#print axioms Verif.C89_amount_refuted
#print axioms Verif.C89_recurring_refuted
#print axioms Verif.C89_scope_refuted
#print axioms Verif.C89_sub_account_refuted
#print axioms Verif.C89_kinds
#print axioms Verif.C90_refuted
#print axioms Verif.C90_plain_partial
#print axioms Verif.C91_means_partial
#print axioms Verif.C91_addresses
#print axioms Verif.C91_compressed_refuted
#print axioms Verif.C91_session_refuted
#print axioms Verif.C91_generate_partial
#print axioms Verif.C91_generate_refuted
#print axioms Verif.C92_role_id_partial
#print axioms Verif.C92_remove_refuted
#print axioms Verif.C93_id_length
#print axioms Verif.C93_distinct_partial
#print axioms Verif.C93_zero_refuted
#print axioms Verif.C93_long_refuted
#print axioms Verif.C94_fee_payer_refuted
#print axioms Verif.C94_other_keypair_refuted
#print axioms Verif.C94_opens_partial
#print axioms Verif.C94_no_fee_payer_refuted
#print axioms Verif.C94_types
#print axioms Verif.C94_text_ignored_refuted
#print axioms Verif.C95_removes
#print axioms Verif.C95_unnamed_refuted
#print axioms Verif.C96_answers_partial
#print axioms Verif.C96_granted_partial
#print axioms Verif.C96_sub_account_refuted
#print axioms Verif.C96_token2022_refuted
#print axioms Verif.C96_scope_without_limit
#print axioms Verif.C97_lawful
#print axioms Verif.C97_foreign
#print axioms Verif.C97_library
#print axioms Verif.C98_refuted
#print axioms Verif.C98_keeps_partial
#print axioms Verif.C98_evolves_partial
#print axioms Verif.C98_closed_partial
#print axioms Verif.C98_created
#print axioms Verif.C99_refuted
#print axioms Verif.C99_refuted_flag
#print axioms Verif.C99_refuted_empty
#print axioms Verif.C99_refuted_foreign
#print axioms Verif.C99_refuted_transfer
#print axioms Verif.C99_refuted_scope
#print axioms Verif.C99_refuted_growth
#print axioms Verif.C99_refuted_token
#print axioms Verif.C99_refuted_enabled
#print axioms Verif.C99_defined_partial
#print axioms Verif.C99_search_partial
