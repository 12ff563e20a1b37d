import Verif.Props.App
import Verif.Props.AppHeader
import Verif.Props.AppRun
import Verif.Props.Attacker
import Verif.Props.Bench
import Verif.Props.BenchUtils
import Verif.Props.BlockChain
import Verif.Props.Bytes
import Verif.Props.ChainHash
import Verif.Props.Collision
import Verif.Props.Content
import Verif.Props.Cost
import Verif.Props.DataHeader
import Verif.Props.DecResult
import Verif.Props.ErrorMessage
import Verif.Props.Faults
import Verif.Props.FileSys
import Verif.Props.Flaw
import Verif.Props.Garble
import Verif.Props.Handler
import Verif.Props.HeaderGen
import Verif.Props.HeaderSize
import Verif.Props.HeaderTime
import Verif.Props.Heap
import Verif.Props.Isolation
import Verif.Props.Leak
import Verif.Props.Links
import Verif.Props.Listing
import Verif.Props.Listless
import Verif.Props.Log
import Verif.Props.Main
import Verif.Props.MainLog
import Verif.Props.MemParser
import Verif.Props.Misc
import Verif.Props.Modes
import Verif.Props.Names
import Verif.Props.NoCrash
import Verif.Props.Overlap
import Verif.Props.Pace
import Verif.Props.Password
import Verif.Props.PasswordData
import Verif.Props.PwFunc
import Verif.Props.Random
import Verif.Props.Rollback
import Verif.Props.SamePassword
import Verif.Props.Sample
import Verif.Props.Save
import Verif.Props.Secrecy
import Verif.Props.Select
import Verif.Props.SelectOther
import Verif.Props.Session
import Verif.Props.Settings
import Verif.Props.Sha2
import Verif.Props.SharedTimed
import Verif.Props.Sharing
import Verif.Props.StateChart
import Verif.Props.StoredSalt
import Verif.Props.Tamper
import Verif.Props.Told
import Verif.Props.Vault

/-! Axioms used by every property theorem (printed at build time). -/

#print axioms Verif.Props.C01_encode_decode
#print axioms Verif.Props.C01_encode_decode_short
#print axioms Verif.Props.C01_length
#print axioms Verif.Props.C01_decode_long
#print axioms Verif.Props.C01_decode_injective
#print axioms Verif.Props.C02_safe_partial
#print axioms Verif.Props.C02_unchanged_partial
#print axioms Verif.Props.C02_refines_values
#print axioms Verif.Props.C02_fits
#print axioms Verif.Props.C02_length_within_capacity
#print axioms Verif.Props.C02_violated
#print axioms Verif.Props.C02_assign_not_atomic
#print axioms Verif.Props.C02_addrandom_overflow
#print axioms Verif.Props.C03_sub_add
#print axioms Verif.Props.C03_add_sub
#print axioms Verif.Props.C03_length_mismatch
#print axioms Verif.Props.C04_sub_range
#print axioms Verif.Props.C04_sub_range_content
#print axioms Verif.Props.C04_cut_and_append
#print axioms Verif.Props.C05_hex_decode
#print axioms Verif.Props.C05_hex_shape
#print axioms Verif.Props.C05_hex_injective
#print axioms Verif.Props.C06_read_success
#print axioms Verif.Props.C06_read_failure
#print axioms Verif.Props.C06_read_after_end
#print axioms Verif.Props.C07_valid_number
#print axioms Verif.Props.C08_endsWith
#print axioms Verif.Props.C08_string_round_trip
#print axioms Verif.Props.C09_description
#print axioms Verif.Props.C09_string_recurrence
#print axioms Verif.Props.C09_bytes_recurrence
#print axioms Verif.Props.C09_decText_correct
#print axioms Verif.Props.C10_string_bytes_agree
#print axioms Verif.Props.C11_description
#print axioms Verif.Props.C11_string_timeout
#print axioms Verif.Props.C11_bytes_timeout
#print axioms Verif.Props.C11_zero_never_times_out
#print axioms Verif.Props.C11_limit_noticed
#print axioms Verif.Props.C12_timed_string
#print axioms Verif.Props.C12_timed_bytes
#print axioms Verif.Props.C12_timed_returns
#print axioms Verif.Props.C13_timed_never_succeeds
#print axioms Verif.Props.C13_timed_throws
#print axioms Verif.Props.C14_no_overflow_partial
#print axioms Verif.Props.C14_giant_salt_terminates
#print axioms Verif.Props.C15_accepted
#print axioms Verif.Props.C15_first_bad_char
#print axioms Verif.Props.C15_too_short
#print axioms Verif.Props.C16_read_back
#print axioms Verif.Props.C16_unknown_name
#print axioms Verif.Props.C16_block
#print axioms Verif.Props.C16_incomplete
#print axioms Verif.Props.C17_history
#print axioms Verif.Props.C17_add_iff
#print axioms Verif.Props.C17_parts_number
#print axioms Verif.Props.C18_random_data_usable
#print axioms Verif.Props.C19_valid_sound_partial
#print axioms Verif.Props.C19_valid_exact_partial
#print axioms Verif.Props.C19_late_completion_unnoticed
#print axioms Verif.Props.C19_getters
#print axioms Verif.Props.C20_decrypt_encrypt
#print axioms Verif.Props.C20_encrypt_decrypt
#print axioms Verif.Props.C21_length
#print axioms Verif.Props.C22_pieces
#print axioms Verif.Props.C22_no_piece_undefined
#print axioms Verif.Props.C23_stream
#print axioms Verif.Props.C23_short_stream
#print axioms Verif.Props.C24_succeeds_partial
#print axioms Verif.Props.C24_big_never_succeeds
#print axioms Verif.Props.C25_prefix
#print axioms Verif.Props.C26_encryption
#print axioms Verif.Props.C26_decryption
#print axioms Verif.Props.C27_construction
#print axioms Verif.Props.C27_refused
#print axioms Verif.Props.C28_height_always_zero
#print axioms Verif.Props.C28_violated
#print axioms Verif.Props.C28_fresh_partial
#print axioms Verif.Props.C29_streaming_terminates
#print axioms Verif.Props.C29_construction_partial
#print axioms Verif.Props.C29_repaired_partial
#print axioms Verif.Props.C29_repaired_calls_partial
#print axioms Verif.Props.C29_violated_ragged
#print axioms Verif.Props.C30_round_trip
#print axioms Verif.Props.C31_size
#print axioms Verif.Props.C31_documented_bounds
#print axioms Verif.Props.C31_bounds_sharp
#print axioms Verif.Props.C32_current
#print axioms Verif.Props.C32_cleared
#print axioms Verif.Props.C32_recomputed
#print axioms Verif.Props.C33_accepted
#print axioms Verif.Props.C33_memory
#print axioms Verif.Props.C34_killed_iff_partial
#print axioms Verif.Props.C34_violated
#print axioms Verif.Props.C35_agree_iff_partial
#print axioms Verif.Props.C35_violated
#print axioms Verif.Props.C36_sum_partial
#print axioms Verif.Props.C36_wraps
#print axioms Verif.Props.C36_file_size
#print axioms Verif.Props.C36_violated
#print axioms Verif.Props.C37_round_trip_partial
#print axioms Verif.Props.C37_violated
#print axioms Verif.Props.C37_decrypt_partial
#print axioms Verif.Props.C38_type_iff_partial
#print axioms Verif.Props.C38_violated
#print axioms Verif.Props.C39_iters_values
#print axioms Verif.Props.C39_iters_accepts
#print axioms Verif.Props.C39_iters_complete
#print axioms Verif.Props.C39_time_values
#print axioms Verif.Props.C39_time_accepts
#print axioms Verif.Props.C39_time_complete
#print axioms Verif.Props.C40_verified
#print axioms Verif.Props.C40_without_hash
#print axioms Verif.Props.C41_unchanged
#print axioms Verif.Props.C41_wrong_state_partial
#print axioms Verif.Props.C41_settings_checked_first
#print axioms Verif.Props.C42_password_given
#print axioms Verif.Props.C42_only_there
#print axioms Verif.Props.C42_plaintext
#print axioms Verif.Props.C43_accepts_exactly
#print axioms Verif.Props.C43_creating_password
#print axioms Verif.Props.C43_refused_unchanged
#print axioms Verif.Props.C44_end_to_end
#print axioms Verif.Props.C44_any_history
#print axioms Verif.Props.C45_logout_forgets
#print axioms Verif.Props.C45_later_history
#print axioms Verif.Props.C45_new_is_blank
#print axioms Verif.Props.C45_mode_ignored
#print axioms Verif.Props.C46_step
#print axioms Verif.Props.C46_quiet
#print axioms Verif.Props.C46_unnamed
#print axioms Verif.Props.C46_create
#print axioms Verif.Props.C46_delete
#print axioms Verif.Props.C46_write
#print axioms Verif.Props.C46_wrong_password
#print axioms Verif.Props.C47_write_path
#print axioms Verif.Props.C48_states_partial
#print axioms Verif.Props.C48_complete_partial
#print axioms Verif.Props.C48_old_or_new_partial
#print axioms Verif.Props.C48_other_file_partial
#print axioms Verif.Props.C48_any_part
#print axioms Verif.Props.C48_other_any_part
#print axioms Verif.Props.C48_violated_empty
#print axioms Verif.Props.C48_violated_torn
#print axioms Verif.Props.C49_selected_partial
#print axioms Verif.Props.C49_path_partial
#print axioms Verif.Props.C49_violated
#print axioms Verif.Props.C49_violated_lost
#print axioms Verif.Props.C50_all_files_partial
#print axioms Verif.Props.C50_no_listing
#print axioms Verif.Props.C50_always_empty
#print axioms Verif.Props.C50_errors_partial
#print axioms Verif.Props.C50_violated
#print axioms Verif.Props.C50_default_dir_partial
#print axioms Verif.Props.C50_violated_default
#print axioms Verif.Props.C50_no_effect
#print axioms Verif.Props.C50_no_effect_many
#print axioms Verif.Props.C50_relevance_partial
#print axioms Verif.Props.C51_timeout_partial
#print axioms Verif.Props.C51_exactly_partial
#print axioms Verif.Props.C51_overrun_ignored
#print axioms Verif.Props.C51_violated
#print axioms Verif.Props.C52_success_in_time
#print axioms Verif.Props.C52_exactly
#print axioms Verif.Props.C52_failure_unchanged
#print axioms Verif.Props.C52_no_timeout
#print axioms Verif.Props.C53_second_flaw
#print axioms Verif.Props.C53_repaired_partial
#print axioms Verif.Props.C53_third_flaw
#print axioms Verif.Props.C53_terminates
#print axioms Verif.Props.C53_reported_partial
#print axioms Verif.Props.C54_no_crash_partial
#print axioms Verif.Props.C54_stays_tame_partial
#print axioms Verif.Props.C54_select_dies
#print axioms Verif.Props.C54_null_dies
#print axioms Verif.Props.C54_delete_dies
#print axioms Verif.Props.C54_unreachable_dies
#print axioms Verif.Props.C54_salt_dies
#print axioms Verif.Props.C54_violated
#print axioms Verif.Props.C55_change_password
#print axioms Verif.Props.C56_keeps_partial
#print axioms Verif.Props.C56_reopen_partial
#print axioms Verif.Props.C56_violated_blocks
#print axioms Verif.Props.C57_once_partial
#print axioms Verif.Props.C57_nothing_after_decrypting
#print axioms Verif.Props.C57_violated
#print axioms Verif.Props.C58_access_partial
#print axioms Verif.Props.C58_move_once
#print axioms Verif.Props.C58_never_copied
#print axioms Verif.Props.C58_readable
#print axioms Verif.Props.C58_violated
#print axioms Verif.Props.C59_protocol
#print axioms Verif.Props.C59_answers
#print axioms Verif.Props.C59_refused
#print axioms Verif.Props.C59_total_partial
#print axioms Verif.Props.C59_violated
#print axioms Verif.Props.C60_range_partial
#print axioms Verif.Props.C60_violated
#print axioms Verif.Props.C60_refused
#print axioms Verif.Props.C61_exact
#print axioms Verif.Props.C61_length_letters
#print axioms Verif.Props.C61_zero
#print axioms Verif.Props.C62_accepts
#print axioms Verif.Props.C62_sizes
#print axioms Verif.Props.C62_refusal
#print axioms Verif.Props.C62_directory
#print axioms Verif.Props.C63_open
#print axioms Verif.Props.C63_create
#print axioms Verif.Props.C63_errors_partial
#print axioms Verif.Props.C63_unreachable
#print axioms Verif.Props.C64_fill_container
#print axioms Verif.Props.C64_create
#print axioms Verif.Props.C64_bytes
#print axioms Verif.Props.C64_change_salt
#print axioms Verif.Props.C65_never
#print axioms Verif.Props.C65_load_exactly
#print axioms Verif.Props.C65_empty_partial
#print axioms Verif.Props.C65_not_three
#print axioms Verif.Props.C65_violated
#print axioms Verif.Props.C65_failed_load_kills
#print axioms Verif.Props.C66_search
#print axioms Verif.Props.C66_sorted_and_empty
#print axioms Verif.Props.C66_order
#print axioms Verif.Props.C66_add_refused
#print axioms Verif.Props.C67_no_leak_partial
#print axioms Verif.Props.C67_one_buffer_each_partial
#print axioms Verif.Props.C67_move_keeps_buffer
#print axioms Verif.Props.C67_violated
#print axioms Verif.Props.C68_content_partial
#print axioms Verif.Props.C68_unreadable_partial
#print axioms Verif.Props.C68_violated_big
#print axioms Verif.Props.C68_violated_stale
#print axioms Verif.Props.C68_first_bytes_partial
#print axioms Verif.Props.C69_valid_sound_partial
#print axioms Verif.Props.C69_valid_exact_partial
#print axioms Verif.Props.C69_violated_late
#print axioms Verif.Props.C69_getters
#print axioms Verif.Props.C69_assign
#print axioms Verif.Props.C69_violated_uninitialised
#print axioms Verif.Props.C69_undefined_iff_partial
#print axioms Verif.Props.C69_defined_partial
#print axioms Verif.Props.C70_distinct
#print axioms Verif.Props.C70_identify_partial
#print axioms Verif.Props.C70_violated_ambiguous
#print axioms Verif.Props.C70_violated_echo
#print axioms Verif.Props.C70_verbose
#print axioms Verif.Props.C70_success
#print axioms Verif.Props.C70_info_partial
#print axioms Verif.Props.C70_violated_hidden
#print axioms Verif.Props.C71_hash_modes
#print axioms Verif.Props.C71_hash_function
#print axioms Verif.Props.C71_chain_modes
#print axioms Verif.Props.C71_file_modes
#print axioms Verif.Props.C71_names
#print axioms Verif.Props.C71_formats
#print axioms Verif.Props.C71_bytes
#print axioms Verif.Props.C71_texts
#print axioms Verif.Props.C72_violated_key_stream
#print axioms Verif.Props.C72_fresh_salt_partial
#print axioms Verif.Props.C73_violated_rollback
#print axioms Verif.Props.C73_violated_data
#print axioms Verif.Props.C73_violated_header
#print axioms Verif.Props.C73_length_partial
#print axioms Verif.Props.C74_call
#print axioms Verif.Props.C74_history
#print axioms Verif.Props.C75_answer_partial
#print axioms Verif.Props.C75_refused
#print axioms Verif.Props.C75_directory_partial
#print axioms Verif.Props.C75_violated_directory
#print axioms Verif.Props.C75_violated_unreachable
#print axioms Verif.Props.C76_listings
#print axioms Verif.Props.C76_ideal
#print axioms Verif.Props.C76_described
#print axioms Verif.Props.C76_determined
#print axioms Verif.Props.C76_durable
#print axioms Verif.Props.C77_file_mode
#print axioms Verif.Props.C77_hash_mode
#print axioms Verif.Props.C77_chain_mode
#print axioms Verif.Props.C77_iterations
#print axioms Verif.Props.C77_password_partial
#print axioms Verif.Props.C77_violated_endless
#print axioms Verif.Props.C77_violated_endless_witness
#print axioms Verif.Props.C77_violated_text
#print axioms Verif.Props.C77_dialogue_partial
#print axioms Verif.Props.C77_answers_usable
#print axioms Verif.Props.C78_remembered
#print axioms Verif.Props.C78_start_partial
#print axioms Verif.Props.C78_unchanged_partial
#print axioms Verif.Props.C78_violated_emptied
#print axioms Verif.Props.C78_enc_iff
#print axioms Verif.Props.C78_violated_name
#print axioms Verif.Props.C78_usable_partial
#print axioms Verif.Props.C78_violated_endless
#print axioms Verif.Props.C79_call
#print axioms Verif.Props.C79_isolated
#print axioms Verif.Props.C79_sessions
#print axioms Verif.Props.C79_together
#print axioms Verif.Props.C79_ideal
#print axioms Verif.Props.C79_durable
#print axioms Verif.Props.C80_ideal
#print axioms Verif.Props.C80_described
#print axioms Verif.Props.C80_faultless
#print axioms Verif.Props.C80_backup
#print axioms Verif.Props.C80_durable
#print axioms Verif.Props.C80_listings
#print axioms Verif.Props.C81_listings
#print axioms Verif.Props.C81_ideal
#print axioms Verif.Props.C81_described
#print axioms Verif.Props.C81_handover
#print axioms Verif.Props.C81_durable
#print axioms Verif.Props.C82_violated_lost_update
#print axioms Verif.Props.C82_turns_partial
#print axioms Verif.Props.C82_violated_stale
#print axioms Verif.Props.C83_serial_partial
#print axioms Verif.Props.C83_finish_partial
#print axioms Verif.Props.C83_alone
#print axioms Verif.Props.C83_ideal_partial
#print axioms Verif.Props.C83_alone_dies
#print axioms Verif.Props.C83_violated_create
#print axioms Verif.Props.C83_violated_save
#print axioms Verif.Props.C83_violated_read
#print axioms Verif.Props.C83_violated_delete
#print axioms Verif.Props.C83_violated_lost
#print axioms Verif.Props.C84_equal_partial
#print axioms Verif.Props.C84_blocks_partial
#print axioms Verif.Props.C84_violated_modes
#print axioms Verif.Props.C84_violated_self
#print axioms Verif.Props.C85_shelf_partial
#print axioms Verif.Props.C85_once
#print axioms Verif.Props.C85_closed
#print axioms Verif.Props.C85_violated_refill
#print axioms Verif.Props.C85_violated_header
#print axioms Verif.Props.C86_view
#print axioms Verif.Props.C86_view_dies
#print axioms Verif.Props.C86_shadow
#print axioms Verif.Props.C86_shadow_dies
#print axioms Verif.Props.C86_one_name_partial
#print axioms Verif.Props.C86_violated_delete
#print axioms Verif.Props.C86_violated_save
#print axioms Verif.Props.C86_violated_alias
#print axioms Verif.Props.C86_no_zero_byte
#print axioms Verif.Props.C86_violated_ending
#print axioms Verif.Props.C86_violated_zero_byte
#print axioms Verif.Props.C87_unchanged
#print axioms Verif.Props.C87_appends_partial
#print axioms Verif.Props.C87_appends_room
#print axioms Verif.Props.C87_violated_full
#print axioms Verif.Props.C87_saved_partial
#print axioms Verif.Props.C87_refuses
#print axioms Verif.Props.C87_new_partial
#print axioms Verif.Props.C87_new_then_append
#print axioms Verif.Props.C87_new_unchanged
#print axioms Verif.Props.C88_one_block_partial
#print axioms Verif.Props.C88_violated_difference
#print axioms Verif.Props.C88_violated_known
#print axioms Verif.Props.C88_violated_validator
#print axioms Verif.Props.C89_collision
#print axioms Verif.Props.C89_other_password
#print axioms Verif.Props.C89_nothing_else
#print axioms Verif.Props.C90_lengths
#print axioms Verif.Props.C90_compression
#print axioms Verif.Props.C90_refused
#print axioms Verif.Props.C91_search_partial
#print axioms Verif.Props.C91_short_partial
#print axioms Verif.Props.C91_violated_long
#print axioms Verif.Props.C91_violated_result
#print axioms Verif.Props.C91_violated_memory
#print axioms Verif.Props.C91_confirmed_partial
#print axioms Verif.Props.C91_violated_never
#print axioms Verif.Props.C92_returns
#print axioms Verif.Props.C92_headers_partial
#print axioms Verif.Props.C92_read_partial
#print axioms Verif.Props.C92_unittest_partial
#print axioms Verif.Props.C92_refused
#print axioms Verif.Props.C92_violated_kinds
#print axioms Verif.Props.C92_violated_iterations
#print axioms Verif.Props.C93_changes_nothing
#print axioms Verif.Props.C93_histories_partial
#print axioms Verif.Props.C93_check
#print axioms Verif.Props.C93_encrypt
#print axioms Verif.Props.C93_violated_guess
#print axioms Verif.Props.C93_violated_refused
#print axioms Verif.Props.C93_violated_char
#print axioms Verif.Props.C93_allowed
#print axioms Verif.Props.C93_violated_demo
#print axioms Verif.Props.C94_flaw_partial
#print axioms Verif.Props.C94_classified
#print axioms Verif.Props.C94_codes
#print axioms Verif.Props.C94_select
#print axioms Verif.Props.C94_violated_short
#print axioms Verif.Props.C94_violated_size
#print axioms Verif.Props.C95_pad
#print axioms Verif.Props.C95_any
#print axioms Verif.Props.C95_file
#print axioms Verif.Props.C95_versions_partial
#print axioms Verif.Props.C95_violated_versions
#print axioms Verif.Props.C95_coincidence
#print axioms Verif.Props.C96_all_rounds
#print axioms Verif.Props.C96_cost
#print axioms Verif.Props.C96_session
#print axioms Verif.Props.C96_optimal
#print axioms Verif.Props.C96_search
#print axioms Verif.Props.C96_content
#print axioms Verif.Props.C96_violated_known
#print axioms Verif.Props.C96_violated_file
#print axioms Verif.Props.C97_stored_partial
#print axioms Verif.Props.C97_violated
#print axioms Verif.Props.C98_update
#print axioms Verif.Props.C98_sizes_partial
#print axioms Verif.Props.C98_violated_sizes
#print axioms Verif.Props.C98_write_safe_partial
#print axioms Verif.Props.C98_violated_twice
#print axioms Verif.Props.C98_violated_flag
#print axioms Verif.Props.C98_violated_unreadable
#print axioms Verif.Props.C98_session
#print axioms Verif.Props.C99_result_partial
#print axioms Verif.Props.C99_short
#print axioms Verif.Props.C99_hash
#print axioms Verif.Props.C99_fileMode
#print axioms Verif.Props.C99_zero_block
#print axioms Verif.Props.C99_violated
#print axioms Verif.Props.C100_parse_partial
#print axioms Verif.Props.C100_call_partial
#print axioms Verif.Props.C100_run_partial
#print axioms Verif.Props.C100_unneeded
#print axioms Verif.Props.C100_answer
#print axioms Verif.Props.C100_parse_dies
#print axioms Verif.Props.C100_select_dies
#print axioms Verif.Props.C100_violated
#print axioms Verif.Props.C101_call
#print axioms Verif.Props.C101_limited
#print axioms Verif.Props.C101_unlimited
#print axioms Verif.Props.C101_run
#print axioms Verif.Props.C102_partial
#print axioms Verif.Props.C102_same_salts_show
#print axioms Verif.Props.C102_salts_partial
#print axioms Verif.Props.C102_violated_normal
#print axioms Verif.Props.C102_created_partial
#print axioms Verif.Props.C102_violated_quad
#print axioms Verif.Props.C103_call
#print axioms Verif.Props.C103_call_dies
#print axioms Verif.Props.C103_new
#print axioms Verif.Props.C103_new_partial
#print axioms Verif.Props.C103_delete
#print axioms Verif.Props.C103_plain_partial
#print axioms Verif.Props.C103_violated_delete
#print axioms Verif.Props.C103_violated_delete_link
#print axioms Verif.Props.C103_violated_extension
#print axioms Verif.Props.C103_violated_save
#print axioms Verif.Props.C104_same
#print axioms Verif.Props.C104_success
#print axioms Verif.Props.C104_path
#print axioms Verif.Props.C104_violated_which
#print axioms Verif.Props.C104_state_partial
#print axioms Verif.Props.C104_violated_state
#print axioms Verif.Props.C104_header
#print axioms Verif.Props.C104_violated_end
#print axioms Verif.Props.C104_violated_mode
#print axioms Verif.Props.C104_violated_iters
#print axioms Verif.Props.C104_secret
#print axioms Verif.Props.C105_violated
#print axioms Verif.Props.C105_violated_open
#print axioms Verif.Props.C105_violated_header
#print axioms Verif.Props.C105_rest_partial
#print axioms Verif.Props.C105_refused_partial
#print axioms Verif.Props.C106_violated
#print axioms Verif.Props.C106_violated_first
#print axioms Verif.Props.C106_full_partial
#print axioms Verif.Props.C106_full_first_partial
#print axioms Verif.Props.C106_unreadable
#print axioms Verif.Props.C106_disk
#print axioms Verif.Props.C106_kept
#print axioms Verif.Props.C107_encryption
#print axioms Verif.Props.C107_decryption
#print axioms Verif.Props.C107_key
#print axioms Verif.Props.C107_file
#print axioms Verif.Props.C107_sums
#print axioms Verif.Props.C108_violated
#print axioms Verif.Props.C108_ends_partial
#print axioms Verif.Props.C108_numbers_partial
#print axioms Verif.Props.C108_base
#print axioms Verif.Props.C108_none
#print axioms Verif.Props.C108_violated_zero
#print axioms Verif.Props.C109_reads_partial
#print axioms Verif.Props.C109_absent_partial
#print axioms Verif.Props.C109_violated
