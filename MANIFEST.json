{
 "claims": [
  {
   "property": "C01",
   "status": "proved",
   "theorems": [
    "Verif.Props.C01_encode_decode",
    "Verif.Props.C01_encode_decode_short",
    "Verif.Props.C01_length",
    "Verif.Props.C01_decode_long",
    "Verif.Props.C01_decode_injective"
   ],
   "note": ""
  },
  {
   "property": "C02",
   "status": "partial",
   "theorems": [
    "Verif.Props.C02_safe_partial",
    "Verif.Props.C02_unchanged_partial",
    "Verif.Props.C02_refines_values",
    "Verif.Props.C02_fits",
    "Verif.Props.C02_length_within_capacity",
    "Verif.Props.C02_violated",
    "Verif.Props.C02_assign_not_atomic",
    "Verif.Props.C02_addrandom_overflow"
   ],
   "note": "Violated: consuming a smaller buffer, sizes adding up to 2^64, assigning to a moved-from container, an assignment without memory and addrandom of a negative count with 4 GiB stored break memory (C02_violated, C02_assign_not_atomic, C02_addrandom_overflow). Proved: programs that avoid these (and use after move) never touch memory outside live buffers, throwing operations change nothing, and the container in memory refines the value-level one used in the rest of the model."
  },
  {
   "property": "C03",
   "status": "proved",
   "theorems": [
    "Verif.Props.C03_sub_add",
    "Verif.Props.C03_add_sub",
    "Verif.Props.C03_length_mismatch"
   ],
   "note": ""
  },
  {
   "property": "C04",
   "status": "proved",
   "theorems": [
    "Verif.Props.C04_sub_range",
    "Verif.Props.C04_sub_range_content",
    "Verif.Props.C04_cut_and_append"
   ],
   "note": ""
  },
  {
   "property": "C05",
   "status": "proved",
   "theorems": [
    "Verif.Props.C05_hex_decode",
    "Verif.Props.C05_hex_shape",
    "Verif.Props.C05_hex_injective"
   ],
   "note": ""
  },
  {
   "property": "C06",
   "status": "proved",
   "theorems": [
    "Verif.Props.C06_read_success",
    "Verif.Props.C06_read_failure",
    "Verif.Props.C06_read_after_end"
   ],
   "note": ""
  },
  {
   "property": "C07",
   "status": "proved",
   "theorems": [
    "Verif.Props.C07_valid_number"
   ],
   "note": ""
  },
  {
   "property": "C08",
   "status": "proved",
   "theorems": [
    "Verif.Props.C08_endsWith",
    "Verif.Props.C08_string_round_trip"
   ],
   "note": ""
  },
  {
   "property": "C09",
   "status": "proved",
   "theorems": [
    "Verif.Props.C09_description",
    "Verif.Props.C09_string_recurrence",
    "Verif.Props.C09_bytes_recurrence",
    "Verif.Props.C09_decText_correct"
   ],
   "note": "salts below 4 GiB (SaltFits); string routines need n >= 1, as the API guarantees"
  },
  {
   "property": "C10",
   "status": "proved",
   "theorems": [
    "Verif.Props.C10_string_bytes_agree"
   ],
   "note": ""
  },
  {
   "property": "C11",
   "status": "proved",
   "theorems": [
    "Verif.Props.C11_description",
    "Verif.Props.C11_string_timeout",
    "Verif.Props.C11_bytes_timeout",
    "Verif.Props.C11_zero_never_times_out",
    "Verif.Props.C11_limit_noticed"
   ],
   "note": "the clock is an arbitrary function of the check"
  },
  {
   "property": "C12",
   "status": "proved",
   "theorems": [
    "Verif.Props.C12_timed_string",
    "Verif.Props.C12_timed_bytes",
    "Verif.Props.C12_timed_returns"
   ],
   "note": ""
  },
  {
   "property": "C13",
   "status": "partial",
   "theorems": [
    "Verif.Props.C13_timed_never_succeeds",
    "Verif.Props.C13_timed_throws"
   ],
   "note": "violated: the switch has no break, so no valid timed description ever yields a result (C13_timed_never_succeeds); proved instead that the failure is always invalid_argument, never a wrong result (C13_timed_throws)"
  },
  {
   "property": "C14",
   "status": "partial",
   "theorems": [
    "Verif.Props.C14_no_overflow_partial",
    "Verif.Props.C14_giant_salt_terminates"
   ],
   "note": "holds for salts below 4 GiB; a 4 GiB salt terminates the process (C14_giant_salt_terminates)"
  },
  {
   "property": "C15",
   "status": "proved",
   "theorems": [
    "Verif.Props.C15_accepted",
    "Verif.Props.C15_first_bad_char",
    "Verif.Props.C15_too_short"
   ],
   "note": ""
  },
  {
   "property": "C16",
   "status": "proved",
   "theorems": [
    "Verif.Props.C16_read_back",
    "Verif.Props.C16_unknown_name",
    "Verif.Props.C16_block",
    "Verif.Props.C16_incomplete"
   ],
   "note": ""
  },
  {
   "property": "C17",
   "status": "proved",
   "theorems": [
    "Verif.Props.C17_history",
    "Verif.Props.C17_add_iff",
    "Verif.Props.C17_parts_number"
   ],
   "note": ""
  },
  {
   "property": "C18",
   "status": "proved",
   "theorems": [
    "Verif.Props.C18_random_data_usable"
   ],
   "note": "for a working random generator; see C64 for a failing one"
  },
  {
   "property": "C19",
   "status": "partial",
   "theorems": [
    "Verif.Props.C19_valid_sound_partial",
    "Verif.Props.C19_valid_exact_partial",
    "Verif.Props.C19_late_completion_unnoticed",
    "Verif.Props.C19_getters"
   ],
   "note": "soundness of 'valid' for all histories, exactness for histories that do not change shared data after handing it over; C19_late_completion_unnoticed is the counterexample in general"
  },
  {
   "property": "C20",
   "status": "proved",
   "theorems": [
    "Verif.Props.C20_decrypt_encrypt",
    "Verif.Props.C20_encrypt_decrypt"
   ],
   "note": "both directions, data below 2^31 bytes (see C24)"
  },
  {
   "property": "C21",
   "status": "proved",
   "theorems": [
    "Verif.Props.C21_length"
   ],
   "note": ""
  },
  {
   "property": "C22",
   "status": "proved",
   "theorems": [
    "Verif.Props.C22_pieces",
    "Verif.Props.C22_no_piece_undefined"
   ],
   "note": "at least one piece must be added: fetching the result of an untouched chain is undefined behaviour (C22_no_piece_undefined)"
  },
  {
   "property": "C23",
   "status": "proved",
   "theorems": [
    "Verif.Props.C23_stream",
    "Verif.Props.C23_short_stream"
   ],
   "note": ""
  },
  {
   "property": "C24",
   "status": "partial",
   "theorems": [
    "Verif.Props.C24_succeeds_partial",
    "Verif.Props.C24_big_never_succeeds"
   ],
   "note": "holds below 2^31 bytes per call; violated from 2^31 bytes on (C24_big_never_succeeds)"
  },
  {
   "property": "C25",
   "status": "proved",
   "theorems": [
    "Verif.Props.C25_prefix"
   ],
   "note": ""
  },
  {
   "property": "C26",
   "status": "proved",
   "theorems": [
    "Verif.Props.C26_encryption",
    "Verif.Props.C26_decryption"
   ],
   "note": ""
  },
  {
   "property": "C27",
   "status": "proved",
   "theorems": [
    "Verif.Props.C27_construction",
    "Verif.Props.C27_refused"
   ],
   "note": ""
  },
  {
   "property": "C28",
   "status": "partial",
   "theorems": [
    "Verif.Props.C28_height_always_zero",
    "Verif.Props.C28_violated",
    "Verif.Props.C28_fresh_partial"
   ],
   "note": "violated: the height is never updated (C28_height_always_zero, C28_violated); only a fresh chain reports correctly"
  },
  {
   "property": "C29",
   "status": "partial",
   "theorems": [
    "Verif.Props.C29_streaming_terminates",
    "Verif.Props.C29_construction_partial",
    "Verif.Props.C29_repaired_partial",
    "Verif.Props.C29_repaired_calls_partial",
    "Verif.Props.C29_violated_ragged"
   ],
   "note": "violated: the streaming chain terminates the process on every first use; only the acceptance of key material agrees; with room for the seed it would encrypt whole blocks as documented, also over several calls (C29_repaired_partial, C29_repaired_calls_partial) and still die on all other data (C29_violated_ragged)"
  },
  {
   "property": "C30",
   "status": "proved",
   "theorems": [
    "Verif.Props.C30_round_trip"
   ],
   "note": "for every header object a program can hold (new, parsed, from parts, changed by any calls) with non-empty data blocks; data blocks of zero bytes can be written but kill the parser (C34)"
  },
  {
   "property": "C31",
   "status": "proved",
   "theorems": [
    "Verif.Props.C31_size",
    "Verif.Props.C31_documented_bounds",
    "Verif.Props.C31_bounds_sharp"
   ],
   "note": ""
  },
  {
   "property": "C32",
   "status": "proved",
   "theorems": [
    "Verif.Props.C32_current",
    "Verif.Props.C32_cleared",
    "Verif.Props.C32_recomputed"
   ],
   "note": ""
  },
  {
   "property": "C33",
   "status": "proved",
   "theorems": [
    "Verif.Props.C33_accepted",
    "Verif.Props.C33_memory"
   ],
   "note": "stream parser; C33_memory gives the same for the memory parser except the announced file size, which it does not check"
  },
  {
   "property": "C34",
   "status": "partial",
   "theorems": [
    "Verif.Props.C34_killed_iff_partial",
    "Verif.Props.C34_violated"
   ],
   "note": "violated (C34_violated); the exact set of killing inputs is characterised by C34_killed_iff_partial"
  },
  {
   "property": "C35",
   "status": "partial",
   "theorems": [
    "Verif.Props.C35_agree_iff_partial",
    "Verif.Props.C35_violated"
   ],
   "note": "violated (C35_violated); C35_agree_iff_partial characterises exactly when the memory parser reads a written header, and both objects are equal then"
  },
  {
   "property": "C36",
   "status": "partial",
   "theorems": [
    "Verif.Props.C36_sum_partial",
    "Verif.Props.C36_wraps",
    "Verif.Props.C36_file_size",
    "Verif.Props.C36_violated"
   ],
   "note": "violated from a sum of 2^32 on (C36_wraps, C36_violated); holds below, and for setFileSize without restriction"
  },
  {
   "property": "C37",
   "status": "partial",
   "theorems": [
    "Verif.Props.C37_round_trip_partial",
    "Verif.Props.C37_violated",
    "Verif.Props.C37_decrypt_partial"
   ],
   "note": "violated: blocks of fewer than 255 bytes are refused (C37_violated); 255 bytes round trip, and decryption is right for every block encrypted as documented"
  },
  {
   "property": "C38",
   "status": "partial",
   "theorems": [
    "Verif.Props.C38_type_iff_partial",
    "Verif.Props.C38_violated"
   ],
   "note": "violated: the type is stored in plain and comes back shifted (C38_type_iff_partial, C38_violated)"
  },
  {
   "property": "C39",
   "status": "proved",
   "theorems": [
    "Verif.Props.C39_iters_values",
    "Verif.Props.C39_iters_accepts",
    "Verif.Props.C39_iters_complete",
    "Verif.Props.C39_time_values",
    "Verif.Props.C39_time_accepts",
    "Verif.Props.C39_time_complete"
   ],
   "note": "Setters of the iterations and time settings over any history of calls: the stored value is always the last accepted one, a call is accepted exactly when the value is in range, and isComplete holds exactly when every setting has an accepted value."
  },
  {
   "property": "C40",
   "status": "proved",
   "theorems": [
    "Verif.Props.C40_verified",
    "Verif.Props.C40_without_hash"
   ],
   "note": ""
  },
  {
   "property": "C41",
   "status": "partial",
   "theorems": [
    "Verif.Props.C41_unchanged",
    "Verif.Props.C41_wrong_state_partial",
    "Verif.Props.C41_settings_checked_first"
   ],
   "note": "every refused call leaves session and disk alone (C41_unchanged); the reported code is the invalid-state error except for incomplete settings, which are checked first (C41_settings_checked_first)"
  },
  {
   "property": "C42",
   "status": "proved",
   "theorems": [
    "Verif.Props.C42_password_given",
    "Verif.Props.C42_only_there",
    "Verif.Props.C42_plaintext"
   ],
   "note": "for every history from a new session; C42_plaintext adds what the handed out bytes are, for data of less than 2^31 bytes (see C24)"
  },
  {
   "property": "C43",
   "status": "proved",
   "theorems": [
    "Verif.Props.C43_accepts_exactly",
    "Verif.Props.C43_creating_password",
    "Verif.Props.C43_refused_unchanged"
   ],
   "note": "for every file that can be selected; the clock is assumed to stay below 2^64 ms in one check (the code subtracts in 64 bits even without a timeout)"
  },
  {
   "property": "C44",
   "status": "proved",
   "theorems": [
    "Verif.Props.C44_end_to_end",
    "Verif.Props.C44_any_history"
   ],
   "note": "data of less than 2^31 bytes (see C24), no time limit in the password check, working disk and random source; C44_any_history for sessions that got there in any way"
  },
  {
   "property": "C45",
   "status": "proved",
   "theorems": [
    "Verif.Props.C45_logout_forgets",
    "Verif.Props.C45_later_history",
    "Verif.Props.C45_new_is_blank",
    "Verif.Props.C45_mode_ignored"
   ],
   "note": "for every history from a new session; the file mode stays the one the session was created with"
  },
  {
   "property": "C46",
   "status": "proved",
   "theorems": [
    "Verif.Props.C46_step",
    "Verif.Props.C46_quiet",
    "Verif.Props.C46_unnamed",
    "Verif.Props.C46_create",
    "Verif.Props.C46_delete",
    "Verif.Props.C46_write",
    "Verif.Props.C46_wrong_password"
   ],
   "note": "every history, every environment; calls that kill the process are outside of the statement except as described in DESIGN.md"
  },
  {
   "property": "C47",
   "status": "proved",
   "theorems": [
    "Verif.Props.C47_write_path"
   ],
   "note": ""
  },
  {
   "property": "C48",
   "status": "partial",
   "theorems": [
    "Verif.Props.C48_states_partial",
    "Verif.Props.C48_complete_partial",
    "Verif.Props.C48_old_or_new_partial",
    "Verif.Props.C48_other_file_partial",
    "Verif.Props.C48_any_part",
    "Verif.Props.C48_other_any_part",
    "Verif.Props.C48_violated_empty",
    "Verif.Props.C48_violated_torn"
   ],
   "note": "violated: the file is emptied before it is written, so an interrupted save can lose old and new content (C48_violated_empty, C48_violated_torn); proved: every state an interrupted save can leave, other files untouched, a torn file is never opened as one with a header, and every first part of the new content can be what an interruption leaves (C48_any_part, C48_other_any_part)"
  },
  {
   "property": "C49",
   "status": "partial",
   "theorems": [
    "Verif.Props.C49_selected_partial",
    "Verif.Props.C49_path_partial",
    "Verif.Props.C49_violated",
    "Verif.Props.C49_violated_lost"
   ],
   "note": "violated: success is reported though a full disk cut the file off (C49_violated, C49_violated_lost); proved: the file has the first bytes of the right content, all of them if the disk takes them"
  },
  {
   "property": "C50",
   "status": "partial",
   "theorems": [
    "Verif.Props.C50_all_files_partial",
    "Verif.Props.C50_no_listing",
    "Verif.Props.C50_always_empty",
    "Verif.Props.C50_errors_partial",
    "Verif.Props.C50_violated",
    "Verif.Props.C50_default_dir_partial",
    "Verif.Props.C50_violated_default",
    "Verif.Props.C50_no_effect",
    "Verif.Props.C50_no_effect_many",
    "Verif.Props.C50_relevance_partial"
   ],
   "note": "violated: a successful listing of relevant files is always empty (C50_always_empty for every directory, C50_violated as a concrete case); the listing of all .enc files it starts from is exact (C50_all_files_partial), its failures are characterised by C50_no_listing; the default directory: C50_default_dir_partial, C50_violated_default (a regular file in its place is accepted and listing it ends the process); a listing leaves sessions and disk as they are (C50_no_effect, C50_no_effect_many)"
  },
  {
   "property": "C51",
   "status": "partial",
   "theorems": [
    "Verif.Props.C51_timeout_partial",
    "Verif.Props.C51_exactly_partial",
    "Verif.Props.C51_overrun_ignored",
    "Verif.Props.C51_violated"
   ],
   "note": "violated: when the first chain hash ends after the limit the remaining time wraps around to almost 2^64 ms (C51_overrun_ignored, C51_violated); holds when the limit is seen inside the first chain hash or hit exactly, and without timeout"
  },
  {
   "property": "C52",
   "status": "proved",
   "theorems": [
    "Verif.Props.C52_success_in_time",
    "Verif.Props.C52_exactly",
    "Verif.Props.C52_failure_unchanged",
    "Verif.Props.C52_no_timeout"
   ],
   "note": "settings built with the public setters; C52_exactly assumes working randomness and at most 255 blocks of each kind"
  },
  {
   "property": "C53",
   "status": "partial",
   "theorems": [
    "Verif.Props.C53_second_flaw",
    "Verif.Props.C53_repaired_partial",
    "Verif.Props.C53_third_flaw",
    "Verif.Props.C53_terminates",
    "Verif.Props.C53_reported_partial"
   ],
   "note": "violated: with complete settings it always terminates the process (C53_terminates); only incomplete settings and wrong states are reported; behind the first flaw are two more: the timed chain hashing throws (C53_second_flaw), and above 10^9 iterations the result cannot be stored (C53_third_flaw); with the first two repaired the code makes the header of the iterations done in the time (C53_repaired_partial)"
  },
  {
   "property": "C54",
   "status": "partial",
   "theorems": [
    "Verif.Props.C54_no_crash_partial",
    "Verif.Props.C54_stays_tame_partial",
    "Verif.Props.C54_select_dies",
    "Verif.Props.C54_null_dies",
    "Verif.Props.C54_delete_dies",
    "Verif.Props.C54_unreachable_dies",
    "Verif.Props.C54_salt_dies",
    "Verif.Props.C54_violated"
   ],
   "note": "Violated: selecting or listing crafted files, paths whose status cannot be determined, listing a file, null arguments, a failing random source, refused removal, run-time based headers and data blocks without content kill the process (C54_violated, C54_*_dies; C54_select_dies is an equivalence). Proved: outside of these circumstances every history of a new session runs through."
  },
  {
   "property": "C55",
   "status": "proved",
   "theorems": [
    "Verif.Props.C55_change_password"
   ],
   "note": "data of less than 2^31 bytes, working disk and random source; which passwords the new file accepts is characterised exactly (a collision of the chain hash is the only way for the old one to be accepted)"
  },
  {
   "property": "C56",
   "status": "partial",
   "theorems": [
    "Verif.Props.C56_keeps_partial",
    "Verif.Props.C56_reopen_partial",
    "Verif.Props.C56_violated_blocks"
   ],
   "note": "violated: encrypted data blocks do not decrypt after the salt was changed (C56_violated_blocks); everything else of the property is proved"
  },
  {
   "property": "C57",
   "status": "partial",
   "theorems": [
    "Verif.Props.C57_once_partial",
    "Verif.Props.C57_nothing_after_decrypting",
    "Verif.Props.C57_violated"
   ],
   "note": "violated for decrypted files: the fetch always reports that nothing is there (C57_nothing_after_decrypting, C57_violated); holds for newly created headers"
  },
  {
   "property": "C58",
   "status": "partial",
   "theorems": [
    "Verif.Props.C58_access_partial",
    "Verif.Props.C58_move_once",
    "Verif.Props.C58_never_copied",
    "Verif.Props.C58_readable",
    "Verif.Props.C58_violated"
   ],
   "note": "Reading accesses only hand out a value that is there, over every history; a second returnMove hands out a moved-out object (violated, witness proved)."
  },
  {
   "property": "C59",
   "status": "partial",
   "theorems": [
    "Verif.Props.C59_protocol",
    "Verif.Props.C59_answers",
    "Verif.Props.C59_refused",
    "Verif.Props.C59_total_partial",
    "Verif.Props.C59_violated"
   ],
   "note": "Protocol, laps, slowest and average match an ideal stop watch over every history; the total time is average times laps and loses up to 2 ms per lap (violated, witness proved, bounds proved). C59_answers: the answers of a history come in the order of the calls."
  },
  {
   "property": "C60",
   "status": "partial",
   "theorems": [
    "Verif.Props.C60_range_partial",
    "Verif.Props.C60_violated",
    "Verif.Props.C60_refused"
   ],
   "note": "Range proved and every value below the upper bound reachable; the upper bound itself never occurs (proved for all inputs)."
  },
  {
   "property": "C61",
   "status": "proved",
   "theorems": [
    "Verif.Props.C61_exact",
    "Verif.Props.C61_length_letters",
    "Verif.Props.C61_zero"
   ],
   "note": "Exact result of the string generator for every random output; termination needs enough letters to be delivered, as stated."
  },
  {
   "property": "C62",
   "status": "proved",
   "theorems": [
    "Verif.Props.C62_accepts",
    "Verif.Props.C62_sizes",
    "Verif.Props.C62_refusal",
    "Verif.Props.C62_directory"
   ],
   "note": "for regular files of every content and every delivery schedule; C62_directory adds what happens for directories"
  },
  {
   "property": "C63",
   "status": "partial",
   "theorems": [
    "Verif.Props.C63_open",
    "Verif.Props.C63_create",
    "Verif.Props.C63_errors_partial",
    "Verif.Props.C63_unreachable"
   ],
   "note": "acceptance is exact for opening and creating; the error of the first failed condition is proved for paths whose status can be determined, for others the process ends (C63_unreachable)"
  },
  {
   "property": "C64",
   "status": "proved",
   "theorems": [
    "Verif.Props.C64_fill_container",
    "Verif.Props.C64_create",
    "Verif.Props.C64_bytes",
    "Verif.Props.C64_change_salt"
   ],
   "note": "header creation and changing the salt, for every request that may fail"
  },
  {
   "property": "C65",
   "status": "partial",
   "theorems": [
    "Verif.Props.C65_never",
    "Verif.Props.C65_load_exactly",
    "Verif.Props.C65_empty_partial",
    "Verif.Props.C65_not_three",
    "Verif.Props.C65_violated",
    "Verif.Props.C65_failed_load_kills"
   ],
   "note": "Violated: no list with an entry survives (C65_never); loading is characterised exactly (C65_load_exactly); only the empty list round trips. The file is not part of the build and read as text."
  },
  {
   "property": "C66",
   "status": "proved",
   "theorems": [
    "Verif.Props.C66_search",
    "Verif.Props.C66_sorted_and_empty",
    "Verif.Props.C66_order",
    "Verif.Props.C66_add_refused"
   ],
   "note": "The file is not part of the build and read as text; iteration order of the map and the sort are arbitrary. Removing and editing are empty functions in the code."
  },
  {
   "property": "C67",
   "status": "partial",
   "theorems": [
    "Verif.Props.C67_no_leak_partial",
    "Verif.Props.C67_one_buffer_each_partial",
    "Verif.Props.C67_move_keeps_buffer",
    "Verif.Props.C67_violated"
   ],
   "note": "Violated by assigning to a moved-from container (C67_violated). Proved for proper programs."
  },
  {
   "property": "C68",
   "status": "partial",
   "theorems": [
    "Verif.Props.C68_content_partial",
    "Verif.Props.C68_unreadable_partial",
    "Verif.Props.C68_violated_big",
    "Verif.Props.C68_violated_stale",
    "Verif.Props.C68_first_bytes_partial"
   ],
   "note": "Violated for files of 2^32 bytes and more, of which only the first (size mod 2^32) bytes come back (C68_violated_big), and for files that were empty when selected (C68_violated_stale). Proved for all others, whatever other programs did to the file in between."
  },
  {
   "property": "C69",
   "status": "partial",
   "theorems": [
    "Verif.Props.C69_valid_sound_partial",
    "Verif.Props.C69_valid_exact_partial",
    "Verif.Props.C69_violated_late",
    "Verif.Props.C69_getters",
    "Verif.Props.C69_assign",
    "Verif.Props.C69_violated_uninitialised",
    "Verif.Props.C69_undefined_iff_partial",
    "Verif.Props.C69_defined_partial"
   ],
   "note": "Violated: completing the data late goes unnoticed (C69_violated_late), and the default constructor leaves the run time uninitialised, which the validity check reads (C69_violated_uninitialised). Proved: soundness over all programs, exactness for programs that leave handed-over data alone, and the exact set of programs with undefined behaviour."
  },
  {
   "property": "C70",
   "status": "partial",
   "theorems": [
    "Verif.Props.C70_distinct",
    "Verif.Props.C70_identify_partial",
    "Verif.Props.C70_violated_ambiguous",
    "Verif.Props.C70_violated_echo",
    "Verif.Props.C70_verbose",
    "Verif.Props.C70_success",
    "Verif.Props.C70_info_partial",
    "Verif.Props.C70_violated_hidden"
   ],
   "note": "Violated: with information attached, messages of different codes coincide (C70_violated_ambiguous, C70_violated_echo), and fifteen codes hide the information (C70_violated_hidden). Proved without information for all codes, and with it for all codes outside of the two lists."
  },
  {
   "property": "C71",
   "status": "proved",
   "theorems": [
    "Verif.Props.C71_hash_modes",
    "Verif.Props.C71_hash_function",
    "Verif.Props.C71_chain_modes",
    "Verif.Props.C71_file_modes",
    "Verif.Props.C71_names",
    "Verif.Props.C71_formats",
    "Verif.Props.C71_bytes",
    "Verif.Props.C71_texts"
   ],
   "note": "all 32-bit numbers, the texts they give included; enumerations are assumed to keep numbers without enumerator, see the trusted base"
  },
  {
   "property": "C72",
   "status": "partial",
   "theorems": [
    "Verif.Props.C72_violated_key_stream",
    "Verif.Props.C72_fresh_salt_partial"
   ],
   "note": "Violated in every history: saving again without changeSalt reuses the key stream (C72_violated_key_stream). After changeSalt the salt consists of new random bytes (C72_fresh_salt_partial), and with another salt every whole block is encrypted with other bytes unless hashes or sums of hashes meet (C107_key)."
  },
  {
   "property": "C73",
   "status": "partial",
   "theorems": [
    "Verif.Props.C73_violated_rollback",
    "Verif.Props.C73_violated_data",
    "Verif.Props.C73_violated_header",
    "Verif.Props.C73_length_partial"
   ],
   "note": "Violated: any change of the data section of the same length, and of salt and data blocks in the header, goes unnoticed (C73_violated_data, C73_violated_header), and so does an older version put back in its place (C73_violated_rollback). A changed length is always noticed (C73_length_partial)."
  },
  {
   "property": "C74",
   "status": "proved",
   "theorems": [
    "Verif.Props.C74_call",
    "Verif.Props.C74_history"
   ],
   "note": "every history from a new session, including outside changes"
  },
  {
   "property": "C75",
   "status": "partial",
   "theorems": [
    "Verif.Props.C75_answer_partial",
    "Verif.Props.C75_refused",
    "Verif.Props.C75_directory_partial",
    "Verif.Props.C75_violated_directory",
    "Verif.Props.C75_violated_unreachable"
   ],
   "note": "Violated: a directory with a fitting name for which the system reports the size 0 is selected as an empty file (C75_violated_directory); a path whose status cannot be determined ends the process (C75_violated_unreachable). Proved for all other paths: regular files of less than 2^63 bytes with a working random source (C75_answer_partial), other directories (C75_directory_partial), wrong, missing and unreadable paths (C75_refused); which error a damaged header is given is C94."
  },
  {
   "property": "C76",
   "status": "proved",
   "theorems": [
    "Verif.Props.C76_listings",
    "Verif.Props.C76_ideal",
    "Verif.Props.C76_described",
    "Verif.Props.C76_determined",
    "Verif.Props.C76_durable"
   ],
   "note": "forward simulation of every call; listings in between change nothing (C76_listings), what they answer is C50; boxes hold less than 2 GB, calls with a time limit may time out; the ideal vault is deterministic but for time limits (C76_determined)"
  },
  {
   "property": "C77",
   "status": "partial",
   "theorems": [
    "Verif.Props.C77_file_mode",
    "Verif.Props.C77_hash_mode",
    "Verif.Props.C77_chain_mode",
    "Verif.Props.C77_iterations",
    "Verif.Props.C77_password_partial",
    "Verif.Props.C77_violated_endless",
    "Verif.Props.C77_violated_endless_witness",
    "Verif.Props.C77_violated_text",
    "Verif.Props.C77_dialogue_partial",
    "Verif.Props.C77_answers_usable"
   ],
   "note": "Violated: text after a number and blanks before it are ignored by the mode questions (C77_violated_text), and the password question repeats for ever when the input ends (C77_violated_endless). Proved: each question returns exactly the first acceptable line, the answers make valid settings. The file is not part of the build and read as text."
  },
  {
   "property": "C78",
   "status": "partial",
   "theorems": [
    "Verif.Props.C78_remembered",
    "Verif.Props.C78_start_partial",
    "Verif.Props.C78_unchanged_partial",
    "Verif.Props.C78_violated_emptied",
    "Verif.Props.C78_enc_iff",
    "Verif.Props.C78_violated_name",
    "Verif.Props.C78_usable_partial",
    "Verif.Props.C78_violated_endless"
   ],
   "note": "Violated: a file that may be written but not read is emptied (C78_violated_emptied), the name .enc is taken but never usable (C78_violated_name), empty input repeats the question for ever (C78_violated_endless). Proved for all other cases. The file is not part of the build and read as text; remembering the path uses a call that no longer exists and is not modelled."
  },
  {
   "property": "C79",
   "status": "proved",
   "theorems": [
    "Verif.Props.C79_call",
    "Verif.Props.C79_isolated",
    "Verif.Props.C79_sessions",
    "Verif.Props.C79_together",
    "Verif.Props.C79_ideal",
    "Verif.Props.C79_durable"
   ],
   "note": "Calls of different sessions take turns; they do not overlap in time (see C83). Listing a directory names the directory and the paths directly in it. The theorems about saved data assume what C76 assumes."
  },
  {
   "property": "C80",
   "status": "proved",
   "theorems": [
    "Verif.Props.C80_ideal",
    "Verif.Props.C80_described",
    "Verif.Props.C80_faultless",
    "Verif.Props.C80_backup",
    "Verif.Props.C80_durable",
    "Verif.Props.C80_listings"
   ],
   "note": "every call; listings in between change nothing (C80_listings), when they end the process is C50 and C54; the random source works, removing is never refused (both end the process, C54), directories are not reported as empty, other programs leave no files that kill the process (C54) and do not touch the selected file before it is decrypted"
  },
  {
   "property": "C81",
   "status": "proved",
   "theorems": [
    "Verif.Props.C81_listings",
    "Verif.Props.C81_ideal",
    "Verif.Props.C81_described",
    "Verif.Props.C81_handover",
    "Verif.Props.C81_durable"
   ],
   "note": "Listings in between change nothing (C81_listings). Calls of different sessions take turns; they do not overlap in time (see C83). Assumptions on the outside as in C80; nobody replaces or removes a file that another session has selected and not yet decrypted (without that: C82_violated_stale)"
  },
  {
   "property": "C82",
   "status": "partial",
   "theorems": [
    "Verif.Props.C82_violated_lost_update",
    "Verif.Props.C82_turns_partial",
    "Verif.Props.C82_violated_stale"
   ],
   "note": "Violated: of two sessions that have the file open the one that saves later silently undoes the other (C82_violated_lost_update, for all data and histories); a session with a file selected keeps the old header, accepts the old password and shows data nobody saved (C82_violated_stale). Proved: nothing is lost among sessions that take turns (C82_turns_partial)."
  },
  {
   "property": "C83",
   "status": "partial",
   "theorems": [
    "Verif.Props.C83_serial_partial",
    "Verif.Props.C83_finish_partial",
    "Verif.Props.C83_alone",
    "Verif.Props.C83_ideal_partial",
    "Verif.Props.C83_alone_dies",
    "Verif.Props.C83_violated_create",
    "Verif.Props.C83_violated_save",
    "Verif.Props.C83_violated_read",
    "Verif.Props.C83_violated_delete",
    "Verif.Props.C83_violated_lost"
   ],
   "note": "Violated for calls that clash (one may change a path the other looks at): two sessions create the same file and both are told so (C83_violated_create), two saves to one file report success and leave a mixture nobody can open (C83_violated_save), a select during a save finds the file empty (C83_violated_read), a file deleted during a save is there afterwards (C83_violated_delete), or a successful save leaves nothing (C83_violated_lost). Proved for calls that do not clash: every interleaving of accesses equals the calls in the order in which they start, survives if they do, can be finished, and hence C81 carries over (C83_serial_partial, C83_finish_partial, C83_ideal_partial); a call alone equals the call in one go (C83_alone, C83_alone_dies). Reading what a call wants from an open file, and writing the data into an open file, count as one access each."
  },
  {
   "property": "C84",
   "status": "partial",
   "theorems": [
    "Verif.Props.C84_equal_partial",
    "Verif.Props.C84_blocks_partial",
    "Verif.Props.C84_violated_modes",
    "Verif.Props.C84_violated_self"
   ],
   "note": "Violated: the mode is not compared (C84_violated_modes), and an object with a missing part does not equal itself (C84_violated_self). Proved for complete objects of one mode (C84_equal_partial); across modes equality means the same bytes (C84_blocks_partial)."
  },
  {
   "property": "C85",
   "status": "partial",
   "theorems": [
    "Verif.Props.C85_shelf_partial",
    "Verif.Props.C85_once",
    "Verif.Props.C85_closed",
    "Verif.Props.C85_violated_refill",
    "Verif.Props.C85_violated_header"
   ],
   "note": "Violated: content set after the first was taken can never be fetched (C85_violated_refill); a missing header is answered with bad_optional_access (C85_violated_header). Proved for all other histories (C85_shelf_partial); C85_once and C85_closed hold without restriction. Nothing in the present code uses the struct."
  },
  {
   "property": "C86",
   "status": "partial",
   "theorems": [
    "Verif.Props.C86_view",
    "Verif.Props.C86_view_dies",
    "Verif.Props.C86_shadow",
    "Verif.Props.C86_shadow_dies",
    "Verif.Props.C86_one_name_partial",
    "Verif.Props.C86_violated_delete",
    "Verif.Props.C86_violated_save",
    "Verif.Props.C86_violated_alias",
    "Verif.Props.C86_no_zero_byte",
    "Verif.Props.C86_violated_ending",
    "Verif.Props.C86_violated_zero_byte"
   ],
   "note": "Violated: the path is kept as it was given and looked up anew at each call, so that after a change of the current directory a session deletes (C86_violated_delete) or overwrites (C86_violated_save) another file than the selected one; sessions that keep to different names of one file get into each other's way (C86_violated_alias). Proved: what a call does through the names, exactly (C86_view, C86_view_dies); every history equals one in which names are files of their own and those that share a place or change their meaning are changed by other programs (C86_shadow, C86_shadow_dies); with one name for each file names are as good as files (C86_one_name_partial). Also violated: the system gets a path only up to its first zero byte while the code checks the ending of the whole path, so that every file has a name that passes for an .enc file (C86_violated_ending, C86_violated_zero_byte; C86_no_zero_byte: no such thing without zero bytes). Links in the last part of a path are in C103."
  },
  {
   "property": "C87",
   "status": "partial",
   "theorems": [
    "Verif.Props.C87_unchanged",
    "Verif.Props.C87_appends_partial",
    "Verif.Props.C87_appends_room",
    "Verif.Props.C87_violated_full",
    "Verif.Props.C87_saved_partial",
    "Verif.Props.C87_refuses",
    "Verif.Props.C87_new_partial",
    "Verif.Props.C87_new_then_append",
    "Verif.Props.C87_new_unchanged"
   ],
   "note": "Violated: on a full disk the program reports a successful save and nothing is left of the file (C87_violated_full). Proved: the file grows by the five bytes if there is room (C87_appends_partial, C87_appends_room, C87_saved_partial), a file the password does not open makes the program break off (C87_refuses), and without a reported save nothing changes, whatever the outside does (C87_unchanged); the same for the branch that is switched off (C87_new_partial, C87_new_then_append, C87_new_unchanged). main.cpp does not compile against the present classes and is read as text with the present calls; logging and time measurement are not modelled."
  },
  {
   "property": "C88",
   "status": "partial",
   "theorems": [
    "Verif.Props.C88_one_block_partial",
    "Verif.Props.C88_violated_difference",
    "Verif.Props.C88_violated_known",
    "Verif.Props.C88_violated_validator"
   ],
   "note": "Violated, whatever the hash function: all encrypted data blocks of a header use the same key stream, so two of them differ exactly as their contents do (C88_violated_difference) and one known block gives away all others (C88_violated_known); with the plain chain hash and one iteration for the validator, which the settings allow, the validator in the header is the key of the blocks and everybody reads them (C88_violated_validator). Proved: a single block is its contents plus the key stream, and any other contents fit with another key stream (C88_one_block_partial). Secrecy of the key stream itself cannot be expressed without assumptions about the hash functions."
  },
  {
   "property": "C89",
   "status": "proved",
   "theorems": [
    "Verif.Props.C89_collision",
    "Verif.Props.C89_other_password",
    "Verif.Props.C89_nothing_else"
   ],
   "note": "Whether the hash functions have collisions that can be found is an assumption about them and not part of the model. The time limit is part of the outside; in C89_nothing_else both runs have the same clock."
  },
  {
   "property": "C90",
   "status": "proved",
   "theorems": [
    "Verif.Props.C90_lengths",
    "Verif.Props.C90_compression",
    "Verif.Props.C90_refused"
   ],
   "note": "That OpenSSL computes the functions of FIPS 180-4 is assumed here and nowhere else; Model/Sha2 writes them out and Validation/UnitTests runs the vectors of the project's own tests on them. Whether collisions of the compression function can be found is not part of the model. The bound on the input is that of the standard (2^61 bytes for SHA-256); no password of the program comes near."
  },
  {
   "property": "C91",
   "status": "partial",
   "theorems": [
    "Verif.Props.C91_search_partial",
    "Verif.Props.C91_short_partial",
    "Verif.Props.C91_violated_long",
    "Verif.Props.C91_violated_result",
    "Verif.Props.C91_violated_memory",
    "Verif.Props.C91_confirmed_partial",
    "Verif.Props.C91_violated_never"
   ],
   "note": "Violated in three ways: the number of passwords of a length is counted in 64 bits, so from ten characters on passwords are left out, of those with eleven and more nearly all and of those with 64 and more all (C91_violated_long, C91_violated_never with a witness); the result handed out is the validator instead of the hash of the password, so the harness does not recognise it (C91_violated_result); the result is not initialised, and a stray timeout value ends the search after one character (C91_violated_memory). Proved: the harness confirms nothing without a password that opens the file (C91_confirmed_partial); the exact set and order of passwords tried and the number of tries (C91_search_partial), hence every password of up to nine characters is found (C91_short_partial). The attacker is switched off in the build and read as text."
  },
  {
   "property": "C92",
   "status": "partial",
   "theorems": [
    "Verif.Props.C92_returns",
    "Verif.Props.C92_headers_partial",
    "Verif.Props.C92_read_partial",
    "Verif.Props.C92_unittest_partial",
    "Verif.Props.C92_refused",
    "Verif.Props.C92_violated_kinds",
    "Verif.Props.C92_violated_iterations"
   ],
   "note": "Violated: the upper bound of the random numbers is never reached, so quadratic chain hashes never occur, SHA-512, 255 blocks or blocks of 255 bytes only on request or never (C92_violated_kinds, for all random sources), and a number of iterations can be zero, which both parsers refuse (C92_violated_iterations). Proved: the generator returns (C92_returns), what it returns is a header as asked for with right sizes (C92_headers_partial), and exactly when it is read by each of the parsers (C92_read_partial, C92_unittest_partial)."
  },
  {
   "property": "C93",
   "status": "partial",
   "theorems": [
    "Verif.Props.C93_changes_nothing",
    "Verif.Props.C93_histories_partial",
    "Verif.Props.C93_check",
    "Verif.Props.C93_encrypt",
    "Verif.Props.C93_violated_guess",
    "Verif.Props.C93_violated_refused",
    "Verif.Props.C93_violated_char",
    "Verif.Props.C93_allowed",
    "Verif.Props.C93_violated_demo"
   ],
   "note": "Violated: while a header is created the log receives everything needed to test passwords (hash mode, both chain hashes, validator), before anything is saved (C93_violated_guess) and even when the creation is refused (C93_violated_refused); the check of a new password logs a character of it (C93_violated_char); the demonstration program writes the whole decrypted content to its log (C93_violated_demo). Proved: beyond that the log says nothing: histories that differ only in secrets and look the same otherwise (answers, disk, header in memory) leave the same log (C93_histories_partial); password checks and encryption without any such condition (C93_check, C93_encrypt, C93_allowed); logging changes nothing (C93_changes_nothing). The lines of the file handler and the parser are arbitrary functions of what these see; some refusal lines are left out (Model/Log)."
  },
  {
   "property": "C94",
   "status": "partial",
   "theorems": [
    "Verif.Props.C94_flaw_partial",
    "Verif.Props.C94_classified",
    "Verif.Props.C94_codes",
    "Verif.Props.C94_select",
    "Verif.Props.C94_violated_short",
    "Verif.Props.C94_violated_size"
   ],
   "note": "Violated: the damaged headers that end the process get no error (C34_violated); a chain hash of mode 4 announcing fewer than eight bytes is reported as missing data although all bytes are there (C94_violated_short); a file ending behind the salt is reported for its file size, which is right (C94_violated_size). Proved: apart from the deadly ones, every byte string is either headed or has exactly one first flaw, and the error is the one that belongs to it, for the parser and for selecting a file. Working random source."
  },
  {
   "property": "C95",
   "status": "partial",
   "theorems": [
    "Verif.Props.C95_pad",
    "Verif.Props.C95_any",
    "Verif.Props.C95_file",
    "Verif.Props.C95_versions_partial",
    "Verif.Props.C95_violated_versions",
    "Verif.Props.C95_coincidence"
   ],
   "note": "Violated for several versions saved with the same salt, which is how the program saves again (C72): the first blocks of the ciphertexts differ exactly as the contents do, for every hash function (C95_violated_versions). Proved: the key stream is exactly the hashes of the key inputs, which one-time-pads the data (C95_pad); any content of the length fits any ciphertext (C95_any) and any file, opened through the API with the same password (C95_file); versions whose inputs do not coincide are independent (C95_versions_partial). The condition that no inputs coincide is needed (C95_coincidence). Perfect secrecy relative to unknown hash values; no claim about computational cost."
  },
  {
   "property": "C96",
   "status": "partial",
   "theorems": [
    "Verif.Props.C96_all_rounds",
    "Verif.Props.C96_cost",
    "Verif.Props.C96_session",
    "Verif.Props.C96_optimal",
    "Verif.Props.C96_search",
    "Verif.Props.C96_content",
    "Verif.Props.C96_violated_known",
    "Verif.Props.C96_violated_file"
   ],
   "note": "Violated for those who know how the content of a file begins: the key stream is made from the password hash, which is the result of the first chain hash, so the rounds of the second can be skipped; the first chain hash and three more hashes rule a password out (C96_violated_known, C96_violated_file). Proved, in the model where programs learn about the hash function only by asking for hashes: whoever answers for every hash function whether a password opens a file asks for all inputs of the check (C96_all_rounds, C96_session), hence the sum of both numbers of iterations unless inputs repeat (C96_cost); the same for lists of wrong passwords (C96_search); the check attains the bound (C96_optimal); the first byte of the content needs the first chain hash and three more (C96_content)."
  },
  {
   "property": "C97",
   "status": "partial",
   "theorems": [
    "Verif.Props.C97_stored_partial",
    "Verif.Props.C97_violated"
   ],
   "note": "Violated: the stored salt is used as it is, so anybody can read it; the result is not the encryption with the salt obtained by subtracting the password hash (docs/doc.md) nor by XOR with it (docs/dataheader.md), shown with SHA-256 (C97_violated). Proved instead: for every file and all hash functions, the content shown goes with the data under the stored salt (C97_stored_partial)."
  },
  {
   "property": "C98",
   "status": "partial",
   "theorems": [
    "Verif.Props.C98_update",
    "Verif.Props.C98_sizes_partial",
    "Verif.Props.C98_violated_sizes",
    "Verif.Props.C98_write_safe_partial",
    "Verif.Props.C98_violated_twice",
    "Verif.Props.C98_violated_flag",
    "Verif.Props.C98_violated_unreadable",
    "Verif.Props.C98_session"
   ],
   "note": "Violated: an update that throws leaves the old header size beside the new file size, and the size of the data wraps around (C98_violated_sizes); an object keeps saying empty after it wrote to its file, so a second write 'if empty' destroys the first (C98_violated_twice), and says not empty after it emptied the file (C98_violated_flag); an update while the file cannot be read succeeds and says empty (C98_violated_unreadable). Proved: every update agrees with a new object (C98_update); without failing updates the sizes go together (C98_sizes_partial); after an update that saw content, writing if empty is refused (C98_write_safe_partial); in a session the sizes always go together (C98_session)."
  },
  {
   "property": "C99",
   "status": "partial",
   "theorems": [
    "Verif.Props.C99_result_partial",
    "Verif.Props.C99_short",
    "Verif.Props.C99_hash",
    "Verif.Props.C99_fileMode",
    "Verif.Props.C99_zero_block",
    "Verif.Props.C99_violated"
   ],
   "note": "Violated: a wrong header size field makes an assertion fail, which ends the process (C99_violated). Proved: otherwise the outcome is a header or one of ten errors; never std::terminate, undefined behaviour or an endless loop (C99_result_partial); 'not enough data', invalid hash mode and invalid file mode are reported exactly when they should (C99_short, C99_hash, C99_fileMode; a header cut off behind the size fields that announces a size that is there is not reported as cut off); the empty data block that ends the process when read from a file is an ordinary error here (C99_zero_block, for fewer than 2^16 bytes). Working random source."
  },
  {
   "property": "C100",
   "status": "partial",
   "theorems": [
    "Verif.Props.C100_parse_partial",
    "Verif.Props.C100_call_partial",
    "Verif.Props.C100_run_partial",
    "Verif.Props.C100_unneeded",
    "Verif.Props.C100_answer",
    "Verif.Props.C100_parse_dies",
    "Verif.Props.C100_select_dies",
    "Verif.Props.C100_violated"
   ],
   "note": "Violated: the constructor of a header draws random bytes that reading a header throws away; if the source fails, selecting a good file or listing its directory ends the process (C100_violated; C100_select_dies and C100_parse_dies say exactly when). Proved: with working sources the answers of both parsers, of all calls that are not meant to make a header or salt, and of all histories of them are the same for all random bytes (C100_parse_partial, C100_call_partial, C100_run_partial); the calls that neither make nor read headers do not need a working source (C100_unneeded); the answer of header creation does not depend on the random bytes (C100_answer)."
  },
  {
   "property": "C101",
   "status": "proved",
   "theorems": [
    "Verif.Props.C101_call",
    "Verif.Props.C101_limited",
    "Verif.Props.C101_unlimited",
    "Verif.Props.C101_run"
   ],
   "note": "Calls without time limit: equal outright (C101_call). Calls with one: equal or one of them is a timeout that changes nothing (C101_limited); with limit 0 equal, for the password check as long as the clock stays below 2^64 ms, about 584 million years (C101_unlimited; the limit 0 is turned into 2^64 minus the time passed there, see C51). Histories: C101_run. Deliveries are those of the stream model (readsome may return any number of available bytes, the end is met when all bytes are read)."
  },
  {
   "property": "C102",
   "status": "partial",
   "theorems": [
    "Verif.Props.C102_partial",
    "Verif.Props.C102_same_salts_show",
    "Verif.Props.C102_salts_partial",
    "Verif.Props.C102_violated_normal",
    "Verif.Props.C102_created_partial",
    "Verif.Props.C102_violated_quad"
   ],
   "note": "Violated for mode 1 (no salt): headers made with the same password, hash function and numbers of iterations have the same validator whatever the random source delivers (C102_violated_normal). Mode 5: to every data block there is another one with the same salts in every round (C102_violated_quad), so different random data is not always enough, if nearly always. Proved: equal validators of files with the same choices and password mean the same salts in every round or a collision that can be shown (C102_partial; the converse is C102_same_salts_show); for the modes 2, 3 and 4 different data blocks mean different salts, so the validators differ or there is a collision (C102_salts_partial), and so through the API for different first eight random bytes (C102_created_partial)."
  },
  {
   "property": "C103",
   "status": "partial",
   "theorems": [
    "Verif.Props.C103_call",
    "Verif.Props.C103_call_dies",
    "Verif.Props.C103_new",
    "Verif.Props.C103_new_partial",
    "Verif.Props.C103_delete",
    "Verif.Props.C103_plain_partial",
    "Verif.Props.C103_violated_delete",
    "Verif.Props.C103_violated_delete_link",
    "Verif.Props.C103_violated_extension",
    "Verif.Props.C103_violated_save"
   ],
   "note": "Violated: deleting removes only the name by which the file was selected; if that was a link, or the file has another name, its content stays and can be opened, while the session is told that it is deleted (C103_violated_delete, C103_violated_delete_link). Creating follows a link that leads nowhere and makes a file of any ending (C103_violated_extension); a link put in the place of the selected file makes a save overwrite any file (C103_violated_save). Proved: every other call acts on the file the links lead to, on all of its names and on nothing else, and links and names stay (C103_call, C103_call_dies, C103_new); without a link at the path the new name is the one that was given (C103_new_partial); what deleting does, exactly (C103_delete); without links everything is as in Model/Many (C103_plain_partial). Links whose target is given relative to their directory, and links among the directories of the target, are not modelled."
  },
  {
   "property": "C104",
   "status": "partial",
   "theorems": [
    "Verif.Props.C104_same",
    "Verif.Props.C104_success",
    "Verif.Props.C104_path",
    "Verif.Props.C104_violated_which",
    "Verif.Props.C104_state_partial",
    "Verif.Props.C104_violated_state",
    "Verif.Props.C104_header",
    "Verif.Props.C104_violated_end",
    "Verif.Props.C104_violated_mode",
    "Verif.Props.C104_violated_iters",
    "Verif.Props.C104_secret"
   ],
   "note": "Violated: a file refused for its size fields is not named (C104_violated_which); createFile, deleteFile, unselectFile and createDataHeader are refused with the name of another method or a state that does not exist (C104_violated_state); numbers of modes come as raw characters (C104_violated_mode), numbers of iterations not at all (C104_violated_iters); a file that ends behind the salt is said to have a wrong size, with a single byte as text (C104_violated_end). Proved: errors about paths name the path, up to a zero byte (C104_path); the other refusals name the call and exactly the states that offer it (C104_state_partial); but for the file that ends behind the salt, a damaged header is reported with exactly the code and text that a separate description of the file layout assigns to its first missing or wrong field (C104_header); calls that succeed say nothing (C104_success), and calls that handle secrets end with one of a few errors, each with a fixed text (C104_secret). Files of less than 2^64 bytes. Not modelled: the texts of exceptions (errorStruct.what)."
  },
  {
   "property": "C105",
   "status": "partial",
   "theorems": [
    "Verif.Props.C105_violated",
    "Verif.Props.C105_violated_open",
    "Verif.Props.C105_violated_header",
    "Verif.Props.C105_rest_partial",
    "Verif.Props.C105_refused_partial"
   ],
   "note": "Violated: the dialogue prints the hash of the password, which is the key of the file (C105_violated, C105_violated_open), and against the present classes it never ends with a header (C105_violated_header). Proved: nothing else on the screen depends on the password (C105_rest_partial, C105_refused_partial). The file is not part of the build and read as text; the data blocks of the chain hashes are arguments because the function asking for them no longer exists."
  },
  {
   "property": "C106",
   "status": "partial",
   "theorems": [
    "Verif.Props.C106_violated",
    "Verif.Props.C106_violated_first",
    "Verif.Props.C106_full_partial",
    "Verif.Props.C106_full_first_partial",
    "Verif.Props.C106_unreadable",
    "Verif.Props.C106_disk",
    "Verif.Props.C106_kept"
   ],
   "note": "Violated: with an empty file no run ends well, whatever is answered (C106_violated), and a first run leaves an empty file behind (C106_violated_first): the header is never written, and never comes about (C105). Proved: a file with content is left alone and the run ends well without a question (C106_full_partial, C106_full_first_partial); no run changes anything but one file, at most by creating or emptying it (C106_disk); a remembered file that cannot be opened ends the run with an exception (C106_unreadable); files that may be read keep their content (C106_kept). app.cpp is not part of the build and read as text; whether the path can be remembered and the data of the chain hashes are arguments."
  },
  {
   "property": "C107",
   "status": "proved",
   "theorems": [
    "Verif.Props.C107_encryption",
    "Verif.Props.C107_decryption",
    "Verif.Props.C107_key",
    "Verif.Props.C107_file",
    "Verif.Props.C107_sums"
   ],
   "note": "Data (C107_encryption), encrypted data (C107_decryption), password hashes and salts (C107_key), files opened through the API (C107_file, with C73_violated_header: such files do open). The exceptions are part of the statement and cannot be left out: equal sums C107_sums, equal hashes the example beside it. Nothing is said about an incomplete last block, in which few bytes may agree by chance."
  },
  {
   "property": "C108",
   "status": "partial",
   "theorems": [
    "Verif.Props.C108_violated",
    "Verif.Props.C108_ends_partial",
    "Verif.Props.C108_numbers_partial",
    "Verif.Props.C108_base",
    "Verif.Props.C108_none",
    "Verif.Props.C108_violated_zero"
   ],
   "note": "Violated: the thread clears the flag after it has started, so if the benchmark asks it to end before that, the request is lost and the benchmark waits for ever (C108_violated, all schedules); a measurement of zero is never the smallest (C108_violated_zero). Proved: in a fair run the benchmark gets its numbers exactly if the flag was cleared in time (C108_ends_partial); the numbers are right if no measurement is zero and the sum fits into 64 bits (C108_numbers_partial); the base is what there was at the first step of the thread (C108_base); without a measurement zeros are filed (C108_none)."
  },
  {
   "property": "C109",
   "status": "partial",
   "theorems": [
    "Verif.Props.C109_reads_partial",
    "Verif.Props.C109_absent_partial",
    "Verif.Props.C109_violated"
   ],
   "note": "Violated: undefined if the file cannot be opened, if the line has no number or a number of 2^31 or more; wrong without the unit, and when a line of more than 126 bytes goes on with 'VmRSS:' (C109_violated). Proved for files in the form of the kernel (C109_reads_partial, C109_absent_partial)."
  }
 ]
}