{
 "claims": [
  {
   "property": "C01",
   "status": "proved",
   "theorems": [
    "Verif.Props.C01_read_returns_written"
   ],
   "note": ""
  },
  {
   "property": "C02",
   "status": "proved",
   "theorems": [
    "Verif.Props.C02_read_is_little_endian",
    "Verif.Props.C02_write_is_little_endian",
    "Verif.Props.C02_overlap_witness"
   ],
   "note": "C02_overlap_witness shows why the access must not be touched by an earlier region."
  },
  {
   "property": "C03",
   "status": "proved",
   "theorems": [
    "Verif.Props.C03_write_frame",
    "Verif.Props.C03_other_bytes_read_the_same"
   ],
   "note": ""
  },
  {
   "property": "C04",
   "status": "proved",
   "theorems": [
    "Verif.Props.C04_read_faults_iff_unmapped",
    "Verif.Props.C04_write_faults_iff",
    "Verif.Props.C04_read_raises_nothing_else"
   ],
   "note": ""
  },
  {
   "property": "C05",
   "status": "proved",
   "theorems": [
    "Verif.Props.C05_first_region_serves_read",
    "Verif.Props.C05_new_region_changes_no_served_access",
    "Verif.Props.C05_new_alias_changes_no_served_access"
   ],
   "note": ""
  },
  {
   "property": "C06",
   "status": "proved",
   "theorems": [
    "Verif.Props.C06_write_to_readonly_rejected",
    "Verif.Props.C06_readonly_forever",
    "Verif.Props.C06_mark_outcome",
    "Verif.Props.C06_marked_is_write_protected"
   ],
   "note": ""
  },
  {
   "property": "C07",
   "status": "proved",
   "theorems": [
    "Verif.Props.C07_new_region_reads_zero"
   ],
   "note": ""
  },
  {
   "property": "C08",
   "status": "proved",
   "theorems": [
    "Verif.Props.C08_createRegion_atomic",
    "Verif.Props.C08_createAlias_atomic"
   ],
   "note": ""
  },
  {
   "property": "C09",
   "status": "proved",
   "theorems": [
    "Verif.Props.C09_alias_is_transparent"
   ],
   "note": ""
  },
  {
   "property": "C10",
   "status": "partial",
   "theorems": [
    "Verif.Props.C10_alias_bounded_partial",
    "Verif.Props.C10_alias_of_alias_escapes",
    "Verif.Props.C10_chained_alias_always_escapes"
   ],
   "note": "False when the redirect address is itself inside an alias: the size limit is computed from the untranslated address (C10_alias_of_alias_escapes). Proved for redirects into ordinary regions; C10_chained_alias_always_escapes shows that every alias of an alias leads outside of the memory of the simulator, after any history."
  },
  {
   "property": "C11",
   "status": "partial",
   "theorems": [
    "Verif.Props.C11_no_invalid_access_partial",
    "Verif.Props.C11_alias_of_alias_witness",
    "Verif.Props.C11_null_counters_witness",
    "Verif.Props.C11_careful_histories_are_sound"
   ],
   "note": "False after an alias of an alias (C11_alias_of_alias_witness) and when the counter allocation of MemorySim_MakeRegionReadOnly fails and GetFlashReadCount is called (C11_null_counters_witness). Proved for all other histories."
  },
  {
   "property": "C12",
   "status": "proved",
   "theorems": [
    "Verif.Props.C12_load_exact",
    "Verif.Props.C12_loaded_bytes_read_back"
   ],
   "note": ""
  },
  {
   "property": "C13",
   "status": "proved",
   "theorems": [
    "Verif.Props.C13_flash_layout",
    "Verif.Props.C13_short_image"
   ],
   "note": ""
  },
  {
   "property": "C14",
   "status": "proved",
   "theorems": [
    "Verif.Props.C14_failed_flash_leaves_nothing"
   ],
   "note": ""
  },
  {
   "property": "C15",
   "status": "proved",
   "theorems": [
    "Verif.Props.C15_read_count_exact"
   ],
   "note": ""
  },
  {
   "property": "C16",
   "status": "proved",
   "theorems": [
    "Verif.Props.C16_read_count_in_bounds"
   ],
   "note": ""
  },
  {
   "property": "C17",
   "status": "proved",
   "theorems": [
    "Verif.Props.C17_map_lists_regions",
    "Verif.Props.C17_returned_map_is_exact",
    "Verif.Props.C17_assertions_hold_iff",
    "Verif.Props.C17_assert_fires_witness"
   ],
   "note": "Whatever text is returned is the exact map, for any number of regions. That no assertion fires is proved up to 19522578 regions, and C17_assertions_hold_iff proves that beyond that number one always does."
  },
  {
   "property": "C18",
   "status": "proved",
   "theorems": [
    "Verif.Props.C18_text_determines_entries",
    "Verif.Props.C18_map_injective"
   ],
   "note": ""
  },
  {
   "property": "C19",
   "status": "partial",
   "theorems": [
    "Verif.Props.C19_flash_iff_write_rejected_partial",
    "Verif.Props.C19_stale_alias_witness",
    "Verif.Props.C19_flash_is_write_protected",
    "Verif.Props.C19_only_aliases_are_stale"
   ],
   "note": "False for an alias made before its target became read-only (C19_stale_alias_witness). Proved for regions and for aliases made afterwards. C19_flash_is_write_protected and C19_only_aliases_are_stale hold for all histories: what is listed as flash cannot be written, and only aliases are wrongly listed as RAM."
  },
  {
   "property": "C20",
   "status": "proved",
   "theorems": [
    "Verif.Props.C20_breakpoint_iff",
    "Verif.Props.C20_other_reads_never",
    "Verif.Props.C20_writes_never",
    "Verif.Props.C20_breakpoint_history"
   ],
   "note": ""
  },
  {
   "property": "C21",
   "status": "proved",
   "theorems": [
    "Verif.Props.C21_read_hits",
    "Verif.Props.C21_write_hits"
   ],
   "note": ""
  },
  {
   "property": "C22",
   "status": "proved",
   "theorems": [
    "Verif.Props.C22_set_outcome",
    "Verif.Props.C22_clear_outcome",
    "Verif.Props.C22_unmapped",
    "Verif.Props.C22_active_iff_last_set",
    "Verif.Props.C22_set_twice",
    "Verif.Props.C22_clear_unset",
    "Verif.Props.C22_no_duplicates"
   ],
   "note": ""
  },
  {
   "property": "C23",
   "status": "proved",
   "theorems": [
    "Verif.Props.C23_hit_report",
    "Verif.Props.C23_hit_report_from_init"
   ],
   "note": ""
  },
  {
   "property": "C24",
   "status": "partial",
   "theorems": [
    "Verif.Props.C24_top_halfword_partial",
    "Verif.Props.C24_top_hits_partial",
    "Verif.Props.C24_top_breakpoint_missed_witness",
    "Verif.Props.C24_top_false_alarm_witness"
   ],
   "note": "False when the range ends at 2^32: its end wraps to 0 (C24_top_breakpoint_missed_witness, C24_top_false_alarm_witness). Proved for every range that does not; for one that does, C24_top_halfword_partial and C24_top_hits_partial say exactly what happens instead."
  },
  {
   "property": "C25",
   "status": "partial",
   "theorems": [
    "Verif.Props.C25_uninit_releases_all_partial",
    "Verif.Props.C25_lost_exactly",
    "Verif.Props.C25_releases_all_iff",
    "Verif.Props.C25_leak_witness"
   ],
   "note": "False when a region is made read-only twice: the first counter array is lost (C25_leak_witness). Proved for all histories without that; C25_lost_exactly gives the number of blocks left by any history (flash images are taken to go where nothing is marked), and C25_releases_all_iff says exactly which histories leave nothing."
  },
  {
   "property": "C26",
   "status": "proved",
   "theorems": [
    "Verif.Props.C26_version3_loads"
   ],
   "note": ""
  },
  {
   "property": "C27",
   "status": "proved",
   "theorems": [
    "Verif.Props.C27_version2_loads"
   ],
   "note": ""
  },
  {
   "property": "C28",
   "status": "proved",
   "theorems": [
    "Verif.Props.C28_float_iff_flag",
    "Verif.Props.C28_no_flag_no_change"
   ],
   "note": ""
  },
  {
   "property": "C29",
   "status": "proved",
   "theorems": [
    "Verif.Props.C29_bad_signature"
   ],
   "note": ""
  },
  {
   "property": "C30",
   "status": "proved",
   "theorems": [
    "Verif.Props.C30_truncated",
    "Verif.Props.C30_cut_between_blocks",
    "Verif.Props.C30_accepted_is_complete"
   ],
   "note": ""
  },
  {
   "property": "C31",
   "status": "proved",
   "theorems": [
    "Verif.Props.C31_stack_overflow",
    "Verif.Props.C31_other_words"
   ],
   "note": ""
  },
  {
   "property": "C32",
   "status": "proved",
   "theorems": [
    "Verif.Props.C32_hex_equals_binary"
   ],
   "note": ""
  },
  {
   "property": "C33",
   "status": "proved",
   "theorems": [
    "Verif.Props.C33_bad_character",
    "Verif.Props.C33_format_error",
    "Verif.Props.C33_lone_character_ignored"
   ],
   "note": "C33_bad_character: the error is a format error unless the binary reader, given the same bytes before, raises another one; C33_format_error: it is one if these bytes begin a dump that can be loaded. C33_lone_character_ignored: a lone character at the end of a dump is not noticed."
  },
  {
   "property": "C34",
   "status": "proved",
   "theorems": [
    "Verif.Props.C34_defined_outcome",
    "Verif.Props.C34_cannot_open",
    "Verif.Props.C34_files_closed"
   ],
   "note": ""
  },
  {
   "property": "C35",
   "status": "proved",
   "theorems": [
    "Verif.Props.C35_last_block_wins"
   ],
   "note": ""
  },
  {
   "property": "C36",
   "status": "partial",
   "theorems": [
    "Verif.Props.C36_log_loads_partial",
    "Verif.Props.C36_words_exact_partial",
    "Verif.Props.C36_log_loads_general",
    "Verif.Props.C36_short_line_witness",
    "Verif.Props.C36_unbalanced_symbol_witness"
   ],
   "note": "False for memory lines of fewer than four words (a spurious zero word is stored, C36_short_line_witness) and for symbols with unbalanced angle brackets (C36_unbalanced_symbol_witness). Proved for the others, and with the extra word made explicit for all lines."
  },
  {
   "property": "C37",
   "status": "partial",
   "theorems": [
    "Verif.Props.C37_regions_are_runs_partial",
    "Verif.Props.C37_regions_are_runs_general",
    "Verif.Props.C37_runs_maximal",
    "Verif.Props.C37_top_witness"
   ],
   "note": "False when a run starts at 0xFFFFFFFF or lines are short (C37_top_witness; see C36). The general theorem says what regions are created for every log."
  },
  {
   "property": "C38",
   "status": "proved",
   "theorems": [
    "Verif.Props.C38_other_lines_no_effect",
    "Verif.Props.C38_long_line_witness"
   ],
   "note": "Lines longer than the 1024-byte buffer are split by the parser (C38_long_line_witness)."
  },
  {
   "property": "C39",
   "status": "partial",
   "theorems": [
    "Verif.Props.C39_word_count_partial",
    "Verif.Props.C39_short_line",
    "Verif.Props.C39_short_line_witness"
   ],
   "note": "False for fewer than four words followed by a newline (C39_short_line_witness); C39_short_line says what happens instead."
  },
  {
   "property": "C40",
   "status": "proved",
   "theorems": [
    "Verif.Props.C40_any_file",
    "Verif.Props.C40_cannot_open",
    "Verif.Props.C40_rewind"
   ],
   "note": ""
  },
  {
   "property": "C41",
   "status": "proved",
   "theorems": [
    "Verif.Props.C41_registers",
    "Verif.Props.C41_unnamed_kept",
    "Verif.Props.C41_any_lines",
    "Verif.Props.C41_gives_one"
   ],
   "note": ""
  },
  {
   "property": "C42",
   "status": "proved",
   "theorems": [
    "Verif.Props.C42_float_flag",
    "Verif.Props.C42_float_flag_any_lines",
    "Verif.Props.C42_without_raw"
   ],
   "note": ""
  },
  {
   "property": "C43",
   "status": "proved",
   "theorems": [
    "Verif.Props.C43_segments_loaded"
   ],
   "note": ""
  },
  {
   "property": "C44",
   "status": "proved",
   "theorems": [
    "Verif.Props.C44_only_loadable_create",
    "Verif.Props.C44_others_ignored"
   ],
   "note": ""
  },
  {
   "property": "C45",
   "status": "proved",
   "theorems": [
    "Verif.Props.C45_bad_header_refused",
    "Verif.Props.C45_good_header_accepted"
   ],
   "note": ""
  },
  {
   "property": "C46",
   "status": "partial",
   "theorems": [
    "Verif.Props.C46_no_overread_partial",
    "Verif.Props.C46_by_calls_partial",
    "Verif.Props.C46_wraparound_witness",
    "Verif.Props.C46_wrapping_segment_overreads",
    "Verif.Props.C46_overreads_iff"
   ],
   "note": "False when offset + size of a segment (or, in a blob of about 4 GiB, of a program header) wraps around 2^32 so that the wrapped end lies inside the blob (C46_wraparound_witness). C46_overreads_iff: for files whose segments have addresses of their own the loader reads outside the blob exactly if the first thing that is not in order is a segment that wraps around. Proved for all blobs in which nothing wraps around this way."
  },
  {
   "property": "C47",
   "status": "proved",
   "theorems": [
    "Verif.Props.C47_success_means_loaded",
    "Verif.Props.C47_nothing_to_load_refused"
   ],
   "note": ""
  },
  {
   "property": "C48",
   "status": "proved",
   "theorems": [
    "Verif.Props.C48_last_of_each_kind",
    "Verif.Props.C48_selection"
   ],
   "note": ""
  },
  {
   "property": "C49",
   "status": "proved",
   "theorems": [
    "Verif.Props.C49_case_insensitive"
   ],
   "note": ""
  },
  {
   "property": "C50",
   "status": "partial",
   "theorems": [
    "Verif.Props.C50_failed_start_up",
    "Verif.Props.C50_heap_released_partial",
    "Verif.Props.C50_left_by_segments",
    "Verif.Props.C50_leak_witness"
   ],
   "note": "The heap part is false when segments of an ELF file start inside earlier ones (C50_leak_witness); C50_left_by_segments says how much is left for any ELF file. Everything else holds without exception."
  },
  {
   "property": "C51",
   "status": "proved",
   "theorems": [
    "Verif.Props.C51_aliases_last"
   ],
   "note": ""
  },
  {
   "property": "C52",
   "status": "proved",
   "theorems": [
    "Verif.Props.C52_elf_wins"
   ],
   "note": ""
  },
  {
   "property": "C53",
   "status": "proved",
   "theorems": [
    "Verif.Props.C53_refused",
    "Verif.Props.C53_option_missing",
    "Verif.Props.C53_refused_iff"
   ],
   "note": ""
  },
  {
   "property": "C54",
   "status": "proved",
   "theorems": [
    "Verif.Props.C54_format_from_first_bytes",
    "Verif.Props.C54_reader_decides"
   ],
   "note": ""
  },
  {
   "property": "C55",
   "status": "proved",
   "theorems": [
    "Verif.Props.C55_raw_image_general",
    "Verif.Props.C55_raw_image_loaded",
    "Verif.Props.C55_raw_image_refused",
    "Verif.Props.C55_huge_image_witness"
   ],
   "note": "For files up to 4 GiB. C55_raw_image_general says what happens for all sizes; C55_huge_image_witness shows that a larger file is accepted and loaded in part."
  },
  {
   "property": "C56",
   "status": "proved",
   "theorems": [
    "Verif.Props.C56_files_closed"
   ],
   "note": ""
  },
  {
   "property": "C57",
   "status": "proved",
   "theorems": [
    "Verif.Props.C57_read_succeeds",
    "Verif.Props.C57_read_faults",
    "Verif.Props.C57_write_succeeds",
    "Verif.Props.C57_write_faults",
    "Verif.Props.C57_counted",
    "Verif.Props.C57_reported"
   ],
   "note": ""
  },
  {
   "property": "C58",
   "status": "proved",
   "theorems": [
    "Verif.Props.C58_signal"
   ],
   "note": ""
  },
  {
   "property": "C59",
   "status": "proved",
   "theorems": [
    "Verif.Props.C59_report",
    "Verif.Props.C59_registers"
   ],
   "note": ""
  },
  {
   "property": "C60",
   "status": "proved",
   "theorems": [
    "Verif.Props.C60_no_room",
    "Verif.Props.C60_sent",
    "Verif.Props.C60_room",
    "Verif.Props.C60_received",
    "Verif.Props.C60_round_trip"
   ],
   "note": ""
  },
  {
   "property": "C61",
   "status": "proved",
   "theorems": [
    "Verif.Props.C61_no_room",
    "Verif.Props.C61_stop_reply"
   ],
   "note": ""
  },
  {
   "property": "C62",
   "status": "proved",
   "theorems": [
    "Verif.Props.C62_only_explicit_writes"
   ],
   "note": ""
  },
  {
   "property": "C63",
   "status": "proved",
   "theorems": [
    "Verif.Props.C63_target_description"
   ],
   "note": ""
  },
  {
   "property": "C64",
   "status": "partial",
   "theorems": [
    "Verif.Props.C64_pending_iff",
    "Verif.Props.C64_polling_forgets",
    "Verif.Props.C64_map_masked_witness",
    "Verif.Props.C64_forgotten_after_good_access_partial",
    "Verif.Props.C64_swallowed_fault_witness",
    "Verif.Props.C64_later_exception",
    "Verif.Props.C64_masked_exception_witness"
   ],
   "note": "False: the handlers of the memory access functions do not clear the exception code (C64_swallowed_fault_witness, C64_masked_exception_witness, C64_map_masked_witness). Proved when a later successful access or another try block intervenes; C64_pending_iff says exactly when an error is left pending by the platform's calls."
  },
  {
   "property": "C65",
   "status": "proved",
   "theorems": [
    "Verif.Props.C65_session_polling",
    "Verif.Props.C65_session_stays_connected",
    "Verif.Props.C65_session_waits",
    "Verif.Props.C65_session_failed_reception",
    "Verif.Props.C65_session_should_wait",
    "Verif.Props.C65_polling",
    "Verif.Props.C65_asking",
    "Verif.Props.C65_stays_connected",
    "Verif.Props.C65_until_received"
   ],
   "note": ""
  },
  {
   "property": "C66",
   "status": "proved",
   "theorems": [
    "Verif.Props.C66_start_up_fails",
    "Verif.Props.C66_session_fails",
    "Verif.Props.C66_success",
    "Verif.Props.C66_exit_code",
    "Verif.Props.C66_silent_start_up"
   ],
   "note": "With the channel main uses, the session never completes (C69), so 0 is never returned in practice; the theorems quantify over every channel and every behaviour of mri."
  },
  {
   "property": "C67",
   "status": "proved",
   "theorems": [
    "Verif.Props.C67_model_agrees",
    "Verif.Props.C67_handlers_nest",
    "Verif.Props.C67_own_handler_runs",
    "Verif.Props.C67_rethrow",
    "Verif.Props.C67_structured"
   ],
   "note": "C67_model_agrees: code written with the macros and its transcription into the exception monad used by the other modules end the same way."
  },
  {
   "property": "C68",
   "status": "partial",
   "theorems": [
    "Verif.Props.C68_larger_code",
    "Verif.Props.C68_own_code_partial",
    "Verif.Props.C68_smaller_code_witness"
   ],
   "note": "False when the new code is smaller than the old one: setExceptionCode keeps the maximum (C68_smaller_code_witness). Proved for larger codes and after clearing."
  },
  {
   "property": "C69",
   "status": "partial",
   "theorems": [
    "Verif.Props.C69_never_completes_witness",
    "Verif.Props.C69_end_of_input_witness",
    "Verif.Props.C69_runs_for_ever_witness",
    "Verif.Props.C69_read_error_partial"
   ],
   "note": "False: shouldStopRun always answers no, and the end of the input is delivered as the character 0 (witnesses). What holds: an exception that reaches the loop ends it."
  },
  {
   "property": "C70",
   "status": "proved",
   "theorems": [
    "Verif.Props.C70_file_size",
    "Verif.Props.C70_length"
   ],
   "note": ""
  },
  {
   "property": "C71",
   "status": "partial",
   "theorems": [
    "Verif.Props.C71_defined_partial",
    "Verif.Props.C71_defined_without_elf",
    "Verif.Props.C71_wraparound_witness",
    "Verif.Props.C71_undefined_iff"
   ],
   "note": "False for ELF files in which offset + size wraps around 2^32 (C71_wraparound_witness; C71_undefined_iff says exactly when). Proved for all others, and for all command lines without --elf."
  },
  {
   "property": "C72",
   "status": "proved",
   "theorems": [
    "Verif.Props.C72_start_up_loads"
   ],
   "note": ""
  },
  {
   "property": "C73",
   "status": "proved",
   "theorems": [
    "Verif.Props.C73_any_packet"
   ],
   "note": ""
  },
  {
   "property": "C74",
   "status": "proved",
   "theorems": [
    "Verif.Props.C74_session_received",
    "Verif.Props.C74_session_sent",
    "Verif.Props.C74_session_send_reports",
    "Verif.Props.C74_received_in_order",
    "Verif.Props.C74_sent_in_order"
   ],
   "note": ""
  },
  {
   "property": "C75",
   "status": "proved",
   "theorems": [
    "Verif.Props.C75_simulator_calls",
    "Verif.Props.C75_elf",
    "Verif.Props.C75_dump",
    "Verif.Props.C75_gdb_log",
    "Verif.Props.C75_start_up"
   ],
   "note": ""
  },
  {
   "property": "C76",
   "status": "proved",
   "theorems": [
    "Verif.Props.C76_pointer_for_read",
    "Verif.Props.C76_pointer_for_write",
    "Verif.Props.C76_pointer_shows_reads",
    "Verif.Props.C76_pointer_writes_through"
   ],
   "note": ""
  },
  {
   "property": "C77",
   "status": "proved",
   "theorems": [
    "Verif.Props.C77_accepted_is_complete",
    "Verif.Props.C77_cut_in_the_table",
    "Verif.Props.C77_cut_in_the_contents"
   ],
   "note": ""
  },
  {
   "property": "C78",
   "status": "proved",
   "theorems": [
    "Verif.Props.C78_unreadable_image",
    "Verif.Props.C78_refused_elf",
    "Verif.Props.C78_bad_header",
    "Verif.Props.C78_refused_raw_image"
   ],
   "note": ""
  },
  {
   "property": "C79",
   "status": "proved",
   "theorems": [
    "Verif.Props.C79_map_tells_access",
    "Verif.Props.C79_map_given"
   ],
   "note": "For command lines whose aliases lead into loaded memory; this is so for all without chained aliases (noChain_loaded)."
  },
  {
   "property": "C80",
   "status": "partial",
   "theorems": [
    "Verif.Props.C80_session_defined_partial",
    "Verif.Props.C80_chained_alias_witness",
    "Verif.Props.C80_chained_alias_always_escapes",
    "Verif.Props.C80_defined_iff_partial",
    "Verif.Props.C80_fault_counter_witness"
   ],
   "note": "Missing: command lines in which an alias leads into another alias rather than loaded memory (false there: C80_chained_alias_witness; C80_chained_alias_always_escapes shows this for every start-up with such an alias: it is accepted and the first read goes out of bounds; C80_defined_iff_partial: for aliases that do not start inside other blocks, the session is defined exactly if all aliases lead into loaded memory); more than 19522578 blocks of memory (C17_assert_fires_witness); 2^31 faults that GDB never asks about (the int counter overflows)."
  },
  {
   "property": "C81",
   "status": "proved",
   "theorems": [
    "Verif.Props.C81_aliases_created",
    "Verif.Props.C81_notation_irrelevant",
    "Verif.Props.C81_base_address",
    "Verif.Props.C81_raw_image_at_number",
    "Verif.Props.C81_alias_numbers",
    "Verif.Props.C81_means_one",
    "Verif.Props.C81_base_address_any",
    "Verif.Props.C81_alias_numbers_any",
    "Verif.Props.C81_unchecked_witness"
   ],
   "note": "C81_unchecked_witness shows that words which are no numbers are accepted as 0. C81_aliases_created: after start-up the aliases in memory are exactly those of the options, in order, with what the words mean as address, size (cut where the memory they lead into ends) and target."
  },
  {
   "property": "C82",
   "status": "partial",
   "theorems": [
    "Verif.Props.C82_wrapping_image",
    "Verif.Props.C82_program_defined_partial",
    "Verif.Props.C82_wraparound_witness",
    "Verif.Props.C82_chained_alias_witness",
    "Verif.Props.C82_defined_iff_partial"
   ],
   "note": "Partial: C82_wraparound_witness and C82_chained_alias_witness show runs with undefined behaviour (C82_wrapping_image: every run with such an image). C82_defined_iff_partial: for aliases that do not start inside other blocks, all runs are defined exactly if start-up is defined (C71_undefined_iff says when) and every alias leads into loaded memory. mri itself is a parameter that acts by platform calls."
  },
  {
   "property": "C83",
   "status": "partial",
   "theorems": [
    "Verif.Props.C83_files_closed",
    "Verif.Props.C83_heap_released_partial",
    "Verif.Props.C83_left_exactly",
    "Verif.Props.C83_released_iff",
    "Verif.Props.C83_leak_witness"
   ],
   "note": "Partial: C83_leak_witness shows a lost heap block when ELF segments overlap. C83_left_exactly says how much is left for any image, and C83_released_iff that nothing is left exactly if no segment starts inside an earlier one. Files are always closed (C83_files_closed)."
  },
  {
   "property": "C84",
   "status": "proved",
   "theorems": [
    "Verif.Props.C84_reads_last_write"
   ],
   "note": ""
  },
  {
   "property": "C85",
   "status": "proved",
   "theorems": [
    "Verif.Props.C85_start_up_reads_only_named_files",
    "Verif.Props.C85_program_reads_only_named_files"
   ],
   "note": ""
  },
  {
   "property": "C86",
   "status": "proved",
   "theorems": [
    "Verif.Props.C86_shown_again",
    "Verif.Props.C86_start_up_loads_log",
    "Verif.Props.C86_any_log"
   ],
   "note": ""
  },
  {
   "property": "C87",
   "status": "proved",
   "theorems": [
    "Verif.Props.C87_packets_give_bytes",
    "Verif.Props.C87_registers_over_session"
   ],
   "note": ""
  },
  {
   "property": "C88",
   "status": "proved",
   "theorems": [
    "Verif.Props.C88_log_and_dump_agree",
    "Verif.Props.C88_sessions_agree"
   ],
   "note": ""
  },
  {
   "property": "C89",
   "status": "proved",
   "theorems": [
    "Verif.Props.C89_aliases_of_dump",
    "Verif.Props.C89_aliases_of_log",
    "Verif.Props.C89_aliases_of_any_log"
   ],
   "note": ""
  },
  {
   "property": "C90",
   "status": "proved",
   "theorems": [
    "Verif.Props.C90_any_format",
    "Verif.Props.C90_session_of_dump",
    "Verif.Props.C90_session_of_log",
    "Verif.Props.C90_session_of_any_log"
   ],
   "note": ""
  },
  {
   "property": "C91",
   "status": "proved",
   "theorems": [
    "Verif.Props.C91_any_format",
    "Verif.Props.C91_told_of_dump",
    "Verif.Props.C91_told_of_log",
    "Verif.Props.C91_told_of_any_log"
   ],
   "note": ""
  },
  {
   "property": "C92",
   "status": "proved",
   "theorems": [
    "Verif.Props.C92_same_input_same_run"
   ],
   "note": ""
  },
  {
   "property": "C93",
   "status": "proved",
   "theorems": [
    "Verif.Props.C93_dump_over_image",
    "Verif.Props.C93_success_no_clash",
    "Verif.Props.C93_dump_accepted_iff",
    "Verif.Props.C93_any_log_over_image",
    "Verif.Props.C93_log_over_image",
    "Verif.Props.C93_any_log_accepted_iff",
    "Verif.Props.C93_log_accepted_iff"
   ],
   "note": ""
  },
  {
   "property": "C94",
   "status": "proved",
   "theorems": [
    "Verif.Props.C94_simulator_calls",
    "Verif.Props.C94_elf_loader",
    "Verif.Props.C94_crash_readers",
    "Verif.Props.C94_start_up",
    "Verif.Props.C94_long_file_name"
   ],
   "note": ""
  },
  {
   "property": "C95",
   "status": "proved",
   "theorems": [
    "Verif.Props.C95_received_in_order",
    "Verif.Props.C95_sent_in_order",
    "Verif.Props.C95_polling",
    "Verif.Props.C95_stays_connected",
    "Verif.Props.C95_until_received",
    "Verif.Props.C95_end_of_input"
   ],
   "note": ""
  },
  {
   "property": "C96",
   "status": "proved",
   "theorems": [
    "Verif.Props.C96_nth_allocation_fails",
    "Verif.Props.C96_restored"
   ],
   "note": "For any real allocator; n is an unsigned int, so n = 0 means no failure."
  },
  {
   "property": "C97",
   "status": "proved",
   "theorems": [
    "Verif.Props.C97_seek",
    "Verif.Props.C97_nth_read",
    "Verif.Props.C97_every_read",
    "Verif.Props.C97_lines",
    "Verif.Props.C97_fixed",
    "Verif.Props.C97_restored",
    "Verif.Props.C97_seek_count_outlives_restore_witness"
   ],
   "note": "C97_lines assumes the buffer is as large as the size passed, else the outcome is undefined behaviour in the model. The witness shows a count that survives fseekRestore."
  },
  {
   "property": "C98",
   "status": "proved",
   "theorems": [
    "Verif.Props.C98_shown_exactly",
    "Verif.Props.C98_nth_output",
    "Verif.Props.C98_last_and_previous",
    "Verif.Props.C98_call_count",
    "Verif.Props.C98_nothing_left",
    "Verif.Props.C98_unhooked",
    "Verif.Props.C98_stale_output_witness"
   ],
   "note": "C98_shown_exactly covers all cases; C98_nth_output is the case a test relies on. C98_unhooked: once the hooks are removed nothing is recorded. The witness shows a stale output."
  },
  {
   "property": "C99",
   "status": "proved",
   "theorems": [
    "Verif.Props.C99_reads",
    "Verif.Props.C99_captured",
    "Verif.Props.C99_write",
    "Verif.Props.C99_has_data",
    "Verif.Props.C99_left_exactly",
    "Verif.Props.C99_second_buffer_leaks_witness",
    "Verif.Props.C99_no_buffer_witness"
   ],
   "note": "C99_left_exactly counts the leak; two witnesses show the leak and the null pointer."
  },
  {
   "property": "C100",
   "status": "proved",
   "theorems": [
    "Verif.Props.C100_checksums",
    "Verif.Props.C100_packet_checksum",
    "Verif.Props.C100_received",
    "Verif.Props.C100_poll",
    "Verif.Props.C100_transmitted",
    "Verif.Props.C100_no_delay",
    "Verif.Props.C100_delay",
    "Verif.Props.C100_flags",
    "Verif.Props.C100_nothing_left",
    "Verif.Props.C100_uninit_keeps_stop_flag_witness"
   ],
   "note": "The endless loop of a receive with nothing left is expressed by the step bound: it runs out for every bound."
  },
  {
   "property": "C101",
   "status": "proved",
   "theorems": [
    "Verif.Props.C101_any_format",
    "Verif.Props.C101_arrangement_does_not_matter"
   ],
   "note": ""
  },
  {
   "property": "C102",
   "status": "partial",
   "theorems": [
    "Verif.Props.C102_whole_access_partial",
    "Verif.Props.C102_aligned_access_partial",
    "Verif.Props.C102_adjacent_blocks_witness",
    "Verif.Props.C102_any_format_partial",
    "Verif.Props.C102_any_format_aligned_partial",
    "Verif.Props.C102_accessible_iff"
   ],
   "note": "False across two blocks that touch (C102_adjacent_blocks_witness): a word of which the dump has one half in each of two adjacent blocks cannot be read although each of its bytes can. C102_whole_access_partial: it holds if no two blocks touch. C102_aligned_access_partial: it holds for accesses at multiples of their size if memory is cut at such multiples only. C102_any_format_partial and C102_any_format_aligned_partial: the same for dumps of whatever format. C102_accessible_iff says exactly which accesses succeed."
  },
  {
   "property": "C103",
   "status": "proved",
   "theorems": [
    "Verif.Props.C103_any_format",
    "Verif.Props.C103_more_memory"
   ],
   "note": ""
  },
  {
   "property": "C104",
   "status": "proved",
   "theorems": [
    "Verif.Props.C104_requests_do_nothing",
    "Verif.Props.C104_halted"
   ],
   "note": ""
  },
  {
   "property": "C105",
   "status": "proved",
   "theorems": [
    "Verif.Props.C105_success_means_complete",
    "Verif.Props.C105_success_means_loaded",
    "Verif.Props.C105_success_means_loaded_log"
   ],
   "note": "A file that begins like neither kind of dump is read as a log, whatever it contains; C105_success_means_loaded_log says what is then there. Its words are only claimed to be readable if no word shown is cut by the end of a run of lines. Images of about 4 GiB are left out of the completeness statement."
  },
  {
   "property": "C106",
   "status": "proved",
   "theorems": [
    "Verif.Props.C106_every_dump",
    "Verif.Props.C106_one_way",
    "Verif.Props.C106_head_refused",
    "Verif.Props.C106_rest_refused"
   ],
   "note": "What is wrong is said by two functions of the bytes, headComplaint and restComplaint; C106_every_dump says that they miss nothing. Memory where the image is, which is reported with the same text but as a bus error, is C93."
  },
  {
   "property": "C107",
   "status": "proved",
   "theorems": [
    "Verif.Props.C107_first_problem",
    "Verif.Props.C107_nothing_wrong",
    "Verif.Props.C107_every_file",
    "Verif.Props.C107_always_one",
    "Verif.Props.C107_exactly",
    "Verif.Props.C107_only_one"
   ],
   "note": "The list is Problem and Fine in Spec/Diagnosis.lean; C107_exactly is the equivalence, C107_always_one and C107_only_one say that the list is complete and unambiguous, C107_every_file that no file is outside it. A dump that is a log may be any file (C109). What OrdinaryStart leaves out is covered by C36, C39 and C46, where the code itself misbehaves."
  },
  {
   "property": "C108",
   "status": "partial",
   "theorems": [
    "Verif.Props.C108_any_machine",
    "Verif.Props.C108_raw_and_binary_partial",
    "Verif.Props.C108_elf_memory_witness",
    "Verif.Props.C108_silent_iff",
    "Verif.Props.C108_says_why_partial",
    "Verif.Props.C108_spoiled_witness",
    "Verif.Props.C108_log_witness"
   ],
   "note": "The code violates this: __throw without a message leaves it empty, and nothing adds one. C108_spoiled_witness: a dump with characters that are not hexadecimal where the flags should be. C108_log_witness: a log that shows a word of the image. C108_elf_memory_witness: memory runs out while an ELF file is loaded. C108_silent_iff says that, on a machine where memory and files do not fail, such files are the only ones, so C108_says_why_partial holds for binary dumps and for hexadecimal dumps that are not spoiled. C108_any_machine says which failures are silent on any machine, whatever allocations and file operations fail; C108_raw_and_binary_partial: with a raw image and a binary dump there are none."
  },
  {
   "property": "C109",
   "status": "proved",
   "theorems": [
    "Verif.Props.C109_one_meaning",
    "Verif.Props.C109_nothing_else",
    "Verif.Props.C109_memory",
    "Verif.Props.C109_regions",
    "Verif.Props.C109_registers",
    "Verif.Props.C109_well_formed",
    "Verif.Props.C109_float"
   ],
   "note": "It makes visible what the parser does with lines that are not well-formed: a line such as \"0x30000000: Cannot access\" is taken for four zero words, a symbol with unbalanced brackets swallows words, a line is cut at a NUL or after 1023 characters, an s register without a raw value becomes all ones."
  },
  {
   "property": "C110",
   "status": "proved",
   "theorems": [
    "Verif.Props.C110_features",
    "Verif.Props.C110_packet_order",
    "Verif.Props.C110_packet",
    "Verif.Props.C110_stop_reply"
   ],
   "note": "How GDB numbers registers and which features it looks for is stated in Spec/Numbering.lean from GDB's documentation; GDB itself is not modelled."
  },
  {
   "property": "C111",
   "status": "proved",
   "theorems": [
    "Verif.Props.C111_usage_is_right"
   ],
   "note": "How a synopsis is read is defined in Spec/Usage.lean, as a function of the printed text. The text says that --elf and --bin exclude each other; in fact both may be given (C52)."
  },
  {
   "property": "C112",
   "status": "partial",
   "theorems": [
    "Verif.Props.C112_session_general",
    "Verif.Props.C112_session_partial",
    "Verif.Props.C112_words_general",
    "Verif.Props.C112_words_partial",
    "Verif.Props.C112_low_memory_witness"
   ],
   "note": "What GDB writes for x/4wx is defined in Spec/Recipe.lean. Proved for RAM at 0x10000000 and above. Below, GDB writes addresses with fewer than eight digits, the parser passes over such lines without a message, and the session lacks that memory (C112_low_memory_witness; C112_session_general and C112_words_general say what is found of RAM anywhere). Symbols after an address must have balanced angle brackets (C36_unbalanced_symbol_witness)."
  },
  {
   "property": "C113",
   "status": "proved",
   "theorems": [
    "Verif.Props.C113_as_ordered_list",
    "Verif.Props.C113_nothing_released_used",
    "Verif.Props.C113_no_wild_pointer",
    "Verif.Props.C113_blocks_live",
    "Verif.Props.C113_all_released",
    "Verif.Props.C113_others_untouched",
    "Verif.Props.C113_others_unread"
   ],
   "note": "Equivalence of the code with pointers (Model/MemPtr.lean) and the list model on which the other theorems rest. No hypotheses except for C113_no_wild_pointer (Careful, as C11) and C113_all_released (Fresh, as C25); what happens without them is shown in C11 and C25."
  },
  {
   "property": "C114",
   "status": "partial",
   "theorems": [
    "Verif.Props.C114_hex",
    "Verif.Props.C114_log_meaning_partial",
    "Verif.Props.C114_log_partial",
    "Verif.Props.C114_start_up_partial",
    "Verif.Props.C114_program_partial",
    "Verif.Props.C114_bare_address_witness",
    "Verif.Props.C114_well_formed_partial",
    "Verif.Props.C114_blank_line_witness"
   ],
   "note": "C114_hex holds for every text, well-formed or not, once it is taken for a hexadecimal dump. For logs the theorems have one hypothesis: no line consists of an address alone (0x and eight digits, no colon; GDB writes none). With a carriage return such a line is long enough for the program to take it for a memory line (C114_bare_address_witness). C114_blank_line_witness: a hexadecimal dump with an empty line at the top is taken for a log, and start-up succeeds without the crash. C114_well_formed_partial: logs as GDB writes them satisfy that hypothesis."
  },
  {
   "property": "C115",
   "status": "proved",
   "theorems": [
    "Verif.Props.C115_start_up",
    "Verif.Props.C115_64",
    "Verif.Props.C115_dump",
    "Verif.Props.C115_log",
    "Verif.Props.C115_large_witness"
   ],
   "note": "C115_64 ties the model with a width to the rest of the model, so every other theorem about start-up carries over to hosts of 32 bits for such numbers. C115_dump and C115_log: dumps, and logs as GDB writes them, never have larger numbers. C115_large_witness: a register given with more than 32 bits is cut off on a host of 64 bits, and becomes 0xFFFFFFFF on a host of 32 bits."
  },
  {
   "property": "C116",
   "status": "partial",
   "theorems": [
    "Verif.Props.C116_text_after_partial",
    "Verif.Props.C116_text_before",
    "Verif.Props.C116_recorded_witness"
   ],
   "note": "C116_text_after_partial: a file that begins with the signature and has a character that belongs in no dump is refused (but for a lone last character, see C33). Missing: text before the dump. The code violates that part: C116_text_before, any file that does not begin with the signature and has nothing that looks like GDB's output is accepted, with all registers 0 and no RAM; C116_recorded_witness, this happens with every dump recorded as the README shows it if the text before it is not deleted."
  },
  {
   "property": "C117",
   "status": "proved",
   "theorems": [
    "Verif.Props.C117_answers_tell_crashes_apart",
    "Verif.Props.C117_without_aliases"
   ],
   "note": "An exact characterisation: `iff` in both directions. The exception PSR is not among the answers compared; of it the signal and the fault report are shown, which depend on its lowest byte only (C58, C59, C91)."
  },
  {
   "property": "C118",
   "status": "partial",
   "theorems": [
    "Verif.Props.C118_start_up_partial",
    "Verif.Props.C118_raw_image",
    "Verif.Props.C118_raw_image_log",
    "Verif.Props.C118_session_exact",
    "Verif.Props.C118_session_partial",
    "Verif.Props.C118_segment_witness",
    "Verif.Props.C118_header_witness",
    "Verif.Props.C118_log_witness",
    "Verif.Props.C118_session_witness"
   ],
   "note": "The strict host is Model/Strict.lean. C118_start_up_partial: start-up is the same on it if an ELF file has its program headers and contents at multiples of 4, and no two words of the image and the log overlap in part; C118_raw_image: always, for a raw image with a crash dump; C118_raw_image_log: with a log, if no memory is shown twice. C118_session_exact: exactly which reads and writes of the debug monitor are misaligned; C118_session_partial: none that is at a multiple of its size, nor the fault report, if all blocks and aliases begin at multiples of 4. Missing: other ELF files, logs, blocks and addresses. The code violates the property for these: C118_segment_witness, C118_header_witness, C118_log_witness, C118_session_witness."
  },
  {
   "property": "C119",
   "status": "partial",
   "theorems": [
    "Verif.Props.C119_no_open_variable_partial",
    "Verif.Props.C119_one_volatile",
    "Verif.Props.C119_main_witness",
    "Verif.Props.C119_dump_witness",
    "Verif.Props.C119_volatile_needed"
   ],
   "note": "Model/Locals.lean has each function with a __try as far as its variables are concerned, and the rule of C11 7.13.2.1 paragraph 3. C119_no_open_variable_partial: holds for all of them but main and the two that read dumps. Missing: these three. The code violates it there: C119_main_witness (commandLine, whenever start-up fails), C119_dump_witness (object, whenever a dump is refused); C119_one_volatile: with these variables volatile it would hold. C119_volatile_needed: most of the volatiles that the code has could not be left out."
  },
  {
   "property": "C120",
   "status": "partial",
   "theorems": [
    "Verif.Props.C120_start_up_partial",
    "Verif.Props.C120_unsigned",
    "Verif.Props.C120_dump",
    "Verif.Props.C120_ascii",
    "Verif.Props.C120_symbol",
    "Verif.Props.C120_witness"
   ],
   "note": "Model/Ctype.lean repeats the functions on the way to isspace, which is undefined there for negative characters other than EOF (C11 7.4p1). C120_start_up_partial: start-up is the same as in the other properties if the lines about memory and the registers s0-s31 are ASCII; C120_unsigned: always, where char is unsigned; C120_dump and C120_ascii: for dumps made by CrashCatcher and logs of ASCII. Missing: other bytes in these lines where char is signed. The code violates it there: C120_symbol (any log that begins with a memory line whose symbol has such a byte), C120_witness (start-up with a symbol in UTF-8)."
  },
  {
   "property": "C121",
   "status": "proved",
   "theorems": [
    "Verif.Props.C121_start_up",
    "Verif.Props.C121_after_use",
    "Verif.Props.C121_session",
    "Verif.Props.C121_session_only"
   ],
   "note": "Spec/Again.lean says what two start-ups and two sessions have in common. C121_start_up: from any two states for which fopen and malloc will answer alike; C121_after_use: from a fresh state and from any state reached by using CrashDebug, with unchanged files and enough memory; C121_session: the debug sessions that follow, and the values read in them; C121_session_only: the later session does nothing else, so that undefined behaviour agrees, too. mriPlatform_setWaitForGdbConnect, which is for tests only, is not called in the earlier sessions. The state of the program outside the command-line object, the simulator and the registers (the catch handlers of try_catch.h, the core of MRI) is not part of it."
  },
  {
   "property": "C122",
   "status": "partial",
   "theorems": [
    "Verif.Props.C122_little",
    "Verif.Props.C122_big_read",
    "Verif.Props.C122_big_write",
    "Verif.Props.C122_image",
    "Verif.Props.C122_bytes_partial",
    "Verif.Props.C122_read_back",
    "Verif.Props.C122_palindromes",
    "Verif.Props.C122_elf",
    "Verif.Props.C122_packets",
    "Verif.Props.C122_packets_set",
    "Verif.Props.C122_set_and_sent",
    "Verif.Props.C122_witness"
   ],
   "note": "Model/Order.lean and Model/OrderPacket.lean repeat the accesses, the check of ELF headers and the sending of registers with the byte order of the host as a parameter. C122_bytes_partial: accesses to single bytes; C122_little: all accesses where the host is little-endian, as in the other properties. Missing: 16 and 32 bits on the other hosts. The code violates it there: C122_big_read and C122_big_write say what happens instead for every state, address and value, C122_palindromes that no other value is read right, C122_witness gives a word, C122_elf says that all valid ELF headers are refused, C122_packets what is sent for the registers and C122_packets_set what GDB sets. C122_image: images are loaded alike on every host; C122_set_and_sent: GDB gets the registers it has set on every host; C122_read_back: what is written is read back on every host. Other code that depends on the byte order (program headers, words in a dump) is not considered."
  }
 ]
}