{
 "claims": [
  {
   "property": "C01",
   "status": "proved",
   "theorems": [
    "Atop.C01_round_trip"
   ],
   "note": ""
  },
  {
   "property": "C02",
   "status": "proved",
   "theorems": [
    "Atop.C02_cut_yields_complete_samples"
   ],
   "note": ""
  },
  {
   "property": "C03",
   "status": "proved",
   "theorems": [
    "Atop.C03_truncation_reported_iff"
   ],
   "note": ""
  },
  {
   "property": "C04",
   "status": "proved",
   "theorems": [
    "Atop.C04_only_zlib_error_suppressed",
    "Atop.C04_only_zlib_error_suppressed_own_header",
    "Atop.C04_never_zlib_error"
   ],
   "note": ""
  },
  {
   "property": "C05",
   "status": "proved",
   "theorems": [
    "Atop.C05_at_most",
    "Atop.C05_prefix",
    "Atop.C05_stops_cleanly"
   ],
   "note": ""
  },
  {
   "property": "C06",
   "status": "proved",
   "theorems": [
    "Atop.C06_position_after_steps",
    "Atop.C06_no_over_read",
    "Atop.C06_ended_is_final"
   ],
   "note": ""
  },
  {
   "property": "C07",
   "status": "proved",
   "theorems": [
    "Atop.C07_stepping_is_running",
    "Atop.C07_resume",
    "Atop.C07_early_stop",
    "Atop.C07_header_passed",
    "Atop.C07_header_refused"
   ],
   "note": ""
  },
  {
   "property": "C08",
   "status": "proved",
   "theorems": [
    "Atop.C08_default",
    "Atop.C08_header_accepted_iff",
    "Atop.C08_header_result",
    "Atop.C08_short_file_accepted"
   ],
   "note": ""
  },
  {
   "property": "C09",
   "status": "proved",
   "theorems": [
    "Atop.C09_rejection_kinds",
    "Atop.C09_known_version_value_error",
    "Atop.C09_unchecked",
    "Atop.C09_damaged_container"
   ],
   "note": ""
  },
  {
   "property": "C10",
   "status": "proved",
   "theorems": [
    "Atop.C10_semantic_version",
    "Atop.C10_top_bit",
    "Atop.C10_text_injective",
    "Atop.C10_text_round_trip"
   ],
   "note": ""
  },
  {
   "property": "C11",
   "status": "proved",
   "theorems": [
    "Atop.C11_dispatch",
    "Atop.C11_header_sizes",
    "Atop.C11_lookup"
   ],
   "note": ""
  },
  {
   "property": "C12",
   "status": "proved",
   "theorems": [
    "Atop.C12_slice_width"
   ],
   "note": ""
  },
  {
   "property": "C13",
   "status": "proved",
   "theorems": [
    "Atop.C13_task_statistics",
    "Atop.C13_count_attribute",
    "Atop.C13_damaged_container"
   ],
   "note": ""
  },
  {
   "property": "C14",
   "status": "proved",
   "theorems": [
    "Atop.C14_cgroup_statistics",
    "Atop.C14_entry_bytes",
    "Atop.C14_pid_partition"
   ],
   "note": ""
  },
  {
   "property": "C15",
   "status": "proved",
   "theorems": [
    "Atop.C15_no_cgroups",
    "Atop.C15_next_record"
   ],
   "note": ""
  },
  {
   "property": "C16",
   "status": "proved",
   "theorems": [
    "Atop.C16_keys",
    "Atop.C16_nested"
   ],
   "note": ""
  },
  {
   "property": "C17",
   "status": "proved",
   "theorems": [
    "Atop.C17_limited",
    "Atop.C17_every_list",
    "Atop.C17_kept"
   ],
   "note": ""
  },
  {
   "property": "C18",
   "status": "proved",
   "theorems": [
    "Atop.C18_int",
    "Atop.C18_float",
    "Atop.C18_encoding"
   ],
   "note": ""
  },
  {
   "property": "C19",
   "status": "proved",
   "theorems": [
    "Atop.C19_text",
    "Atop.C19_deterministic",
    "Atop.C19_round_trip",
    "Atop.C19_sublist",
    "Atop.C19_char"
   ],
   "note": ""
  },
  {
   "property": "C20",
   "status": "proved",
   "theorems": [
    "Atop.C20_json",
    "Atop.C20_cgroup"
   ],
   "note": ""
  },
  {
   "property": "C21",
   "status": "proved",
   "theorems": [
    "Atop.C21_visible",
    "Atop.C21_hidden"
   ],
   "note": ""
  },
  {
   "property": "C22",
   "status": "proved",
   "theorems": [
    "Atop.C22_cpu"
   ],
   "note": ""
  },
  {
   "property": "C23",
   "status": "proved",
   "theorems": [
    "Atop.C23_DSK",
    "Atop.C23_LVM",
    "Atop.C23_MDD",
    "Atop.C23_NETL"
   ],
   "note": ""
  },
  {
   "property": "C24",
   "status": "proved",
   "theorems": [
    "Atop.C24_PRC",
    "Atop.C24_PRD",
    "Atop.C24_PRM",
    "Atop.C24_PRN",
    "Atop.C24_PRG"
   ],
   "note": ""
  },
  {
   "property": "C25",
   "status": "proved",
   "theorems": [
    "Atop.C25_CPL",
    "Atop.C25_CPU",
    "Atop.C25_MEM",
    "Atop.C25_NETU",
    "Atop.C25_PAG",
    "Atop.C25_SWP"
   ],
   "note": ""
  },
  {
   "property": "C26",
   "status": "proved",
   "theorems": [
    "Atop.C26_raises_iff",
    "Atop.C26_struct_to_dict"
   ],
   "note": ""
  },
  {
   "property": "C27",
   "status": "proved",
   "theorems": [
    "Atop.C27_unsupported"
   ],
   "note": ""
  },
  {
   "property": "C28",
   "status": "proved",
   "theorems": [
    "Atop.C28_gives_or_fails",
    "Atop.C28_output",
    "Atop.C28_failure",
    "Atop.C28_no_samples",
    "Atop.C28_written_log"
   ],
   "note": ""
  },
  {
   "property": "C29",
   "status": "proved",
   "theorems": [
    "Atop.C29_full_output",
    "Atop.C29_refused",
    "Atop.C29_written_log",
    "Atop.C29_cut_log"
   ],
   "note": ""
  },
  {
   "property": "C30",
   "status": "proved",
   "theorems": [
    "Atop.C30_stdout",
    "Atop.C30_stdout_exception",
    "Atop.C30_prefix",
    "Atop.C30_only_own_files",
    "Atop.C30_append"
   ],
   "note": ""
  },
  {
   "property": "C31",
   "status": "proved",
   "theorems": [
    "Atop.C31_opener"
   ],
   "note": ""
  },
  {
   "property": "C32",
   "status": "proved",
   "theorems": [
    "Atop.C32_cut_container",
    "Atop.C32_never_silent",
    "Atop.C32_cut_container_reported"
   ],
   "note": ""
  },
  {
   "property": "C33",
   "status": "proved",
   "theorems": [
    "Atop.C33_latched",
    "Atop.C33_evaluate_once"
   ],
   "note": ""
  },
  {
   "property": "C34",
   "status": "proved",
   "theorems": [
    "Atop.C34_get_record",
    "Atop.C34_end_of_file"
   ],
   "note": ""
  },
  {
   "property": "C35",
   "status": "proved",
   "theorems": [
    "Atop.C35_end_marker"
   ],
   "note": ""
  },
  {
   "property": "C36",
   "status": "proved",
   "theorems": [
    "Atop.C36_growing_log",
    "Atop.C36_growing_log_own_header"
   ],
   "note": ""
  },
  {
   "property": "C37",
   "status": "proved",
   "theorems": [
    "Atop.C37_bounded_by_size",
    "Atop.C37_terminates"
   ],
   "note": ""
  },
  {
   "property": "C38",
   "status": "proved",
   "theorems": [
    "Atop.C38_attributes",
    "Atop.C38_readable",
    "Atop.C38_completely_filled"
   ],
   "note": ""
  },
  {
   "property": "C39",
   "status": "proved",
   "theorems": [
    "Atop.C39_layout",
    "Atop.C39_elements",
    "Atop.C39_classes_used"
   ],
   "note": ""
  },
  {
   "property": "C40",
   "status": "proved",
   "theorems": [
    "Atop.C40_limiters",
    "Atop.C40_record_positions",
    "Atop.C40_header_positions"
   ],
   "note": ""
  },
  {
   "property": "C41",
   "status": "proved",
   "theorems": [
    "Atop.C41_determined"
   ],
   "note": ""
  },
  {
   "property": "C42",
   "status": "proved",
   "theorems": [
    "Atop.C42_json"
   ],
   "note": ""
  },
  {
   "property": "C43",
   "status": "proved",
   "theorems": [
    "Atop.C43_printed",
    "Atop.C43_error",
    "Atop.C43_defaults",
    "Atop.C43_only"
   ],
   "note": ""
  },
  {
   "property": "C44",
   "status": "proved",
   "theorems": [
    "Atop.C44_ascii",
    "Atop.C44_one_line",
    "Atop.C44_stdout_lines"
   ],
   "note": ""
  },
  {
   "property": "C45",
   "status": "proved",
   "theorems": [
    "Atop.C45_rfc"
   ],
   "note": ""
  },
  {
   "property": "C46",
   "status": "proved",
   "theorems": [
    "Atop.C46_faithful",
    "Atop.C46_stdout"
   ],
   "note": ""
  },
  {
   "property": "C47",
   "status": "proved",
   "theorems": [
    "Atop.C47_samples",
    "Atop.C47_finished",
    "Atop.C47_position",
    "Atop.C47_throw"
   ],
   "note": ""
  },
  {
   "property": "C48",
   "status": "proved",
   "theorems": [
    "Atop.C48_interleaving",
    "Atop.C48_any_file"
   ],
   "note": ""
  },
  {
   "property": "C49",
   "status": "proved",
   "theorems": [
    "Atop.C49_layout",
    "Atop.C49_document",
    "Atop.C49_printed",
    "Atop.C49_complete"
   ],
   "note": ""
  },
  {
   "property": "C50",
   "status": "proved",
   "theorems": [
    "Atop.C50_wrong_magic",
    "Atop.C50_incompatible",
    "Atop.C50_magic_recoverable"
   ],
   "note": ""
  },
  {
   "property": "C51",
   "status": "proved",
   "theorems": [
    "Atop.C51_exact",
    "Atop.C51_unambiguous",
    "Atop.C51_words",
    "Atop.C51_usage",
    "Atop.C51_greedy",
    "Atop.C51_unknown_option",
    "Atop.C51_dashes"
   ],
   "note": ""
  },
  {
   "property": "C52",
   "status": "proved",
   "theorems": [
    "Atop.C52_program",
    "Atop.C52_log"
   ],
   "note": ""
  },
  {
   "property": "C53",
   "status": "proved",
   "theorems": [
    "Atop.C53_decoder",
    "Atop.C53_written"
   ],
   "note": ""
  },
  {
   "property": "C54",
   "status": "proved",
   "theorems": [
    "Atop.C54_any_stream",
    "Atop.C54_any_file",
    "Atop.C54_program"
   ],
   "note": ""
  },
  {
   "property": "C55",
   "status": "proved",
   "theorems": [
    "Atop.Src.C55_source",
    "Atop.Src.C55_source_too_old",
    "Atop.C55_unchecked",
    "Atop.C55_too_old",
    "Atop.C55_checked"
   ],
   "note": ""
  },
  {
   "property": "C56",
   "status": "proved",
   "theorems": [
    "Atop.C56_any_stream",
    "Atop.C56_any_file",
    "Atop.C56_program",
    "Atop.C56_row_unique"
   ],
   "note": ""
  },
  {
   "property": "C57",
   "status": "proved",
   "theorems": [
    "Atop.C57_block",
    "Atop.C57_cut_and_trailing",
    "Atop.C57_every_content",
    "Atop.C57_round_trip",
    "Atop.C57_crash_safety",
    "Atop.C57_growing_log",
    "Atop.C57_bounded_by_size"
   ],
   "note": ""
  },
  {
   "property": "C58",
   "status": "proved",
   "theorems": [
    "Atop.C58_details_only_add",
    "Atop.C58_details_ignored",
    "Atop.C58_request_selects",
    "Atop.C58_request_printed"
   ],
   "note": ""
  },
  {
   "property": "C59",
   "status": "proved",
   "theorems": [
    "Atop.C59_rerun",
    "Atop.C59_zlib_format",
    "Atop.Src.C59_source"
   ],
   "note": ""
  },
  {
   "property": "C60",
   "status": "proved",
   "theorems": [
    "Atop.C60_every_content",
    "Atop.C60_cut_noticed",
    "Atop.C60_intact",
    "Atop.C60_round_trip",
    "Atop.C60_cut_log",
    "Atop.C60_cut_any",
    "Atop.C60_nothing_left"
   ],
   "note": ""
  },
  {
   "property": "C61",
   "status": "proved",
   "theorems": [
    "Atop.C61_parse_file",
    "Atop.C61_determined",
    "Atop.C61_program"
   ],
   "note": ""
  },
  {
   "property": "C62",
   "status": "proved",
   "theorems": [
    "Atop.C62_float",
    "Atop.C62_special"
   ],
   "note": ""
  },
  {
   "property": "C63",
   "status": "proved",
   "theorems": [
    "Atop.C63_one_moment",
    "Atop.C63_samples",
    "Atop.C63_header_first",
    "Atop.C63_still",
    "Atop.C63_program",
    "Atop.C63_still_program",
    "Atop.C63_needs_whole_records"
   ],
   "note": ""
  },
  {
   "property": "C64",
   "status": "proved",
   "theorems": [
    "Atop.C64_independent",
    "Atop.C64_damage",
    "Atop.C64_document"
   ],
   "note": ""
  },
  {
   "property": "C65",
   "status": "proved",
   "theorems": [
    "Atop.C65_get_header",
    "Atop.C65_step",
    "Atop.C65_history",
    "Atop.C65_separate",
    "Atop.C65_kept",
    "Atop.C65_untouched",
    "Atop.C65_unchecked_step",
    "Atop.C65_unchecked_history",
    "Atop.C65_unchecked_separate",
    "Atop.C65_unchecked_kept",
    "Atop.C65_unchecked_untouched"
   ],
   "note": ""
  },
  {
   "property": "C66",
   "status": "proved",
   "theorems": [
    "Atop.Src.C66_parsers",
    "Atop.Src.C66_parse_PRD"
   ],
   "note": ""
  },
  {
   "property": "C67",
   "status": "proved",
   "theorems": [
    "Atop.Src.C67_version",
    "Atop.Src.C67_check_compatibility",
    "Atop.Src.C67_get_header"
   ],
   "note": ""
  },
  {
   "property": "C68",
   "status": "proved",
   "theorems": [
    "Atop.Src.C68_readers",
    "Atop.Src.C68_generate_statistics",
    "Atop.Src.C68_values",
    "Atop.Src.C68_unchecked"
   ],
   "note": ""
  },
  {
   "property": "C69",
   "status": "proved",
   "theorems": [
    "Atop.Src.C69_struct_to_dict",
    "Atop.Src.C69_header",
    "Atop.Src.C69_cgroup"
   ],
   "note": ""
  },
  {
   "property": "C70",
   "status": "proved",
   "theorems": [
    "Atop.Src.C70_parse_file",
    "Atop.Src.C70_defaults",
    "Atop.Src.C70_main",
    "Atop.Src.C70_program",
    "Atop.Src.C70_log"
   ],
   "note": ""
  },
  {
   "property": "C71",
   "status": "proved",
   "theorems": [
    "Atop.Src.C71_import",
    "Atop.Src.C71_structs",
    "Atop.Src.C71_layout",
    "Atop.Src.C71_program",
    "Atop.Src.C71_main"
   ],
   "note": ""
  },
  {
   "property": "C72",
   "status": "proved",
   "theorems": [
    "Atop.Src.C72_parse_args",
    "Atop.Src.C72_grammar",
    "Atop.Src.C72_usage",
    "Atop.Src.C72_exit"
   ],
   "note": ""
  },
  {
   "property": "C73",
   "status": "proved",
   "theorems": [
    "Atop.Src.C73_samples",
    "Atop.Src.C73_quiet",
    "Atop.Src.C73_finished",
    "Atop.Src.C73_throw"
   ],
   "note": ""
  },
  {
   "property": "C74",
   "status": "proved",
   "theorems": [
    "Atop.Src.C74_header",
    "Atop.Src.C74_iteration",
    "Atop.Src.C74_no_header",
    "Atop.Src.C74_parse_file",
    "Atop.Src.C74_program",
    "Atop.Src.C74_cut_log"
   ],
   "note": ""
  },
  {
   "property": "C75",
   "status": "proved",
   "theorems": [
    "Atop.Src.C75_usage",
    "Atop.Src.C75_header_json",
    "Atop.Src.C75_written",
    "Atop.Src.C75_command"
   ],
   "note": ""
  },
  {
   "property": "C76",
   "status": "proved",
   "theorems": [
    "Atop.C76_samples",
    "Atop.C76_program"
   ],
   "note": ""
  },
  {
   "property": "C77",
   "status": "proved",
   "theorems": [
    "Atop.C77_text",
    "Atop.C77_stdout",
    "Atop.Src.C77_source",
    "Atop.Src.C77_program"
   ],
   "note": ""
  },
  {
   "property": "C78",
   "status": "proved",
   "theorems": [
    "Atop.Src.C78_as_next",
    "Atop.Src.C78_iterators",
    "Atop.Src.C78_any_file",
    "Atop.Src.C78_log"
   ],
   "note": ""
  },
  {
   "property": "C79",
   "status": "proved",
   "theorems": [
    "Atop.Src.C79_get_record",
    "Atop.Src.C79_get_sstat",
    "Atop.Src.C79_get_tstat",
    "Atop.Src.C79_get_cstat",
    "Atop.Src.C79_get_cstat_old",
    "Atop.Src.C79_unchecked_record",
    "Atop.Src.C79_unchecked_sstat",
    "Atop.Src.C79_unchecked_tstat",
    "Atop.Src.C79_unchecked_tstat_asking",
    "Atop.Src.C79_unchecked_cstat",
    "Atop.Src.C79_unchecked_tstat_old",
    "Atop.Src.C79_unchecked_cstat_old"
   ],
   "note": ""
  },
  {
   "property": "C80",
   "status": "proved",
   "theorems": [
    "Atop.C80_whole_reads",
    "Atop.C80_program",
    "Atop.C80_decoder",
    "Atop.C80_own_header",
    "Atop.C80_refused",
    "Atop.C80_complete",
    "Atop.C80_later_changes",
    "Atop.C80_covers_growing",
    "Atop.C80_covers_still",
    "Atop.C80_endings",
    "Atop.C80_printed",
    "Atop.C80_parseables",
    "Atop.C80_unsupported"
   ],
   "note": ""
  },
  {
   "property": "C81",
   "status": "proved",
   "theorems": [
    "Atop.C81_failed_read",
    "Atop.C81_header_fails",
    "Atop.C81_own_header",
    "Atop.C81_printed",
    "Atop.C81_parseables",
    "Atop.C81_covers",
    "Atop.C81_main"
   ],
   "note": ""
  }
 ]
}