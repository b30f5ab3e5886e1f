{
 "claims": [
  {
   "property": "C01",
   "status": "proved",
   "theorems": [
    "Traverse.C01_session",
    "Traverse.C01_universal_complete"
   ],
   "note": ""
  },
  {
   "property": "C02",
   "status": "proved",
   "theorems": [
    "Traverse.C02_session",
    "Traverse.C02_resumed",
    "Traverse.C02_preorder",
    "Traverse.C02_kinds"
   ],
   "note": ""
  },
  {
   "property": "C03",
   "status": "proved",
   "theorems": [
    "Traverse.C03_session",
    "Traverse.C03_files"
   ],
   "note": ""
  },
  {
   "property": "C04",
   "status": "proved",
   "theorems": [
    "Traverse.C04_session",
    "Traverse.C04_directories"
   ],
   "note": ""
  },
  {
   "property": "C05",
   "status": "proved",
   "theorems": [
    "Traverse.C05_session",
    "Traverse.C05_session_nothing_deeper",
    "Traverse.C05_depth_limit",
    "Traverse.C05_depth_limit_nodes",
    "Traverse.C05_nothing_deeper",
    "Traverse.C05_settings",
    "Traverse.C05_machine_integers",
    "Traverse.C05_huge_limit_visits_nothing"
   ],
   "note": ""
  },
  {
   "property": "C06",
   "status": "proved",
   "theorems": [
    "Traverse.C06_session",
    "Traverse.C06_depth"
   ],
   "note": ""
  },
  {
   "property": "C07",
   "status": "proved",
   "theorems": [
    "Traverse.C07_session",
    "Traverse.C07_balanced",
    "Traverse.C07_handler_inside"
   ],
   "note": ""
  },
  {
   "property": "C08",
   "status": "proved",
   "theorems": [
    "Traverse.C08_session",
    "Traverse.C08_session_prefix",
    "Traverse.C08_skipDir_prunes",
    "Traverse.C08_skipDir_prefix"
   ],
   "note": ""
  },
  {
   "property": "C09",
   "status": "partial",
   "theorems": [
    "Traverse.C09_session_partial",
    "Traverse.C09_skipAll_does_not_end",
    "Traverse.C09_skipAll_partial"
   ],
   "note": ""
  },
  {
   "property": "C10",
   "status": "partial",
   "theorems": [
    "Traverse.C10_session_partial",
    "Traverse.C10_files_skipDir_ends",
    "Traverse.C10_files_skip_partial"
   ],
   "note": ""
  },
  {
   "property": "C11",
   "status": "proved",
   "theorems": [
    "Traverse.C11_session",
    "Traverse.C11_genuine_error",
    "Traverse.C11_resumed"
   ],
   "note": ""
  },
  {
   "property": "C12",
   "status": "proved",
   "theorems": [
    "Traverse.C12_session",
    "Traverse.C12_nil_means_ok",
    "Traverse.C12_resumed",
    "Traverse.C12_resumed_ways"
   ],
   "note": ""
  },
  {
   "property": "C13",
   "status": "proved",
   "theorems": [
    "Traverse.C13_session",
    "Traverse.C13_invocation_metrics"
   ],
   "note": ""
  },
  {
   "property": "C14",
   "status": "proved",
   "theorems": [
    "Traverse.C14_session",
    "Traverse.C14_root_stat",
    "Traverse.C14_root_stat_default",
    "Traverse.C14_spawn",
    "Traverse.C14_resumed"
   ],
   "note": ""
  },
  {
   "property": "C15",
   "status": "proved",
   "theorems": [
    "Traverse.C15_session_like_empty",
    "Traverse.C15_session_isolated",
    "Traverse.C15_session_delivered",
    "Traverse.C15_unreadable_like_empty",
    "Traverse.C15_unreadable_isolated",
    "Traverse.C15_unreadable_delivered",
    "Traverse.C15_session_any",
    "Traverse.C15_resumed"
   ],
   "note": ""
  },
  {
   "property": "C16",
   "status": "partial",
   "theorems": [
    "Traverse.C16_skipAll_does_not_end",
    "Traverse.C16_directories_ignore_skipDir",
    "Traverse.C16_skip_handler_partial",
    "Traverse.C16_spawn_partial",
    "Traverse.C16_fastward_partial",
    "Traverse.C16_session_partial"
   ],
   "note": ""
  },
  {
   "property": "C17",
   "status": "partial",
   "theorems": [
    "Traverse.C17_session_partial",
    "Traverse.C17_filter_partial",
    "Traverse.C17_trigger_cases",
    "Traverse.C17_root_panic_escapes",
    "Traverse.C17_panic_rescued_partial",
    "Traverse.C17_resumed_partial",
    "Traverse.C17_resumed_escapes",
    "Traverse.C17_resumed_witness"
   ],
   "note": ""
  },
  {
   "property": "C18",
   "status": "proved",
   "theorems": [
    "Traverse.C18_where",
    "Traverse.C18_saved_state",
    "Traverse.C18_handler_panic"
   ],
   "note": ""
  },
  {
   "property": "C19",
   "status": "partial",
   "theorems": [
    "Traverse.C19_as_if_dozing",
    "Traverse.C19_fastward_partial",
    "Traverse.C19_files_never_wake",
    "Traverse.C19_same_name_panics",
    "Traverse.C19_filtered_out",
    "Traverse.C19_screened",
    "Traverse.C19_filter_never_wakes"
   ],
   "note": ""
  },
  {
   "property": "C20",
   "status": "partial",
   "theorems": [
    "Traverse.C20_spawn_partial",
    "Traverse.C20_spawn_files_partial",
    "Traverse.C20_root_resumes_nothing",
    "Traverse.C20_false_in_general",
    "Traverse.C20_spawn_directories_partial",
    "Traverse.C20_unreadable"
   ],
   "note": ""
  },
  {
   "property": "C21",
   "status": "partial",
   "theorems": [
    "Traverse.C21_session",
    "Traverse.C21_calls",
    "Traverse.C21_navigation",
    "Traverse.C21_fastward_partial",
    "Traverse.C21_resumed"
   ],
   "note": ""
  },
  {
   "property": "C22",
   "status": "partial",
   "theorems": [
    "Traverse.C22_session",
    "Traverse.C22_conservation",
    "Traverse.C22_reach",
    "Traverse.C22_fastward_partial",
    "Traverse.C22_fastward_unaccounted",
    "Traverse.C22_resumed"
   ],
   "note": ""
  },
  {
   "property": "C23",
   "status": "proved",
   "theorems": [
    "Traverse.C23_resumed",
    "Traverse.C23_scope_and_negation",
    "Traverse.C23_refused",
    "Traverse.C23_pattern_only_in_scope",
    "Traverse.C23_session"
   ],
   "note": ""
  },
  {
   "property": "C24",
   "status": "proved",
   "theorems": [
    "Traverse.C24_session",
    "Traverse.C24_scope",
    "Traverse.C24_resumed"
   ],
   "note": ""
  },
  {
   "property": "C25",
   "status": "partial",
   "theorems": [
    "Traverse.C25_session",
    "Traverse.C25_fastward_partial",
    "Traverse.C25_fastward_lost",
    "Traverse.C25_window",
    "Traverse.C25_once",
    "Traverse.C25_window_of_tree",
    "Traverse.C25_window_of_tree_files",
    "Traverse.C25_resumed",
    "Traverse.C25_forgotten"
   ],
   "note": ""
  },
  {
   "property": "C26",
   "status": "partial",
   "theorems": [
    "Traverse.C26_sleep_does_not_end",
    "Traverse.C26_sleep_partial",
    "Traverse.C26_session_partial",
    "Traverse.C26_files_session_partial",
    "Traverse.C26_resumed_skipAll"
   ],
   "note": ""
  },
  {
   "property": "C27",
   "status": "partial",
   "theorems": [
    "Traverse.C27_spawn_partial",
    "Traverse.C27_fastward_no_begin",
    "Traverse.C27_bracket_partial",
    "Traverse.C27_no_pool_partial"
   ],
   "note": ""
  },
  {
   "property": "C28",
   "status": "proved",
   "theorems": [
    "Traverse.C28_globEx_definition",
    "Traverse.C28_resumed_globEx",
    "Traverse.C28_poly_definition",
    "Traverse.C28_resumed_poly",
    "Traverse.C28_child_definition",
    "Traverse.C28_node_definition",
    "Traverse.C28_sample_definition",
    "Traverse.C28_custom_definition",
    "Traverse.C28_resumed_child",
    "Traverse.C28_resumed_node",
    "Traverse.C28_resumed_sample",
    "Traverse.C28_resumed_custom",
    "Traverse.C28_resume_no_calls",
    "Traverse.C28_resume_errors",
    "Traverse.C28_option_error",
    "Traverse.C28_unregistrable",
    "Traverse.C28_no_calls",
    "Traverse.C28_hibernation_begins"
   ],
   "note": ""
  },
  {
   "property": "C29",
   "status": "partial",
   "theorems": [
    "Traverse.C29_relic_validate_partial",
    "Traverse.C29_using_refused_partial",
    "Traverse.C29_relic_unchecked",
    "Traverse.C29_refused_partial",
    "Traverse.C29_accepted_partial"
   ],
   "note": ""
  },
  {
   "property": "C30",
   "status": "proved",
   "theorems": [
    "Traverse.C30_session",
    "Traverse.C30_session_at_most",
    "Traverse.C30_resumed_at_most",
    "Traverse.C30_resumed_in_sample",
    "Traverse.C30_resumed",
    "Traverse.C30_resumed_sample",
    "Traverse.C30_sampling",
    "Traverse.C30_at_most"
   ],
   "note": ""
  },
  {
   "property": "C31",
   "status": "partial",
   "theorems": [
    "Traverse.C31_session_partial",
    "Traverse.C31_resumed_partial",
    "Traverse.C31_sample_filter_partial",
    "Traverse.C31_custom",
    "Traverse.C31_own",
    "Traverse.C31_both_kinds"
   ],
   "note": ""
  },
  {
   "property": "C32",
   "status": "partial",
   "theorems": [
    "Traverse.C32_session_hides",
    "Traverse.C32_resumed_hidden",
    "Traverse.C32_resumed_hides",
    "Traverse.C32_unsampled_partial",
    "Traverse.C32_sampling_hides"
   ],
   "note": ""
  },
  {
   "property": "C33",
   "status": "partial",
   "theorems": [
    "Traverse.C33_session_partial",
    "Traverse.C33_node_filter_loses_children",
    "Traverse.C33_children_partial",
    "Traverse.C33_resumed_partial"
   ],
   "note": ""
  },
  {
   "property": "C34",
   "status": "partial",
   "theorems": [
    "Traverse.C34_chain_order_partial",
    "Traverse.C34_nanny_only_without_filter",
    "Traverse.C34_once_handler_last",
    "Traverse.C34_fastward_is_last",
    "Traverse.C34_actual_order",
    "Traverse.C34_manifest_sublist",
    "Traverse.C34_manifest_defers"
   ],
   "note": ""
  },
  {
   "property": "C35",
   "status": "proved",
   "theorems": [
    "Traverse.C35_short_circuit",
    "Traverse.C35_all_run"
   ],
   "note": ""
  },
  {
   "property": "C36",
   "status": "proved",
   "theorems": [
    "Traverse.C36_positional_set",
    "Traverse.C36_insert_delete",
    "Traverse.C36_all",
    "Traverse.C36_position"
   ],
   "note": ""
  },
  {
   "property": "C37",
   "status": "proved",
   "theorems": [
    "Traverse.C37_stack"
   ],
   "note": ""
  },
  {
   "property": "C38",
   "status": "proved",
   "theorems": [
    "Traverse.C38_runAll",
    "Traverse.C38_reset",
    "Traverse.C38_elements"
   ],
   "note": ""
  },
  {
   "property": "C39",
   "status": "proved",
   "theorems": [
    "Traverse.C39_notification",
    "Traverse.C39_exactly_once",
    "Traverse.C39_mute_unmute",
    "Traverse.C39_session",
    "Traverse.C39_resumed_session"
   ],
   "note": ""
  },
  {
   "property": "C40",
   "status": "partial",
   "theorems": [
    "Traverse.C40_wake_stays_muted",
    "Traverse.C40_muteAll_partial"
   ],
   "note": ""
  },
  {
   "property": "C41",
   "status": "partial",
   "theorems": [
    "Traverse.C41_tap_then_chain_partial",
    "Traverse.C41_tap_after_chain"
   ],
   "note": ""
  },
  {
   "property": "C42",
   "status": "proved",
   "theorems": [
    "Traverse.C42_message_bus",
    "Traverse.C42_delivered",
    "Traverse.C42_listings",
    "Traverse.C42_reset",
    "Traverse.C42_registers",
    "Traverse.C42_deregisters"
   ],
   "note": ""
  },
  {
   "property": "C43",
   "status": "proved",
   "theorems": [
    "Traverse.C43_any_order",
    "Traverse.C43_any_order_resumed",
    "Traverse.C43_order_matters",
    "Traverse.C43_order",
    "Traverse.C43_resume",
    "Traverse.C43_last_wins",
    "Traverse.C43_defaults",
    "Traverse.C43_listeners",
    "Traverse.C43_conditional",
    "Traverse.C43_afterwards",
    "Traverse.C43_supplied"
   ],
   "note": ""
  },
  {
   "property": "C44",
   "status": "partial",
   "theorems": [
    "Traverse.C44_document_state",
    "Traverse.C44_document_metrics",
    "Traverse.C44_document_options",
    "Traverse.C44_round_trip_partial",
    "Traverse.C44_filters",
    "Traverse.C44_sample_poly_lost",
    "Traverse.C44_not_persisted"
   ],
   "note": ""
  },
  {
   "property": "C45",
   "status": "partial",
   "theorems": [
    "Traverse.C45_comparison_partial",
    "Traverse.C45_poly_unnoticed"
   ],
   "note": ""
  },
  {
   "property": "C46",
   "status": "partial",
   "theorems": [
    "Traverse.C46_spawn_partial",
    "Traverse.C46_fastward_forgets"
   ],
   "note": ""
  },
  {
   "property": "C47",
   "status": "proved",
   "theorems": [
    "Traverse.C47_shared",
    "Traverse.C47_shared_resumed",
    "Traverse.C47_at_most_once",
    "Traverse.C47_exactly_once",
    "Traverse.C47_not_cut_short",
    "Traverse.C47_every_node_once",
    "Traverse.C47_resume_not_cut_short",
    "Traverse.C47_no_pool"
   ],
   "note": ""
  },
  {
   "property": "C48",
   "status": "proved",
   "theorems": [
    "Traverse.C48_progress",
    "Traverse.C48_ends",
    "Traverse.C48_can_finish",
    "Traverse.C48_sizes",
    "Traverse.C48_resume_sizes"
   ],
   "note": ""
  },
  {
   "property": "C49",
   "status": "proved",
   "theorems": [
    "Traverse.C49_select",
    "Traverse.C49_agree",
    "Traverse.C49_navigate"
   ],
   "note": ""
  },
  {
   "property": "C50",
   "status": "partial",
   "theorems": [
    "Traverse.C50_sub_path_partial",
    "Traverse.C50_multibyte",
    "Traverse.C50_session_partial"
   ],
   "note": ""
  },
  {
   "property": "C51",
   "status": "proved",
   "theorems": [
    "Traverse.C51_session",
    "Traverse.C51_session_order",
    "Traverse.C51_session_ascending",
    "Traverse.C51_resumed",
    "Traverse.C51_same_session",
    "Traverse.C51_same_order",
    "Traverse.C51_ascending"
   ],
   "note": ""
  },
  {
   "property": "C52",
   "status": "partial",
   "theorems": [
    "Traverse.C52_session",
    "Traverse.C52_resumed_partial",
    "Traverse.C52_unparented",
    "Traverse.C52_glob_ex",
    "Traverse.C52_missing_separator",
    "Traverse.C52_excluded_extension"
   ],
   "note": ""
  },
  {
   "property": "C53",
   "status": "proved",
   "theorems": [
    "Traverse.C53_session_root",
    "Traverse.C53_session",
    "Traverse.C53_poly",
    "Traverse.C53_nested",
    "Traverse.C53_root_file_panics",
    "Traverse.C53_resumed_panics"
   ],
   "note": ""
  },
  {
   "property": "C54",
   "status": "proved",
   "theorems": [
    "Traverse.C54_session",
    "Traverse.C54_session_nothing_else",
    "Traverse.C54_resumed_nothing_else",
    "Traverse.C54_error_on_node",
    "Traverse.C54_nothing_else",
    "Traverse.C54_resumed"
   ],
   "note": ""
  },
  {
   "property": "C55",
   "status": "proved",
   "theorems": [
    "Traverse.C55_mismatch",
    "Traverse.C55_relative_to_absolute"
   ],
   "note": ""
  },
  {
   "property": "C56",
   "status": "proved",
   "theorems": [
    "Traverse.C56_count_is_sum",
    "Traverse.C56_known_iff_registered",
    "Traverse.C56_never_decreases"
   ],
   "note": ""
  },
  {
   "property": "C57",
   "status": "partial",
   "theorems": [
    "Traverse.C57_spawn_partial",
    "Traverse.C57_fastward_partial",
    "Traverse.C57_fastward_unbalanced"
   ],
   "note": ""
  },
  {
   "property": "C58",
   "status": "partial",
   "theorems": [
    "Traverse.C58_fastward_partial",
    "Traverse.C58_spawn_partial",
    "Traverse.C58_limit_partial",
    "Traverse.C58_spawn_cuts_early",
    "Traverse.C58_wrong_scope"
   ],
   "note": ""
  },
  {
   "property": "C59",
   "status": "proved",
   "theorems": [
    "Traverse.C59_path_names_entry",
    "Traverse.C59_same_place_same_paths",
    "Traverse.C59_unclean_tree_unmatched",
    "Traverse.C59_session"
   ],
   "note": ""
  },
  {
   "property": "C60",
   "status": "partial",
   "theorems": [
    "Traverse.C60_is",
    "Traverse.C60_recognised",
    "Traverse.C60_benign",
    "Traverse.C60_destination",
    "Traverse.C60_prime_partial",
    "Traverse.C60_child_partial",
    "Traverse.C60_node_partial",
    "Traverse.C60_sample_partial",
    "Traverse.C60_poly_partial",
    "Traverse.C60_resume_partial",
    "Traverse.C60_panic_partial",
    "Traverse.C60_pool_unrecognised",
    "Traverse.C60_resumed_child_partial",
    "Traverse.C60_resumed_node_partial",
    "Traverse.C60_resumed_sample_partial",
    "Traverse.C60_resumed_poly_partial",
    "Traverse.C60_resumed_panic_partial"
   ],
   "note": ""
  },
  {
   "property": "C61",
   "status": "partial",
   "theorems": [
    "Traverse.C61_prime_complete",
    "Traverse.C61_resume_complete",
    "Traverse.C61_spawn_partial",
    "Traverse.C61_run_spawn_partial",
    "Traverse.C61_false_in_general"
   ],
   "note": ""
  },
  {
   "property": "C62",
   "status": "partial",
   "theorems": [
    "Traverse.C62_again_partial",
    "Traverse.C62_unbuilt",
    "Traverse.C62_asleep_for_good",
    "Traverse.C62_spawn_once",
    "Traverse.C62_false_in_general",
    "Traverse.C62_spawn_later",
    "Traverse.C62_fastward_partial"
   ],
   "note": ""
  },
  {
   "property": "C63",
   "status": "partial",
   "theorems": [
    "Traverse.C63_fastward_partial",
    "Traverse.C63_spawn_partial",
    "Traverse.C63_false_in_general",
    "Traverse.C63_spawn_directories_partial",
    "Traverse.C63_spawn_files_partial",
    "Traverse.C63_spawns_partial",
    "Traverse.C63_spawns_lose"
   ],
   "note": ""
  },
  {
   "property": "C64",
   "status": "partial",
   "theorems": [
    "Traverse.C64_documented_partial",
    "Traverse.C64_other_values",
    "Traverse.C64_total",
    "Traverse.C64_distinct_partial",
    "Traverse.C64_false_in_general",
    "Traverse.C64_scopes"
   ],
   "note": ""
  },
  {
   "property": "C65",
   "status": "proved",
   "theorems": [
    "Traverse.C65_identifiers_unique",
    "Traverse.C65_plain",
    "Traverse.C65_options",
    "Traverse.C65_last_option"
   ],
   "note": ""
  },
  {
   "property": "C66",
   "status": "partial",
   "theorems": [
    "Traverse.C66_at_most_once",
    "Traverse.C66_bounds",
    "Traverse.C66_exactly_once",
    "Traverse.C66_progress_partial",
    "Traverse.C66_ends_partial",
    "Traverse.C66_can_finish_partial",
    "Traverse.C66_in_place_deadlock",
    "Traverse.C66_unread",
    "Traverse.C66_sizes"
   ],
   "note": ""
  },
  {
   "property": "C67",
   "status": "partial",
   "theorems": [
    "Traverse.C67_contained",
    "Traverse.C67_root_escapes",
    "Traverse.C67_each_callback",
    "Traverse.C67_prime",
    "Traverse.C67_resume",
    "Traverse.C67_calls",
    "Traverse.C67_noticed",
    "Traverse.C67_resume_calls",
    "Traverse.C67_resume_noticed",
    "Traverse.C67_begin_escapes",
    "Traverse.C67_end_escapes",
    "Traverse.C67_conservative",
    "Traverse.C67_prefix",
    "Traverse.C67_first_panic",
    "Traverse.C67_escapes_iff",
    "Traverse.C67_result",
    "Traverse.C67_balanced",
    "Traverse.C67_saves",
    "Traverse.C67_depth_partial",
    "Traverse.C67_depth_leak",
    "Traverse.C67_descend_leaks"
   ],
   "note": ""
  },
  {
   "property": "C68",
   "status": "partial",
   "theorems": [
    "Traverse.C68_edit",
    "Traverse.C68_edit_run",
    "Traverse.C68_inert",
    "Traverse.C68_load_failure_partial",
    "Traverse.C68_load_failure_panics",
    "Traverse.C68_panics_iff"
   ],
   "note": ""
  },
  {
   "property": "C69",
   "status": "proved",
   "theorems": [
    "Traverse.C69_frozen",
    "Traverse.C69_visited",
    "Traverse.C69_moment",
    "Traverse.C69_complete",
    "Traverse.C69_order",
    "Traverse.C69_balanced",
    "Traverse.C69_ends",
    "Traverse.C69_fuel",
    "Traverse.C69_still",
    "Traverse.C69_session",
    "Traverse.C69_session_complete",
    "Traverse.C69_session_ends",
    "Traverse.C69_session_still",
    "Traverse.C69_endless",
    "Traverse.C69_resumed",
    "Traverse.C69_resumed_ends",
    "Traverse.C69_resumed_still",
    "Traverse.C69_resumed_fuel"
   ],
   "note": ""
  },
  {
   "property": "C70",
   "status": "proved",
   "theorems": [
    "Traverse.C70_again",
    "Traverse.C70_options",
    "Traverse.C70_touched",
    "Traverse.C70_saved"
   ],
   "note": ""
  },
  {
   "property": "C71",
   "status": "partial",
   "theorems": [
    "Traverse.C71_any_partial",
    "Traverse.C71_unreadable",
    "Traverse.C71_alike",
    "Traverse.C71_written",
    "Traverse.C71_wrong_type",
    "Traverse.C71_panics",
    "Traverse.C71_panics_stateless",
    "Traverse.C71_misfit"
   ],
   "note": ""
  },
  {
   "property": "C72",
   "status": "partial",
   "theorems": [
    "Traverse.C72_session",
    "Traverse.C72_delivered",
    "Traverse.C72_fastward_partial",
    "Traverse.C72_spawn_partial",
    "Traverse.C72_spawn_orphans"
   ],
   "note": ""
  },
  {
   "property": "C73",
   "status": "proved",
   "theorems": [
    "Traverse.C73_session",
    "Traverse.C73_resumed",
    "Traverse.C73_observers",
    "Traverse.C73_observers_resumed"
   ],
   "note": ""
  },
  {
   "property": "C74",
   "status": "partial",
   "theorems": [
    "Traverse.C74_resumed_panic",
    "Traverse.C74_resumed_separator",
    "Traverse.C74_variables_partial",
    "Traverse.C74_poly_says_nil",
    "Traverse.C74_distinct_partial",
    "Traverse.C74_made_partial",
    "Traverse.C74_panic_says_nothing",
    "Traverse.C74_pattern",
    "Traverse.C74_fields_partial",
    "Traverse.C74_translations",
    "Traverse.C74_wrapped",
    "Traverse.C74_shown",
    "Traverse.C74_session_partial",
    "Traverse.C74_session_panic",
    "Traverse.C74_separator",
    "Traverse.C74_mismatch"
   ],
   "note": ""
  },
  {
   "property": "C75",
   "status": "partial",
   "theorems": [
    "Traverse.C75_handed_partial",
    "Traverse.C75_resumed_partial",
    "Traverse.C75_fair",
    "Traverse.C75_restored",
    "Traverse.C75_applies",
    "Traverse.C75_unmade",
    "Traverse.C75_sampler_kept",
    "Traverse.C75_in_vain"
   ],
   "note": ""
  },
  {
   "property": "C76",
   "status": "partial",
   "theorems": [
    "Traverse.C76_spawned",
    "Traverse.C76_fastward_partial",
    "Traverse.C76_gone"
   ],
   "note": ""
  },
  {
   "property": "C77",
   "status": "partial",
   "theorems": [
    "Traverse.C77_spawn_partial",
    "Traverse.C77_fastward",
    "Traverse.C77_spawn_ends",
    "Traverse.C77_spawn_files_partial",
    "Traverse.C77_spawn_files_ends"
   ],
   "note": ""
  }
 ]
}