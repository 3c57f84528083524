{
 "claims": [
  {
   "property": "C01",
   "status": "proved",
   "theorems": [
    "Verif.C01_roundtrip",
    "Verif.C01_roundtrip_named",
    "Verif.C01_text_determines",
    "Verif.C01_fresh_rejected",
    "Verif.C01_fresh_sheet_rejected"
   ],
   "note": "FitsSchematic spells out well-formedness; needs TextLaws of f64. Fresh Sheet/Schematic values do not fit and are shown to be rejected."
  },
  {
   "property": "C02",
   "status": "partial",
   "theorems": [
    "Verif.C02_resave_iff_partial",
    "Verif.C02_second_save_iff",
    "Verif.C02_second_save_stable",
    "Verif.C02_resave_loses_returns",
    "Verif.C02_named_low_field_lost",
    "Verif.C02_return_lost",
    "Verif.C02_quoted_name_lost",
    "Verif.C02_resave_iff"
   ],
   "note": "The claim is false for the pinned code. C02_resave_iff gives the exact condition for all texts, stray carriage returns and sheets with too many labels included; refuting families are proved."
  },
  {
   "property": "C03",
   "status": "proved",
   "theorems": [
    "Verif.C03_parse_terminates",
    "Verif.C03_no_step_back",
    "Verif.C03_parse_file_terminates"
   ],
   "note": "All texts, no hypotheses."
  },
  {
   "property": "C04",
   "status": "partial",
   "theorems": [
    "Verif.C04_foreign_rejected_partial",
    "Verif.C04_panic_cause",
    "Verif.C04_undamaged_partial",
    "Verif.C04_header_only_panics",
    "Verif.C04_panics_iff",
    "Verif.C04_error_iff",
    "Verif.C04_truncation",
    "Verif.C04_truncation_reads",
    "Verif.C04_blank_line_panics",
    "Verif.C04_cut_wire_panics",
    "Verif.C04_truncated_component_panics",
    "Verif.C04_short_label_panics"
   ],
   "note": "The claim is false for the pinned code (families of panicking texts are proved). C04_panics_iff says exactly which texts make the reader panic and C04_error_iff exactly which are rejected; C04_truncation: of a good file cut after a line, only two cuts give an error."
  },
  {
   "property": "C05",
   "status": "proved",
   "theorems": [
    "Verif.C05_update_field",
    "Verif.C05_add_or_update_field",
    "Verif.C05_fields_hash",
    "Verif.C05_changed"
   ],
   "note": ""
  },
  {
   "property": "C06",
   "status": "proved",
   "theorems": [
    "Verif.C06_fresh_number",
    "Verif.C06_no_number_left"
   ],
   "note": ""
  },
  {
   "property": "C07",
   "status": "partial",
   "theorems": [
    "Verif.C07_kept_iff",
    "Verif.C07_field_kept_partial",
    "Verif.C07_low_number_lost"
   ],
   "note": "False for new numbers of 3 or lower; C07_kept_iff is the exact condition."
  },
  {
   "property": "C08",
   "status": "proved",
   "theorems": [
    "Verif.C08_modify_component",
    "Verif.C08_modify_component_absent",
    "Verif.C08_cases",
    "Verif.C08_modify_components",
    "Verif.C08_components"
   ],
   "note": ""
  },
  {
   "property": "C09",
   "status": "proved",
   "theorems": [
    "Verif.C09_all_components",
    "Verif.C09_depth_irrelevant",
    "Verif.C09_unreadable_sheet"
   ],
   "note": ""
  },
  {
   "property": "C10",
   "status": "proved",
   "theorems": [
    "Verif.C10_terminates",
    "Verif.C10_cycle_no_result",
    "Verif.C10_cycle_diverges"
   ],
   "note": ""
  },
  {
   "property": "C11",
   "status": "proved",
   "theorems": [
    "Verif.C11_found",
    "Verif.C11_complete",
    "Verif.C11_unreadable_sheet_stops"
   ],
   "note": ""
  },
  {
   "property": "C12",
   "status": "partial",
   "theorems": [
    "Verif.C12_bound_total",
    "Verif.C12_file_panics",
    "Verif.C12_covers_partial",
    "Verif.C12_component_not_covered",
    "Verif.C12_wires_ignored",
    "Verif.C12_wire_not_covered",
    "Verif.C12_bound_exact"
   ],
   "note": "False for the pinned code; C12_covers_partial says what is covered, the others refute the rest."
  },
  {
   "property": "C13",
   "status": "proved",
   "theorems": [
    "Verif.C13_update_reference",
    "Verif.C13_update_name",
    "Verif.C13_laws"
   ],
   "note": ""
  },
  {
   "property": "C14",
   "status": "proved",
   "theorems": [
    "Verif.C14_roundtrip",
    "Verif.C14_text_determines",
    "Verif.C14_few_fields_panic"
   ],
   "note": ""
  },
  {
   "property": "C15",
   "status": "proved",
   "theorems": [
    "Verif.C15_bold_rejected",
    "Verif.C15_saved_loads_iff"
   ],
   "note": "Exact: saved library loads iff no bold field."
  },
  {
   "property": "C16",
   "status": "proved",
   "theorems": [
    "Verif.C16_parse_terminates",
    "Verif.C16_symbol_uses_lines",
    "Verif.C16_foreign_rejected",
    "Verif.C16_panic_cause",
    "Verif.C16_undamaged",
    "Verif.C16_panics_iff",
    "Verif.C16_error_iff",
    "Verif.C16_truncation_reads",
    "Verif.C16_damage_panics",
    "Verif.C16_cut_symbol_panics"
   ],
   "note": ""
  },
  {
   "property": "C17",
   "status": "proved",
   "theorems": [
    "Verif.C17_find_first",
    "Verif.C17_find_none",
    "Verif.C17_set_name_panics_iff",
    "Verif.C17_set_name",
    "Verif.C17_set_name_twice",
    "Verif.C17_by_position",
    "Verif.C17_basic_iff",
    "Verif.C17_new"
   ],
   "note": ""
  },
  {
   "property": "C18",
   "status": "partial",
   "theorems": [
    "Verif.C18_pin_findings",
    "Verif.C18_rectangle_findings",
    "Verif.C18_field_findings",
    "Verif.C18_symbol_findings",
    "Verif.C18_clean_iff",
    "Verif.C18_grid_not_100",
    "Verif.C18_grid_sound_partial"
   ],
   "note": "Findings are characterised exactly against an independent fault relation; the documented 100 mil grid is not what is checked (C18_grid_not_100), C18_grid_sound_partial is the true direction."
  },
  {
   "property": "C19",
   "status": "proved",
   "theorems": [
    "Verif.C19_footprint_roundtrip",
    "Verif.C19_saved_text_determines"
   ],
   "note": ""
  },
  {
   "property": "C20",
   "status": "partial",
   "theorems": [
    "Verif.C20_resave_partial",
    "Verif.C20_resave_fails",
    "Verif.C20_flat_hole_lost"
   ],
   "note": "False for the pinned code; C20_resave_partial is an exact condition on the value read."
  },
  {
   "property": "C21",
   "status": "proved",
   "theorems": [
    "Verif.C21_write_read",
    "Verif.C21_read_write",
    "Verif.C21_read_accepts",
    "Verif.C21_two_dots_lose"
   ],
   "note": ""
  },
  {
   "property": "C22",
   "status": "proved",
   "theorems": [
    "Verif.C22_stamp_roundtrip",
    "Verif.C22_stamp_digits",
    "Verif.C22_negative_stamp_unreadable"
   ],
   "note": ""
  },
  {
   "property": "C23",
   "status": "partial",
   "theorems": [
    "Verif.C23_flip_twice_partial",
    "Verif.C23_flip_twice_fails",
    "Verif.C23_flip_mirrors",
    "Verif.C23_flip_is_front",
    "Verif.C23_is_front"
   ],
   "note": "False for justified texts; C23_flip_twice_partial is an exact condition."
  },
  {
   "property": "C24",
   "status": "proved",
   "theorems": [
    "Verif.C24_rotate_normal",
    "Verif.C24_rotate_back",
    "Verif.C24_rotate_only"
   ],
   "note": "Exact arithmetic (ExactLaws); describes f64 up to rounding."
  },
  {
   "property": "C25",
   "status": "proved",
   "theorems": [
    "Verif.C25_eq_iff_shape",
    "Verif.C25_eq_equivalence",
    "Verif.C25_ignores",
    "Verif.C25_pad_distinguishes"
   ],
   "note": ""
  },
  {
   "property": "C26",
   "status": "partial",
   "theorems": [
    "Verif.C26_bound_covers_partial",
    "Verif.C26_reversed_line_not_covered",
    "Verif.C26_bound_attained",
    "Verif.C26_element_box",
    "Verif.C26_bound_exact",
    "Verif.C26_covered_iff"
   ],
   "note": "False for reversed lines and arcs; covered otherwise, and the box is attained on every side."
  },
  {
   "property": "C27",
   "status": "proved",
   "theorems": [
    "Verif.C27_check_clean_iff",
    "Verif.C27_check_after_fix",
    "Verif.C27_fix_cleans",
    "Verif.C27_fix_cleans_only"
   ],
   "note": ""
  },
  {
   "property": "C28",
   "status": "proved",
   "theorems": [
    "Verif.C28_fix_idempotent",
    "Verif.C28_fix_adds_nothing"
   ],
   "note": ""
  },
  {
   "property": "C29",
   "status": "proved",
   "theorems": [
    "Verif.C29_fix_keeps",
    "Verif.C29_fix_adds"
   ],
   "note": ""
  },
  {
   "property": "C30",
   "status": "proved",
   "theorems": [
    "Verif.C30_courtyard_rectangle",
    "Verif.C30_clearance_nonneg",
    "Verif.C30_courtyard_surrounds"
   ],
   "note": ""
  },
  {
   "property": "C31",
   "status": "proved",
   "theorems": [
    "Verif.C31_rename_net",
    "Verif.C31_no_old_left",
    "Verif.C31_rename_back"
   ],
   "note": ""
  },
  {
   "property": "C32",
   "status": "proved",
   "theorems": [
    "Verif.C32_get_text",
    "Verif.C32_get_reference",
    "Verif.C32_is_reference_with_name",
    "Verif.C32_set_reference",
    "Verif.C32_set_then_get",
    "Verif.C32_has_smd_attr"
   ],
   "note": ""
  },
  {
   "property": "C33",
   "status": "proved",
   "theorems": [
    "Verif.C33_only_white_space",
    "Verif.C33_state_irrelevant",
    "Verif.C33_reads_back",
    "Verif.C33_reads_back_iff",
    "Verif.C33_survives_quoting_iff",
    "Verif.C33_injective",
    "Verif.C33_trailing_white_space"
   ],
   "note": ""
  },
  {
   "property": "C34",
   "status": "proved",
   "theorems": [
    "Verif.C34_stack_restored",
    "Verif.C34_indent_restored",
    "Verif.C34_headless_list_leaks"
   ],
   "note": ""
  },
  {
   "property": "C35",
   "status": "proved",
   "theorems": [
    "Verif.C35_layout_roundtrip",
    "Verif.C35_saved_text_determines"
   ],
   "note": ""
  },
  {
   "property": "C36",
   "status": "proved",
   "theorems": [
    "Verif.C36_unknown_kept",
    "Verif.C36_unknown_written_back"
   ],
   "note": ""
  },
  {
   "property": "C37",
   "status": "proved",
   "theorems": [
    "Verif.C37_names_and_rest_determine",
    "Verif.C37_rename_exact",
    "Verif.C37_rename_effect"
   ],
   "note": ""
  },
  {
   "property": "C38",
   "status": "proved",
   "theorems": [
    "Verif.C38_update_all",
    "Verif.C38_update_stops",
    "Verif.C38_fails_iff"
   ],
   "note": ""
  },
  {
   "property": "C39",
   "status": "partial",
   "theorems": [
    "Verif.C39_replace_parts",
    "Verif.C39_absent_unchanged",
    "Verif.C39_replaces_all_partial",
    "Verif.C39_repeated_block_remains"
   ],
   "note": "False for directly repeated blocks; exact behaviour in C39_replace_parts."
  },
  {
   "property": "C40",
   "status": "proved",
   "theorems": [
    "Verif.C40_recognised_iff",
    "Verif.C40_set_component",
    "Verif.C40_set_standard",
    "Verif.C40_trailing_text_dropped"
   ],
   "note": ""
  },
  {
   "property": "C41",
   "status": "proved",
   "theorems": [
    "Verif.C41_update_entries",
    "Verif.C41_get_updated",
    "Verif.C41_get_other",
    "Verif.C41_get_spec",
    "Verif.C41_update_update"
   ],
   "note": ""
  },
  {
   "property": "C42",
   "status": "proved",
   "theorems": [
    "Verif.C42_get_first",
    "Verif.C42_get_none",
    "Verif.C42_modify"
   ],
   "note": ""
  },
  {
   "property": "C43",
   "status": "proved",
   "theorems": [
    "Verif.C43_moves_points",
    "Verif.C43_adjust_layout",
    "Verif.C43_adjust_zero",
    "Verif.C43_adjust_add"
   ],
   "note": "Exact arithmetic (ExactLaws) for adding offsets."
  },
  {
   "property": "C44",
   "status": "proved",
   "theorems": [
    "Verif.C44_bound_covers",
    "Verif.C44_bound_attained",
    "Verif.C44_bound_moves",
    "Verif.C44_unplaced_module_stays"
   ],
   "note": ""
  },
  {
   "property": "C45",
   "status": "proved",
   "theorems": [
    "Verif.C45_equal_iff",
    "Verif.C45_equivalence",
    "Verif.C45_nets_ignored",
    "Verif.C45_has_net"
   ],
   "note": ""
  },
  {
   "property": "C46",
   "status": "proved",
   "theorems": [
    "Verif.C46_add_net",
    "Verif.C46_add_netclass",
    "Verif.C46_listings"
   ],
   "note": ""
  },
  {
   "property": "C47",
   "status": "proved",
   "theorems": [
    "Verif.C47_one_kind",
    "Verif.C47_recognised",
    "Verif.C47_typed_readers"
   ],
   "note": ""
  },
  {
   "property": "C48",
   "status": "proved",
   "theorems": [
    "Verif.C48_error",
    "Verif.C48_panic",
    "Verif.C48_ends",
    "Verif.C48_typed_errors"
   ],
   "note": ""
  },
  {
   "property": "C49",
   "status": "proved",
   "theorems": [
    "Verif.C49_update_assoc",
    "Verif.C49_update_comm",
    "Verif.C49_update_idem",
    "Verif.C49_default_neutral",
    "Verif.C49_update_contains",
    "Verif.C49_update_least",
    "Verif.C49_swap_upright",
    "Verif.C49_extent_nonneg"
   ],
   "note": ""
  },
  {
   "property": "C50",
   "status": "proved",
   "theorems": [
    "Verif.C50_letter_and_number",
    "Verif.C50_numeric_order",
    "Verif.C50_panics_only_on_empty",
    "Verif.C50_only_first_letter",
    "Verif.C50_too_large"
   ],
   "note": ""
  },
  {
   "property": "C51",
   "status": "proved",
   "theorems": [
    "Verif.C51_findings",
    "Verif.C51_allowed",
    "Verif.C51_count"
   ],
   "note": ""
  },
  {
   "property": "C52",
   "status": "proved",
   "theorems": [
    "Verif.C52_table_roundtrip",
    "Verif.C52_saved_text_determines",
    "Verif.C52_extra_entries_ignored"
   ],
   "note": ""
  },
  {
   "property": "C53",
   "status": "proved",
   "theorems": [
    "Verif.C53_verbatim",
    "Verif.C53_injective"
   ],
   "note": ""
  },
  {
   "property": "C54",
   "status": "proved",
   "theorems": [
    "Verif.C54_dump_complete",
    "Verif.C54_dump_indent",
    "Verif.C54_flatter",
    "Verif.C54_flatter_shape"
   ],
   "note": ""
  },
  {
   "property": "C55",
   "status": "proved",
   "theorems": [
    "Verif.C55_write_effect",
    "Verif.C55_module",
    "Verif.C55_layout",
    "Verif.C55_history"
   ],
   "note": ""
  },
  {
   "property": "C56",
   "status": "proved",
   "theorems": [
    "Verif.C56_component_field",
    "Verif.C56_title_block",
    "Verif.C56_symbol_field",
    "Verif.C56_read_unquoted",
    "Verif.C56_quote_lost",
    "Verif.C56_symbol_read_unquoted"
   ],
   "note": ""
  },
  {
   "property": "C57",
   "status": "partial",
   "theorems": [
    "Verif.C57_resave_partial",
    "Verif.C57_stable",
    "Verif.C57_resave_fails",
    "Verif.C57_priority"
   ],
   "note": "False for the pinned code; C57_resave_partial is an exact condition on the value read."
  },
  {
   "property": "C58",
   "status": "proved",
   "theorems": [
    "Verif.C58_always_returns",
    "Verif.C58_rejects_no_paren"
   ],
   "note": ""
  },
  {
   "property": "C59",
   "status": "proved",
   "theorems": [
    "Verif.C59_edits_keep_savable",
    "Verif.C59_edit_save_read",
    "Verif.C59_save_in_between",
    "Verif.C59_fixed_file_is_clean"
   ],
   "note": ""
  },
  {
   "property": "C60",
   "status": "proved",
   "theorems": [
    "Verif.C60_edits_return",
    "Verif.C60_edits_keep_savable",
    "Verif.C60_edit_save_read",
    "Verif.C60_save_in_between"
   ],
   "note": ""
  },
  {
   "property": "C61",
   "status": "proved",
   "theorems": [
    "Verif.C61_edits_keep_fitting",
    "Verif.C61_edits_return",
    "Verif.C61_edit_save_read",
    "Verif.C61_components_kept"
   ],
   "note": ""
  },
  {
   "property": "C62",
   "status": "proved",
   "theorems": [
    "Verif.C62_rename_keeps_declared",
    "Verif.C62_rename_keeps_connectivity",
    "Verif.C62_session_keeps_declared",
    "Verif.C62_module_rename_breaks"
   ],
   "note": ""
  },
  {
   "property": "C63",
   "status": "proved",
   "theorems": [
    "Verif.C63_known",
    "Verif.C63_unknown",
    "Verif.C63_panics",
    "Verif.C63_answers",
    "Verif.C63_quiet",
    "Verif.C63_notices"
   ],
   "note": ""
  },
  {
   "property": "C64",
   "status": "proved",
   "theorems": [
    "Verif.C64_dump_layout",
    "Verif.C64_adjust_layout",
    "Verif.C64_adjust_repeated",
    "Verif.C64_dump_footprint",
    "Verif.C64_dump_footprint_not_a_file",
    "Verif.C64_panics"
   ],
   "note": ""
  },
  {
   "property": "C65",
   "status": "proved",
   "theorems": [
    "Verif.C65_module_report",
    "Verif.C65_module_silent",
    "Verif.C65_fixed_file_silent",
    "Verif.C65_library_report",
    "Verif.C65_library_silent",
    "Verif.C65_panics"
   ],
   "note": ""
  },
  {
   "property": "C66",
   "status": "proved",
   "theorems": [
    "Verif.C66_resave_iff",
    "Verif.C66_second_save_iff",
    "Verif.C66_second_save_stable",
    "Verif.C66_save_panics_iff",
    "Verif.C66_not_all_survive",
    "Verif.C66_returns_hide_symbols"
   ],
   "note": ""
  },
  {
   "property": "C67",
   "status": "proved",
   "theorems": [
    "Verif.C67_end_mark",
    "Verif.C67_concatenation",
    "Verif.C67_end_mark_optional",
    "Verif.C67_heading_ignored",
    "Verif.C67_filters_lost"
   ],
   "note": ""
  },
  {
   "property": "C68",
   "status": "proved",
   "theorems": [
    "Verif.C68_layout_rules",
    "Verif.C68_text",
    "Verif.C68_edit_is_local",
    "Verif.C68_own_line",
    "Verif.C68_arcs_share_lines"
   ],
   "note": ""
  },
  {
   "property": "C69",
   "status": "proved",
   "theorems": [
    "Verif.C69_text",
    "Verif.C69_footprint_as_in_file",
    "Verif.C69_edit_is_local"
   ],
   "note": ""
  },
  {
   "property": "C70",
   "status": "proved",
   "theorems": [
    "Verif.C70_text",
    "Verif.C70_line_count"
   ],
   "note": ""
  },
  {
   "property": "C71",
   "status": "proved",
   "theorems": [
    "Verif.C71_footprint_findings",
    "Verif.C71_no_duplicates",
    "Verif.C71_footprint_sections",
    "Verif.C71_symbol_sections",
    "Verif.C71_section_numbers"
   ],
   "note": ""
  },
  {
   "property": "C72",
   "status": "proved",
   "theorems": [
    "Verif.C72_header",
    "Verif.C72_order"
   ],
   "note": ""
  },
  {
   "property": "C73",
   "status": "proved",
   "theorems": [
    "Verif.C73_concatenation",
    "Verif.C73_concatenation_fails",
    "Verif.C73_end_mark_ignored",
    "Verif.C73_append_element",
    "Verif.C73_append_sheet",
    "Verif.C73_empty_component",
    "Verif.C73_empty_sheet"
   ],
   "note": ""
  },
  {
   "property": "C74",
   "status": "proved",
   "theorems": [
    "Verif.C74_split",
    "Verif.C74_split_total",
    "Verif.C74_split_n",
    "Verif.C74_split_count"
   ],
   "note": ""
  },
  {
   "property": "C75",
   "status": "proved",
   "theorems": [
    "Verif.C75_grammar",
    "Verif.C75_unique",
    "Verif.C75_integers"
   ],
   "note": ""
  },
  {
   "property": "C76",
   "status": "proved",
   "theorems": [
    "Verif.C76_grammar",
    "Verif.C76_file",
    "Verif.C76_unique"
   ],
   "note": ""
  },
  {
   "property": "C77",
   "status": "proved",
   "theorems": [
    "Verif.C77_trees",
    "Verif.C77_grammar",
    "Verif.C77_unique",
    "Verif.C77_rest"
   ],
   "note": ""
  },
  {
   "property": "C78",
   "status": "proved",
   "theorems": [
    "Verif.C78_grammar",
    "Verif.C78_unique",
    "Verif.C78_rest"
   ],
   "note": ""
  },
  {
   "property": "C79",
   "status": "proved",
   "theorems": [
    "Verif.C79_grammar",
    "Verif.C79_unique",
    "Verif.C79_rest"
   ],
   "note": ""
  },
  {
   "property": "C80",
   "status": "proved",
   "theorems": [
    "Verif.C80_tree_on_one_line",
    "Verif.C80_unknown_section"
   ],
   "note": ""
  },
  {
   "property": "C81",
   "status": "proved",
   "theorems": [
    "Verif.C81_move_back_on_grid",
    "Verif.C81_move_back_near",
    "Verif.C81_move_back_nanometres",
    "Verif.C81_move_back_drifts",
    "Verif.C81_rotate_on_grid",
    "Verif.C81_rotate_reaches_360",
    "Verif.C81_rotate_back_drifts",
    "Verif.C81_rotate_near",
    "Verif.C81_flip_thrice",
    "Verif.C81_flip_twice_near",
    "Verif.C81_flip_twice_drifts"
   ],
   "note": ""
  },
  {
   "property": "C82",
   "status": "proved",
   "theorems": [
    "Verif.C82_part_as_asked",
    "Verif.C82_built_footprint",
    "Verif.C82_board_part_as_asked",
    "Verif.C82_built_board",
    "Verif.C82_blank",
    "Verif.C82_footprint_words",
    "Verif.C82_board_words_wrong",
    "Verif.C82_wrong_word_loses_line"
   ],
   "note": ""
  },
  {
   "property": "C83",
   "status": "proved",
   "theorems": [
    "Verif.C83_footprint_form",
    "Verif.C83_board_form",
    "Verif.C83_table_form",
    "Verif.C83_line_form_iff",
    "Verif.C83_circle_track_form_iff",
    "Verif.C83_defaults_not",
    "Verif.C83_built_footprint_form"
   ],
   "note": ""
  },
  {
   "property": "C84",
   "status": "proved",
   "theorems": [
    "Verif.C84_read_nan",
    "Verif.C84_read_overflow",
    "Verif.C84_infinity_written",
    "Verif.C84_font_lost",
    "Verif.C84_hole_unreadable",
    "Verif.C84_hole_read",
    "Verif.C84_check_silent",
    "Verif.C84_self_equal",
    "Verif.C84_box_ignores"
   ],
   "note": ""
  },
  {
   "property": "C85",
   "status": "proved",
   "theorems": [
    "Verif.C85_expression",
    "Verif.C85_library",
    "Verif.C85_schematic",
    "Verif.C85_library_loses",
    "Verif.C85_schematic_loses",
    "Verif.C85_schematic_misread",
    "Verif.C85_module_write",
    "Verif.C85_layout_write"
   ],
   "note": ""
  },
  {
   "property": "C86",
   "status": "proved",
   "theorems": [
    "Verif.C86_print",
    "Verif.C86_schematic",
    "Verif.C86_library",
    "Verif.C86_module",
    "Verif.C86_layout"
   ],
   "note": ""
  },
  {
   "property": "C87",
   "status": "proved",
   "theorems": [
    "Verif.C87_session_survives_iff",
    "Verif.C87_session_saves",
    "Verif.C87_start",
    "Verif.C87_step_panics_iff",
    "Verif.C87_others_untouched",
    "Verif.C87_defaults",
    "Verif.C87_default_lines"
   ],
   "note": ""
  },
  {
   "property": "C88",
   "status": "proved",
   "theorems": [
    "Verif.C88_lines_iff",
    "Verif.C88_line_formats",
    "Verif.C88_tree",
    "Verif.C88_tree_iff",
    "Verif.C88_tree_formats",
    "Verif.C88_project",
    "Verif.C88_any_file",
    "Verif.C88_quoted_lines_change"
   ],
   "note": ""
  },
  {
   "property": "C89",
   "status": "proved",
   "theorems": [
    "Verif.C89_parsers",
    "Verif.C89_schematic_text",
    "Verif.C89_any_file",
    "Verif.C89_typed",
    "Verif.C89_layout_told",
    "Verif.C89_module_told",
    "Verif.C89_schematic_not_told",
    "Verif.C89_writes",
    "Verif.C89_sheets"
   ],
   "note": ""
  },
  {
   "property": "C90",
   "status": "proved",
   "theorems": [
    "Verif.C90_same",
    "Verif.C90_exact",
    "Verif.C90_pruned",
    "Verif.C90_pruned_text",
    "Verif.C90_any",
    "Verif.C90_foreign",
    "Verif.C90_saved",
    "Verif.C90_saved_quiet"
   ],
   "note": ""
  },
  {
   "property": "C91",
   "status": "proved",
   "theorems": [
    "Verif.C91_same",
    "Verif.C91_first",
    "Verif.C91_end",
    "Verif.C91_unique"
   ],
   "note": ""
  },
  {
   "property": "C92",
   "status": "proved",
   "theorems": [
    "Verif.C92_same",
    "Verif.C92_first",
    "Verif.C92_end",
    "Verif.C92_unique"
   ],
   "note": ""
  },
  {
   "property": "C93",
   "status": "proved",
   "theorems": [
    "Verif.C93_same",
    "Verif.C93_tells",
    "Verif.C93_shown",
    "Verif.C93_shown_form",
    "Verif.C93_mismatch",
    "Verif.C93_write"
   ],
   "note": ""
  },
  {
   "property": "C94",
   "status": "proved",
   "theorems": [
    "Verif.C94_box_moves",
    "Verif.C94_box_moves_millimetres",
    "Verif.C94_not_exact",
    "Verif.C94_points_move_exactly",
    "Verif.C94_courtyard_rectangle",
    "Verif.C94_courtyard_surrounds"
   ],
   "note": ""
  },
  {
   "property": "C95",
   "status": "proved",
   "theorems": [
    "Verif.C95_board_disc",
    "Verif.C95_footprint_disc",
    "Verif.C95_disc_tight",
    "Verif.C95_via",
    "Verif.C95_via_twice",
    "Verif.C95_board_line",
    "Verif.C95_footprint_polygon",
    "Verif.C95_footprint_line",
    "Verif.C95_pad",
    "Verif.C95_arc_missed",
    "Verif.C95_footprint_line_missed"
   ],
   "note": ""
  },
  {
   "property": "C96",
   "status": "proved",
   "theorems": [
    "Verif.C96_footprint_outcome",
    "Verif.C96_board_outcome",
    "Verif.C96_footprint",
    "Verif.C96_board",
    "Verif.C96_footprint_rest",
    "Verif.C96_pad_layers_misnamed",
    "Verif.C96_read_module",
    "Verif.C96_read_layout"
   ],
   "note": ""
  },
  {
   "property": "C97",
   "status": "proved",
   "theorems": [
    "Verif.C97_doubled_blank",
    "Verif.C97_schematics",
    "Verif.C97_libraries",
    "Verif.C97_schematic_contents",
    "Verif.C97_library_contents",
    "Verif.C97_trees",
    "Verif.C97_fixed_lines",
    "Verif.C97_tabs",
    "Verif.C97_quoted_blanks"
   ],
   "note": ""
  },
  {
   "property": "C98",
   "status": "proved",
   "theorems": [
    "Verif.C98_schematics",
    "Verif.C98_libraries",
    "Verif.C98_libraries_panic",
    "Verif.C98_modules",
    "Verif.C98_boards",
    "Verif.C98_strange_name",
    "Verif.C98_library_outcomes"
   ],
   "note": ""
  },
  {
   "property": "C99",
   "status": "proved",
   "theorems": [
    "Verif.C99_footprint_pair",
    "Verif.C99_footprint_sessions",
    "Verif.C99_renames",
    "Verif.C99_flip_move",
    "Verif.C99_flip_move_f64",
    "Verif.C99_board_pair",
    "Verif.C99_board_sessions",
    "Verif.C99_setup",
    "Verif.C99_component_pair",
    "Verif.C99_component_sessions",
    "Verif.C99_schematic_sessions",
    "Verif.C99_new_fields_ordered",
    "Verif.C99_geometry_ordered",
    "Verif.C99_renames_ordered"
   ],
   "note": ""
  },
  {
   "property": "C100",
   "status": "proved",
   "theorems": [
    "Verif.C100_divides",
    "Verif.C100_value",
    "Verif.C100_error",
    "Verif.C100_succeeds",
    "Verif.C100_plain",
    "Verif.C100_depends",
    "Verif.C100_usual",
    "Verif.C100_home",
    "Verif.C100_tilde_stays"
   ],
   "note": ""
  },
  {
   "property": "C101",
   "status": "proved",
   "theorems": [
    "Verif.C101_component_block",
    "Verif.C101_reference",
    "Verif.C101_name",
    "Verif.C101_field",
    "Verif.C101_new_field",
    "Verif.C101_counted",
    "Verif.C101_sheet_count",
    "Verif.C101_append",
    "Verif.C101_update_net_names",
    "Verif.C101_change_net_name",
    "Verif.C101_rename_net",
    "Verif.C101_set_reference",
    "Verif.C101_move",
    "Verif.C101_rotate",
    "Verif.C101_board_footprint",
    "Verif.C101_move_board",
    "Verif.C101_setup"
   ],
   "note": ""
  },
  {
   "property": "C102",
   "status": "proved",
   "theorems": [
    "Verif.C102_footprint_parts",
    "Verif.C102_board_parts",
    "Verif.C102_line_ends",
    "Verif.C102_lost_ends",
    "Verif.C102_pad",
    "Verif.C102_net_class",
    "Verif.C102_setup",
    "Verif.C102_board",
    "Verif.C102_module",
    "Verif.C102_pad_entries",
    "Verif.C102_zone"
   ],
   "note": ""
  },
  {
   "property": "C103",
   "status": "proved",
   "theorems": [
    "Verif.C103_component",
    "Verif.C103_sheet",
    "Verif.C103_items",
    "Verif.C103_any_order",
    "Verif.C103_symbols",
    "Verif.C103_symbol",
    "Verif.C103_table",
    "Verif.C103_board"
   ],
   "note": ""
  },
  {
   "property": "C104",
   "status": "proved",
   "theorems": [
    "Verif.C104_schematic",
    "Verif.C104_component",
    "Verif.C104_library",
    "Verif.C104_footprint",
    "Verif.C104_table",
    "Verif.C104_board",
    "Verif.C104_saved_schematic",
    "Verif.C104_saved_footprint",
    "Verif.C104_saved_table"
   ],
   "note": ""
  },
  {
   "property": "C105",
   "status": "proved",
   "theorems": [
    "Verif.C105_number",
    "Verif.C105_distinct",
    "Verif.C105_sixteen_digits",
    "Verif.C105_sums_not_plain",
    "Verif.C105_footprint",
    "Verif.C105_layout",
    "Verif.C105_schematic",
    "Verif.C105_library"
   ],
   "note": ""
  },
  {
   "property": "C106",
   "status": "proved",
   "theorems": [
    "Verif.C106_number",
    "Verif.C106_total",
    "Verif.C106_one_number",
    "Verif.C106_held",
    "Verif.C106_nearest",
    "Verif.C106_integer",
    "Verif.C106_trailing",
    "Verif.C106_leading",
    "Verif.C106_samples"
   ],
   "note": ""
  },
  {
   "property": "C107",
   "status": "proved",
   "theorems": [
    "Verif.C107_footprint",
    "Verif.C107_layout",
    "Verif.C107_schematic",
    "Verif.C107_library",
    "Verif.C107_file",
    "Verif.C107_same_meaning",
    "Verif.C107_footprint_saved",
    "Verif.C107_layout_saved",
    "Verif.C107_schematic_saved",
    "Verif.C107_library_saved"
   ],
   "note": ""
  },
  {
   "property": "C108",
   "status": "proved",
   "theorems": [
    "Verif.C108_moved",
    "Verif.C108_sum",
    "Verif.C108_program"
   ],
   "note": ""
  },
  {
   "property": "C109",
   "status": "proved",
   "theorems": [
    "Verif.C109_name",
    "Verif.C109_reference",
    "Verif.C109_numbers",
    "Verif.C109_field",
    "Verif.C109_drawing",
    "Verif.C109_alias",
    "Verif.C109_add",
    "Verif.C109_remove",
    "Verif.C109_merge",
    "Verif.C109_name_lines"
   ],
   "note": ""
  },
  {
   "property": "C110",
   "status": "proved",
   "theorems": [
    "Verif.C110_footprint",
    "Verif.C110_board",
    "Verif.C110_unreadable",
    "Verif.C110_unreadable_board",
    "Verif.C110_elements",
    "Verif.C110_board_elements",
    "Verif.C110_settled",
    "Verif.C110_board_settled"
   ],
   "note": ""
  },
  {
   "property": "C111",
   "status": "proved",
   "theorems": [
    "Verif.C111_same_fix",
    "Verif.C111_silent",
    "Verif.C111_notice",
    "Verif.C111_once",
    "Verif.C111_iff",
    "Verif.C111_exact"
   ],
   "note": ""
  },
  {
   "property": "C112",
   "status": "proved",
   "theorems": [
    "Verif.C112_same",
    "Verif.C112_notices",
    "Verif.C112_silent",
    "Verif.C112_kept",
    "Verif.C112_resaved",
    "Verif.C112_before_error"
   ],
   "note": ""
  },
  {
   "property": "C113",
   "status": "proved",
   "theorems": [
    "Verif.C113_footprint",
    "Verif.C113_same_answers",
    "Verif.C113_findings",
    "Verif.C113_finding_forgotten",
    "Verif.C113_board",
    "Verif.C113_same_board_answers",
    "Verif.C113_schematic",
    "Verif.C113_schematic_file",
    "Verif.C113_library"
   ],
   "note": ""
  },
  {
   "property": "C114",
   "status": "proved",
   "theorems": [
    "Verif.C114_flipped_box",
    "Verif.C114_flipped_box_iff",
    "Verif.C114_flipped_outline",
    "Verif.C114_usual_angles",
    "Verif.C114_normal_angles",
    "Verif.C114_flipped_line_lost",
    "Verif.C114_negative_angle",
    "Verif.C114_angle_ignored",
    "Verif.C114_turned_not_covered",
    "Verif.C114_rotated_box",
    "Verif.C114_arc_not_mirrored"
   ],
   "note": ""
  },
  {
   "property": "C115",
   "status": "proved",
   "theorems": [
    "Verif.C115_field_value_smuggles",
    "Verif.C115_smuggled_is_read",
    "Verif.C115_text_smuggles",
    "Verif.C115_symbol_value_smuggles",
    "Verif.C115_smuggled_symbols_are_read"
   ],
   "note": ""
  },
  {
   "property": "C116",
   "status": "proved",
   "theorems": [
    "Verif.C116_all_components",
    "Verif.C116_component_by_reference",
    "Verif.C116_stays",
    "Verif.C116_directory",
    "Verif.C116_never_refused",
    "Verif.C116_absolute_leaves",
    "Verif.C116_can_leave"
   ],
   "note": ""
  },
  {
   "property": "C117",
   "status": "proved",
   "theorems": [
    "Verif.C117_decode",
    "Verif.C117_injective",
    "Verif.C117_read",
    "Verif.C117_cut",
    "Verif.C117_write",
    "Verif.C117_fates",
    "Verif.C117_session",
    "Verif.C117_ascii",
    "Verif.C117_lone_byte",
    "Verif.C117_byte_order_mark",
    "Verif.C117_module",
    "Verif.C117_layout"
   ],
   "note": ""
  },
  {
   "property": "C118",
   "status": "proved",
   "theorems": [
    "Verif.C118_fix_never_panics",
    "Verif.C118_flatter_never_panics",
    "Verif.C118_wrap",
    "Verif.C118_panics",
    "Verif.C118_release_same",
    "Verif.C118_release_field",
    "Verif.C118_release_count",
    "Verif.C118_release_box"
   ],
   "note": ""
  },
  {
   "property": "C119",
   "status": "proved",
   "theorems": [
    "Verif.C119_text",
    "Verif.C119_footprint",
    "Verif.C119_footprint_read",
    "Verif.C119_read_any_depth",
    "Verif.C119_board",
    "Verif.C119_board_read",
    "Verif.C119_table"
   ],
   "note": ""
  },
  {
   "property": "C120",
   "status": "proved",
   "theorems": [
    "Verif.C120_footprint",
    "Verif.C120_element",
    "Verif.C120_same_fix",
    "Verif.C120_infos",
    "Verif.C120_fix",
    "Verif.C120_fix_silent",
    "Verif.C120_board",
    "Verif.C120_board_silent",
    "Verif.C120_board_poor",
    "Verif.C120_schematic",
    "Verif.C120_unhandled",
    "Verif.C120_component_poor"
   ],
   "note": ""
  },
  {
   "property": "C121",
   "status": "proved",
   "theorems": [
    "Verif.C121_log",
    "Verif.C121_no_argument",
    "Verif.C121_finished",
    "Verif.C121_name_last",
    "Verif.C121_again"
   ],
   "note": ""
  },
  {
   "property": "C122",
   "status": "proved",
   "theorems": [
    "Verif.C122_fix",
    "Verif.C122_line_count",
    "Verif.C122_other_lines"
   ],
   "note": ""
  },
  {
   "property": "C123",
   "status": "proved",
   "theorems": [
    "Verif.C123_add_net",
    "Verif.C123_add_netclass",
    "Verif.C123_add_footprint",
    "Verif.C123_new_setup_entry",
    "Verif.C123_empty_line"
   ],
   "note": ""
  },
  {
   "property": "C124",
   "status": "proved",
   "theorems": [
    "Verif.C124_footprint",
    "Verif.C124_alike",
    "Verif.C124_handling",
    "Verif.C124_order",
    "Verif.C124_unregulated",
    "Verif.C124_fix_rename",
    "Verif.C124_board",
    "Verif.C124_symbol",
    "Verif.C124_symbol_order"
   ],
   "note": ""
  },
  {
   "property": "C125",
   "status": "proved",
   "theorems": [
    "Verif.C125_footprint",
    "Verif.C125_order",
    "Verif.C125_rename",
    "Verif.C125_fix",
    "Verif.C125_part",
    "Verif.C125_board",
    "Verif.C125_board_order",
    "Verif.C125_board_rename",
    "Verif.C125_board_additions",
    "Verif.C125_schematic_order"
   ],
   "note": ""
  },
  {
   "property": "C126",
   "status": "proved",
   "theorems": [
    "Verif.C126_handling",
    "Verif.C126_box",
    "Verif.C126_fix",
    "Verif.C126_findings",
    "Verif.C126_fixed_findings"
   ],
   "note": ""
  },
  {
   "property": "C127",
   "status": "proved",
   "theorems": [
    "Verif.C127_reference",
    "Verif.C127_board_net",
    "Verif.C127_setup",
    "Verif.C127_field",
    "Verif.C127_component_reference",
    "Verif.C127_component_name",
    "Verif.C127_symbol",
    "Verif.C127_footprint_grows",
    "Verif.C127_board_grows",
    "Verif.C127_schematic_grows"
   ],
   "note": ""
  },
  {
   "property": "C128",
   "status": "proved",
   "theorems": [
    "Verif.C128_fix_last",
    "Verif.C128_fix_move",
    "Verif.C128_fix_reference",
    "Verif.C128_setup_last",
    "Verif.C128_field_last",
    "Verif.C128_chain",
    "Verif.C128_swap"
   ],
   "note": ""
  },
  {
   "property": "C129",
   "status": "proved",
   "theorems": [
    "Verif.C129_unique",
    "Verif.C129_copies",
    "Verif.C129_references",
    "Verif.C129_bound",
    "Verif.C129_bound_reached",
    "Verif.C129_doubling",
    "Verif.C129_edit_everywhere"
   ],
   "note": ""
  },
  {
   "property": "C130",
   "status": "proved",
   "theorems": [
    "Verif.C130_table",
    "Verif.C130_names",
    "Verif.C130_get_field",
    "Verif.C130_hash",
    "Verif.C130_hash_stays",
    "Verif.C130_hash_exact"
   ],
   "note": ""
  },
  {
   "property": "C131",
   "status": "proved",
   "theorems": [
    "Verif.C131_panics",
    "Verif.C131_file_panics",
    "Verif.C131_sorted",
    "Verif.C131_numbers",
    "Verif.C131_any_order"
   ],
   "note": ""
  },
  {
   "property": "C132",
   "status": "proved",
   "theorems": [
    "Verif.C132_fails",
    "Verif.C132_values",
    "Verif.C132_rest",
    "Verif.C132_order",
    "Verif.C132_again",
    "Verif.C132_saved",
    "Verif.C132_silent"
   ],
   "note": ""
  },
  {
   "property": "C133",
   "status": "proved",
   "theorems": [
    "Verif.C133_update",
    "Verif.C133_rename",
    "Verif.C133_connected",
    "Verif.C133_rename_connected",
    "Verif.C133_swap",
    "Verif.C133_session",
    "Verif.C133_block",
    "Verif.C133_fix",
    "Verif.C133_short",
    "Verif.C133_fix_lost"
   ],
   "note": ""
  },
  {
   "property": "C134",
   "status": "proved",
   "theorems": [
    "Verif.C134_references",
    "Verif.C134_at_once",
    "Verif.C134_two_rounds",
    "Verif.C134_no_exchange",
    "Verif.C134_units"
   ],
   "note": ""
  },
  {
   "property": "C135",
   "status": "proved",
   "theorems": [
    "Verif.C135_names",
    "Verif.C135_pass",
    "Verif.C135_passes",
    "Verif.C135_connected",
    "Verif.C135_separator",
    "Verif.C135_renumber",
    "Verif.C135_consistent",
    "Verif.C135_tail_short",
    "Verif.C135_half"
   ],
   "note": ""
  },
  {
   "property": "C136",
   "status": "proved",
   "theorems": [
    "Verif.C136_found",
    "Verif.C136_netlist",
    "Verif.C136_position",
    "Verif.C136_like_library",
    "Verif.C136_saved",
    "Verif.C136_exchange",
    "Verif.C136_exchange_changes"
   ],
   "note": ""
  },
  {
   "property": "C137",
   "status": "proved",
   "theorems": [
    "Verif.C137_netlist",
    "Verif.C137_connected",
    "Verif.C137_prefixed",
    "Verif.C137_lists",
    "Verif.C137_box",
    "Verif.C137_saved",
    "Verif.C137_numbers",
    "Verif.C137_clash"
   ],
   "note": ""
  },
  {
   "property": "C138",
   "status": "proved",
   "theorems": [
    "Verif.C138_panics",
    "Verif.C138_library",
    "Verif.C138_both",
    "Verif.C138_half",
    "Verif.C138_saved",
    "Verif.C138_taken"
   ],
   "note": ""
  },
  {
   "property": "C139",
   "status": "proved",
   "theorems": [
    "Verif.C139_components",
    "Verif.C139_modify",
    "Verif.C139_all",
    "Verif.C139_search",
    "Verif.C139_hidden",
    "Verif.C139_box",
    "Verif.C139_saved",
    "Verif.C139_directory"
   ],
   "note": ""
  },
  {
   "property": "C140",
   "status": "proved",
   "theorems": [
    "Verif.C140_layers",
    "Verif.C140_address",
    "Verif.C140_without",
    "Verif.C140_order",
    "Verif.C140_saved",
    "Verif.C140_variable",
    "Verif.C140_different",
    "Verif.C140_one_file"
   ],
   "note": ""
  },
  {
   "property": "C141",
   "status": "proved",
   "theorems": [
    "Verif.C141_total",
    "Verif.C141_sum",
    "Verif.C141_update",
    "Verif.C141_one",
    "Verif.C141_other",
    "Verif.C141_set",
    "Verif.C141_renumber",
    "Verif.C141_renumber_reference"
   ],
   "note": ""
  },
  {
   "property": "C142",
   "status": "proved",
   "theorems": [
    "Verif.C142_pads",
    "Verif.C142_pins",
    "Verif.C142_sessions",
    "Verif.C142_equal",
    "Verif.C142_wired",
    "Verif.C142_two_nets"
   ],
   "note": ""
  },
  {
   "property": "C143",
   "status": "proved",
   "theorems": [
    "Verif.C143_found",
    "Verif.C143_netlist",
    "Verif.C143_put",
    "Verif.C143_order",
    "Verif.C143_box",
    "Verif.C143_saved",
    "Verif.C143_two"
   ],
   "note": ""
  },
  {
   "property": "C144",
   "status": "proved",
   "theorems": [
    "Verif.C144_components",
    "Verif.C144_search",
    "Verif.C144_all",
    "Verif.C144_bom",
    "Verif.C144_order",
    "Verif.C144_saved",
    "Verif.C144_box",
    "Verif.C144_box_grows"
   ],
   "note": ""
  },
  {
   "property": "C145",
   "status": "proved",
   "theorems": [
    "Verif.C145_symbols",
    "Verif.C145_enough",
    "Verif.C145_least",
    "Verif.C145_again",
    "Verif.C145_joined",
    "Verif.C145_saved",
    "Verif.C145_alias"
   ],
   "note": ""
  },
  {
   "property": "C146",
   "status": "proved",
   "theorems": [
    "Verif.C146_lists",
    "Verif.C146_remove",
    "Verif.C146_add",
    "Verif.C146_place",
    "Verif.C146_rename",
    "Verif.C146_combine",
    "Verif.C146_session",
    "Verif.C146_units"
   ],
   "note": ""
  },
  {
   "property": "C147",
   "status": "proved",
   "theorems": [
    "Verif.C147_components",
    "Verif.C147_search",
    "Verif.C147_bom",
    "Verif.C147_saved",
    "Verif.C147_again",
    "Verif.C147_twice"
   ],
   "note": ""
  },
  {
   "property": "C148",
   "status": "proved",
   "theorems": [
    "Verif.C148_all",
    "Verif.C148_readable",
    "Verif.C148_search",
    "Verif.C148_bom",
    "Verif.C148_page",
    "Verif.C148_appears"
   ],
   "note": ""
  }
 ]
}