{
 "claims": [
  {
   "property": "C01",
   "status": "proved",
   "theorems": [
    "Osu.C01_printed",
    "Osu.C01_printed_unsigned",
    "Osu.C01_i32_roundtrip",
    "Osu.C01_u8_roundtrip",
    "Osu.C01_u32_roundtrip",
    "Osu.C01_usize_roundtrip",
    "Osu.C01_i32_accepts",
    "Osu.C01_usize_accepts",
    "Osu.C01_u8_accepts",
    "Osu.C01_u32_accepts",
    "Osu.C01_i32_injective"
   ],
   "note": ""
  },
  {
   "property": "C02",
   "status": "proved",
   "theorems": [
    "Osu.C02_never_fails",
    "Osu.C02_keeps_text",
    "Osu.C02_print_parse",
    "Osu.C02_stable",
    "Osu.C02_try_make"
   ],
   "note": ""
  },
  {
   "property": "C03",
   "status": "proved",
   "theorems": [
    "Osu.C03_read",
    "Osu.C03_print",
    "Osu.C03_stable",
    "Osu.C03_injective"
   ],
   "note": ""
  },
  {
   "property": "C04",
   "status": "proved",
   "theorems": [
    "Osu.C04_general",
    "Osu.C04_general_exact",
    "Osu.C04_editor",
    "Osu.C04_difficulty",
    "Osu.C04_metadata",
    "Osu.C04_general_read",
    "Osu.C04_editor_read",
    "Osu.C04_difficulty_read",
    "Osu.C04_metadata_read",
    "Osu.C04_general_iff",
    "Osu.C04_editor_iff",
    "Osu.C04_difficulty_iff",
    "Osu.C04_metadata_iff"
   ],
   "note": ""
  },
  {
   "property": "C05",
   "status": "proved",
   "theorems": [
    "Osu.C05_permutation",
    "Osu.C05_line_ending"
   ],
   "note": ""
  },
  {
   "property": "C06",
   "status": "proved",
   "theorems": [
    "Osu.C06_accepted_iff",
    "Osu.C06_duplicate",
    "Osu.C06_unknown",
    "Osu.C06_bad_value",
    "Osu.C06_no_colon",
    "Osu.C06_split",
    "Osu.C06_any_text_accepted",
    "Osu.C06_any_text_no_colon",
    "Osu.C06_any_text_duplicate",
    "Osu.C06_any_text_unknown",
    "Osu.C06_any_text_bad_value"
   ],
   "note": ""
  },
  {
   "property": "C07",
   "status": "proved",
   "theorems": [
    "Osu.C07_colours_gate",
    "Osu.C07_storyboard",
    "Osu.C07_countdown",
    "Osu.C07_sampleSet",
    "Osu.C07_overlay",
    "Osu.C07_mode_read",
    "Osu.C07_mode_roundtrip",
    "Osu.C07_written",
    "Osu.C07_false_mode"
   ],
   "note": ""
  },
  {
   "property": "C08",
   "status": "proved",
   "theorems": [
    "Osu.C08_bookmarks_roundtrip",
    "Osu.C08_bookmarks_accepts",
    "Osu.C08_bookmarks_no_panic",
    "Osu.C08_bookmarks_error",
    "Osu.C08_tags_text",
    "Osu.C08_tags_roundtrip",
    "Osu.C08_tags_no_blank",
    "Osu.C08_empty_tags_not_read_back"
   ],
   "note": "C08_empty_tags_not_read_back records the one list (the default) that is not read back."
  },
  {
   "property": "C09",
   "status": "proved",
   "theorems": [
    "Osu.C09_accepts",
    "Osu.C09_roundtrip",
    "Osu.C09_no_panic"
   ],
   "note": ""
  },
  {
   "property": "C10",
   "status": "proved",
   "theorems": [
    "Osu.C10_false",
    "Osu.C10_exact"
   ],
   "note": "C10_false is a concrete text that panics; C10_exact is the characterisation."
  },
  {
   "property": "C11",
   "status": "proved",
   "theorems": [
    "Osu.C11_colour_round_trip",
    "Osu.C11_false",
    "Osu.C11_read_is_writable",
    "Osu.C11_injective"
   ],
   "note": ""
  },
  {
   "property": "C12",
   "status": "proved",
   "theorems": [
    "Osu.C12_colours_round_trip",
    "Osu.C12_old_versions",
    "Osu.C12_colours_iff"
   ],
   "note": ""
  },
  {
   "property": "C13",
   "status": "proved",
   "theorems": [
    "Osu.C13_events",
    "Osu.C13_colours",
    "Osu.C13_timing_points",
    "Osu.C13_hit_objects",
    "Osu.C13_index_in_range"
   ],
   "note": ""
  },
  {
   "property": "C14",
   "status": "proved",
   "theorems": [
    "Osu.C14_events",
    "Osu.C14_colours",
    "Osu.C14_timing_points",
    "Osu.C14_hit_objects"
   ],
   "note": ""
  },
  {
   "property": "C15",
   "status": "proved",
   "theorems": [
    "Osu.C15_round_trip",
    "Osu.C15_lossy",
    "Osu.C15_false",
    "Osu.C15_false_effects_only",
    "Osu.C15_false_flag_only",
    "Osu.C15_exact"
   ],
   "note": "C15_false gives the timing points (sample index above i32::MAX) for which it fails; the round trip theorem excludes exactly what the version cannot write."
  },
  {
   "property": "C16",
   "status": "proved",
   "theorems": [
    "Osu.C16_round_trip",
    "Osu.C16_lossy",
    "Osu.C16_exact"
   ],
   "note": ""
  },
  {
   "property": "C17",
   "status": "proved",
   "theorems": [
    "Osu.C17_line_meaning",
    "Osu.C17_v3_defaults",
    "Osu.C17_v4_volume",
    "Osu.C17_tails"
   ],
   "note": ""
  },
  {
   "property": "C18",
   "status": "proved",
   "theorems": [
    "Osu.C18_bits",
    "Osu.C18_queries",
    "Osu.C18_new"
   ],
   "note": ""
  },
  {
   "property": "C19",
   "status": "proved",
   "theorems": [
    "Osu.C19_encode",
    "Osu.C19_decode",
    "Osu.C19_unknown",
    "Osu.C19_round_trip"
   ],
   "note": ""
  },
  {
   "property": "C20",
   "status": "proved",
   "theorems": [
    "Osu.C20_line_meaning",
    "Osu.C20_round_trip",
    "Osu.C20_lossy",
    "Osu.C20_text_stable",
    "Osu.C20_false",
    "Osu.C20_false_blank_filename",
    "Osu.C20_false_v3_position",
    "Osu.C20_exact"
   ],
   "note": "C20_false* give the objects for which it fails; C20_text_stable has hold notes without hit sample as its only exception."
  },
  {
   "property": "C21",
   "status": "proved",
   "theorems": [
    "Osu.C21_round_trip",
    "Osu.C21_lossy",
    "Osu.C21_exact"
   ],
   "note": ""
  },
  {
   "property": "C22",
   "status": "proved",
   "theorems": [
    "Osu.C22_flags",
    "Osu.C22_normal",
    "Osu.C22_written",
    "Osu.C22_low_bits",
    "Osu.C22_round_trip"
   ],
   "note": ""
  },
  {
   "property": "C23",
   "status": "proved",
   "theorems": [
    "Osu.C23_meaning",
    "Osu.C23_prefix",
    "Osu.C23_written",
    "Osu.C23_round_trip"
   ],
   "note": ""
  },
  {
   "property": "C24",
   "status": "proved",
   "theorems": [
    "Osu.C24_audio_volume",
    "Osu.C24_audio_volume_bound",
    "Osu.C24_combo_skip",
    "Osu.C24_combo_skip_bound",
    "Osu.C24_combo_skip_read",
    "Osu.C24_volume",
    "Osu.C24_volume_bound"
   ],
   "note": ""
  },
  {
   "property": "C25",
   "status": "proved",
   "theorems": [
    "Osu.C25_event_codes",
    "Osu.C25_origin",
    "Osu.C25_ho_sample_set",
    "Osu.C25_ho_sample_set_text",
    "Osu.C25_ho_sample_index",
    "Osu.C25_curve_type",
    "Osu.C25_easing",
    "Osu.C25_easing_text",
    "Osu.C25_tp_sample_set",
    "Osu.C25_tp_sample_set_text",
    "Osu.C25_tp_sample_index"
   ],
   "note": ""
  },
  {
   "property": "C26",
   "status": "proved",
   "theorems": [
    "Osu.C26_events",
    "Osu.C26_event_print",
    "Osu.C26_hit_object",
    "Osu.C26_write_read",
    "Osu.C26_read_write",
    "Osu.C26_other_versions",
    "Osu.C26_timing_point"
   ],
   "note": ""
  },
  {
   "property": "C27",
   "status": "proved",
   "theorems": [
    "Osu.C27_grammar",
    "Osu.C27_round_trip",
    "Osu.C27_stable",
    "Osu.C27_exact",
    "Osu.C27_unwritable",
    "Osu.C27_panics"
   ],
   "note": "C27_unwritable shows that the restriction to the parser's form is needed."
  },
  {
   "property": "C28",
   "status": "proved",
   "theorems": [
    "Osu.C28_depth_first"
   ],
   "note": ""
  },
  {
   "property": "C29",
   "status": "proved",
   "theorems": [
    "Osu.C29_rebuild",
    "Osu.C29_rebuild_after",
    "Osu.C29_injective"
   ],
   "note": ""
  },
  {
   "property": "C30",
   "status": "proved",
   "theorems": [
    "Osu.C30_no_panic",
    "Osu.C30_refused",
    "Osu.C30_accepted",
    "Osu.C30_iff",
    "Osu.C30_zero_panics"
   ],
   "note": ""
  },
  {
   "property": "C31",
   "status": "proved",
   "theorems": [
    "Osu.C31_new",
    "Osu.C31_parsed",
    "Osu.C31_push_panics",
    "Osu.C31_push",
    "Osu.C31_set",
    "Osu.C31_set_panics"
   ],
   "note": "The constructor, parsing, push and set; panics characterised exactly."
  },
  {
   "property": "C32",
   "status": "proved",
   "theorems": [
    "Osu.C32_new",
    "Osu.C32_parsed",
    "Osu.C32_push_panics",
    "Osu.C32_push",
    "Osu.C32_push_false",
    "Osu.C32_set_panics",
    "Osu.C32_set"
   ],
   "note": "C32_push_false gives the witness for the push that breaks it; C32_push is the exact condition."
  },
  {
   "property": "C33",
   "status": "proved",
   "theorems": [
    "Osu.C33_exact",
    "Osu.C33_grammar",
    "Osu.C33_panics",
    "Osu.C33_stable",
    "Osu.C33_false",
    "Osu.C33_ambiguous"
   ],
   "note": "C33_false and C33_ambiguous are the witnesses that the condition is needed."
  },
  {
   "property": "C34",
   "status": "proved",
   "theorems": [
    "Osu.C34_grammar",
    "Osu.C34_round_trip",
    "Osu.C34_round_trip_plain",
    "Osu.C34_read_is_writable",
    "Osu.C34_read_fits",
    "Osu.C34_colour_transformation_lost",
    "Osu.C34_path_false"
   ],
   "note": "C34_path_false and C34_colour_transformation_lost are the witnesses for the two exceptions."
  },
  {
   "property": "C35",
   "status": "proved",
   "theorems": [
    "Osu.C35_grammar",
    "Osu.C35_round_trip",
    "Osu.C35_round_trip_cr",
    "Osu.C35_round_trip_plain",
    "Osu.C35_iff"
   ],
   "note": "C35_round_trip holds for all writable events (quotes become part of a path with blanks), C35_round_trip_plain is the exact round trip."
  },
  {
   "property": "C36",
   "status": "proved",
   "theorems": [
    "Osu.C36_exact",
    "Osu.C36_event_line",
    "Osu.C36_false_header",
    "Osu.C36_false_char",
    "Osu.C36_false_time",
    "Osu.C36_false_loop",
    "Osu.C36_false_trigger"
   ],
   "note": "C36_false_* are concrete texts for each kind of panic; C36_exact is the characterisation."
  },
  {
   "property": "C37",
   "status": "proved",
   "theorems": [
    "Osu.C37_grammar",
    "Osu.C37_missing_header",
    "Osu.C37_missing_equals",
    "Osu.C37_no_panic",
    "Osu.C37_round_trip",
    "Osu.C37_stable",
    "Osu.C37_false_equals"
   ],
   "note": "C37_false_equals is a name that comes back as another one."
  },
  {
   "property": "C38",
   "status": "proved",
   "theorems": [
    "Osu.C38_text",
    "Osu.C38_round_trip",
    "Osu.C38_read",
    "Osu.C38_no_dollar",
    "Osu.C38_false_empty",
    "Osu.C38_false_prefix",
    "Osu.C38_false_overlap",
    "Osu.C38_false_dollar",
    "Osu.C38_not_in_first_line",
    "Osu.C38_iff"
   ],
   "note": "C38_text and C38_read are the exact effects of printing and reading; C38_false_* show that each condition of C38_round_trip is needed; C38_iff is exact for texts in which no line ends in a carriage return."
  },
  {
   "property": "C39",
   "status": "proved",
   "theorems": [
    "Osu.C39_old",
    "Osu.C39_some",
    "Osu.C39_round_trip",
    "Osu.C39_round_trip_plain",
    "Osu.C39_stable",
    "Osu.C39_false_empty",
    "Osu.C39_false_order",
    "Osu.C39_iff"
   ],
   "note": "C39_false_empty and C39_false_order are the witnesses for the exceptions; C39_stable is re-saving; C39_iff is exact for texts in which no line ends in a carriage return."
  },
  {
   "property": "C40",
   "status": "proved",
   "theorems": [
    "Osu.C40_old",
    "Osu.C40_round_trip",
    "Osu.C40_last",
    "Osu.C40_all_or_nothing",
    "Osu.C40_text",
    "Osu.C40_iff"
   ],
   "note": ""
  },
  {
   "property": "C41",
   "status": "proved",
   "theorems": [
    "Osu.C41_iff",
    "Osu.C41_round_trip",
    "Osu.C41_false_empty_section"
   ],
   "note": "C41_false_empty_section is the witness that empty sections do not round trip; FileWritable is a sufficient condition, and C41_iff says exactly which file values survive when no line of the text ends in a carriage return (FileSurvives)."
  },
  {
   "property": "C42",
   "status": "proved",
   "theorems": [
    "Osu.C42_events",
    "Osu.C42_events_value",
    "Osu.C42_file_value",
    "Osu.C42_file",
    "Osu.C42_file_false_empty",
    "Osu.C42_file_false_blank",
    "Osu.C42_hit_objects_stable",
    "Osu.C42_hit_objects_value",
    "Osu.C42_hit_objects_v11_sample_lost",
    "Osu.C42_hit_objects_v9_sample_lost",
    "Osu.C42_colours_stable",
    "Osu.C42_file_exact",
    "Osu.C42_general",
    "Osu.C42_editor",
    "Osu.C42_difficulty",
    "Osu.C42_metadata",
    "Osu.C42_timing_points_stable",
    "Osu.C42_timing_points_value",
    "Osu.C42_timing_points_v4_volume_lost"
   ],
   "note": "C42_file_false_* are concrete files for which it fails without the extra conditions; C42_file_value says which value is read the second time."
  },
  {
   "property": "C43",
   "status": "proved",
   "theorems": [
    "Osu.C43_order",
    "Osu.C43_order_written",
    "Osu.C43_written"
   ],
   "note": ""
  },
  {
   "property": "C44",
   "status": "proved",
   "theorems": [
    "Osu.C44_accepted",
    "Osu.C44_duplicate",
    "Osu.C44_unknown"
   ],
   "note": ""
  },
  {
   "property": "C45",
   "status": "proved",
   "theorems": [
    "Osu.C45_accepted",
    "Osu.C45_undefined",
    "Osu.C45_invalid"
   ],
   "note": ""
  },
  {
   "property": "C46",
   "status": "proved",
   "theorems": [
    "Osu.C46_outcome",
    "Osu.C46_unexpected_line",
    "Osu.C46_content_position",
    "Osu.C46_header_position",
    "Osu.C46_content_line",
    "Osu.C46_header_line",
    "Osu.C46_right_line",
    "Osu.C46_false_gap",
    "Osu.C46_false_indent",
    "Osu.C46_false_unexpected"
   ],
   "note": "C46_content_line and C46_header_line are the exact equations, C46_content_position and C46_header_position say which line of the text is meant, C46_right_line is the case without deviation, C46_false_* are concrete deviations."
  },
  {
   "property": "C47",
   "status": "proved",
   "theorems": [
    "Osu.C47_exact",
    "Osu.C47_false_empty",
    "Osu.C47_false_events"
   ],
   "note": "C47_false_* are concrete panics; C47_exact is the characterisation."
  },
  {
   "property": "C48",
   "status": "proved",
   "theorems": [
    "Osu.C48_exact",
    "Osu.C48_equivalence",
    "Osu.C48_blanks",
    "Osu.C48_crlf",
    "Osu.C48_bom",
    "Osu.C48_order",
    "Osu.C48_idempotent",
    "Osu.C48_idempotent_plain",
    "Osu.C48_normal_form",
    "Osu.C48_third",
    "Osu.C48_false_bom"
   ],
   "note": "C48_exact is the exact trimmed form; C48_false_bom is the witness for the exception."
  },
  {
   "property": "C49",
   "status": "proved",
   "theorems": [
    "Osu.C49_no_sections",
    "Osu.C49_messages",
    "Osu.C49_exact",
    "Osu.C49_layout",
    "Osu.C49_plain_lines",
    "Osu.C49_false_values",
    "Osu.C49_false_hit_objects",
    "Osu.C49_false_before"
   ],
   "note": "C49_exact is the characterisation; C49_false_* are pairs of different files that are equal."
  },
  {
   "property": "C50",
   "status": "proved",
   "theorems": [
    "Osu.C50_hit_object_panic",
    "Osu.C50_hit_objects_no_panic",
    "Osu.C50_colours_no_panic",
    "Osu.C50_general",
    "Osu.C50_editor",
    "Osu.C50_difficulty",
    "Osu.C50_timing_point_panic",
    "Osu.C50_timing_points_no_panic"
   ],
   "note": ""
  },
  {
   "property": "C51",
   "status": "proved",
   "theorems": [
    "Osu.C51_nested",
    "Osu.C51_given_line",
    "Osu.C51_line_number"
   ],
   "note": ""
  },
  {
   "property": "C52",
   "status": "proved",
   "theorems": [
    "Osu.C52_false",
    "Osu.C52_exact",
    "Osu.C52_numbers_no_blank"
   ],
   "note": "C52_false is the witness that the blank depends on the value."
  },
  {
   "property": "C53",
   "status": "proved",
   "theorems": [
    "Osu.C53_exact",
    "Osu.C53_text",
    "Osu.C53_nothing_left",
    "Osu.C53_false_header",
    "Osu.C53_false_comment"
   ],
   "note": "C53_false_* are concrete texts of which a part is ignored; C53_exact is the characterisation."
  },
  {
   "property": "C54",
   "status": "proved",
   "theorems": [
    "Osu.C54_report",
    "Osu.C54_usable",
    "Osu.C54_two_less",
    "Osu.C54_false"
   ],
   "note": "C54_false is the witness that the reported indentation can be unacceptable; C54_report, C54_usable and C54_two_less say what is reported."
  },
  {
   "property": "C55",
   "status": "proved",
   "theorems": [
    "Osu.C55_exact",
    "Osu.C55_rejected",
    "Osu.C55_panic"
   ],
   "note": "C55_exact, C55_rejected and C55_panic together give every outcome."
  },
  {
   "property": "C56",
   "status": "proved",
   "theorems": [
    "Osu.C56_line",
    "Osu.C56_accepted",
    "Osu.C56_section",
    "Osu.C56_section_panics"
   ],
   "note": ""
  },
  {
   "property": "C57",
   "status": "proved",
   "theorems": [
    "Osu.C57_line",
    "Osu.C57_accepted",
    "Osu.C57_false_prefix"
   ],
   "note": "C57_false_prefix is the witness for the exception in parentheses."
  },
  {
   "property": "C58",
   "status": "proved",
   "theorems": [
    "Osu.C58_line",
    "Osu.C58_accepted",
    "Osu.C58_section",
    "Osu.C58_false_prefix",
    "Osu.C58_variables",
    "Osu.C58_variables_panic"
   ],
   "note": ""
  },
  {
   "property": "C59",
   "status": "proved",
   "theorems": [
    "Osu.C59_line",
    "Osu.C59_panic",
    "Osu.C59_accepted",
    "Osu.C59_section",
    "Osu.C59_section_panics",
    "Osu.C59_never",
    "Osu.C59_false_curve_point",
    "Osu.C59_false_edge_sound",
    "Osu.C59_false_edge_set"
   ],
   "note": "C59_false_* are lines whose error names the wrong column; C59_never lists errors that never occur."
  },
  {
   "property": "C60",
   "status": "proved",
   "theorems": [
    "Osu.C60_grammar",
    "Osu.C60_line",
    "Osu.C60_accepted",
    "Osu.C60_section"
   ],
   "note": ""
  },
  {
   "property": "C61",
   "status": "proved",
   "theorems": [
    "Osu.C61_defined",
    "Osu.C61_names",
    "Osu.C61_unique",
    "Osu.C61_slot",
    "Osu.C61_count",
    "Osu.C61_false",
    "Osu.C61_quotes"
   ],
   "note": "C61_false is an animation that is read and panics; C61_quotes is the remark in parentheses. Unix paths."
  },
  {
   "property": "C62",
   "status": "proved",
   "theorems": [
    "Osu.C62_bpm_value",
    "Osu.C62_bpm_defined",
    "Osu.C62_bpm_zero_panics",
    "Osu.C62_multiplier_value",
    "Osu.C62_multiplier_back",
    "Osu.C62_multiplier_exact",
    "Osu.C62_bpm_back",
    "Osu.C62_which",
    "Osu.C62_kinds",
    "Osu.C62_zero_multiplier_panics",
    "Osu.C62_no_flag",
    "Osu.C62_round_trip",
    "Osu.C62_false_exact",
    "Osu.C62_false_zero"
   ],
   "note": "C62_false_exact is a multiplier that does not come back exactly, C62_false_zero an accepted line whose BPM panics. Division and multiplication of rust_decimal are assumed to round as class DecArith says."
  },
  {
   "property": "C63",
   "status": "proved",
   "theorems": [
    "Osu.C63_edits",
    "Osu.C63_flag_alone",
    "Osu.C63_effects_alone"
   ],
   "note": "C63_flag_alone and C63_effects_alone are the unreadable cases."
  },
  {
   "property": "C64",
   "status": "proved",
   "theorems": [
    "Osu.C64_general_gate",
    "Osu.C64_general",
    "Osu.C64_texts",
    "Osu.C64_false_tags",
    "Osu.C64_object_texts",
    "Osu.C64_objects_back",
    "Osu.C64_new_file",
    "Osu.C64_false_empty_list",
    "Osu.C64_general_which",
    "Osu.C64_lists"
   ],
   "note": "C64_false_tags and C64_false_empty_list are the two exceptions."
  },
  {
   "property": "C65",
   "status": "proved",
   "theorems": [
    "Osu.C65_slider_back",
    "Osu.C65_equal",
    "Osu.C65_false"
   ],
   "note": "C65_equal is the exact condition, C65_false a concrete slider."
  },
  {
   "property": "C66",
   "status": "proved",
   "theorems": [
    "Osu.C66_timing_point",
    "Osu.C66_hit_object",
    "Osu.C66_command",
    "Osu.C66_event",
    "Osu.C66_colour",
    "Osu.C66_event_section",
    "Osu.C66_one_line",
    "Osu.C66_one_line_osb",
    "Osu.C66_recover",
    "Osu.C66_distinct",
    "Osu.C66_known_section",
    "Osu.C66_false_distinct",
    "Osu.C66_false_metadata",
    "Osu.C66_whole",
    "Osu.C66_versions",
    "Osu.C66_variable",
    "Osu.C66_osb_same"
   ],
   "note": "C66_false_distinct and C66_false_metadata are the exceptions; the texts of std's ParseIntError are assumed."
  },
  {
   "property": "C67",
   "status": "proved",
   "theorems": [
    "Osu.C67_section_read",
    "Osu.C67_section_write",
    "Osu.C67_read",
    "Osu.C67_write",
    "Osu.C67_write_exact",
    "Osu.C67_read_exact",
    "Osu.C67_upgrade"
   ],
   "note": "C67_read and C67_write are for all texts and values; C67_read_exact and C67_write_exact add that the cuts are needed (with the concrete decimals)."
  },
  {
   "property": "C68",
   "status": "proved",
   "theorems": [
    "Osu.C68_file",
    "Osu.C68_crlf",
    "Osu.C68_osb",
    "Osu.C68_section",
    "Osu.C68_final_file",
    "Osu.C68_final_section",
    "Osu.C68_final_osb",
    "Osu.C68_false_cr",
    "Osu.C68_false_crcr"
   ],
   "note": "C68_false_cr and C68_false_crcr are the two remarks at the end."
  },
  {
   "property": "C69",
   "status": "proved",
   "theorems": [
    "Osu.C69_timing_points",
    "Osu.C69_hit_objects",
    "Osu.C69_colours",
    "Osu.C69_events",
    "Osu.C69_fields",
    "Osu.C69_false_indented"
   ],
   "note": "C69_false_indented shows the condition on events is needed. C69_fields wants a first text with at least one entry and nothing left over, and a second text not starting with a blank."
  },
  {
   "property": "C70",
   "status": "proved",
   "theorems": [
    "Osu.C70_decimal_int",
    "Osu.C70_decimal_text",
    "Osu.C70_try_make",
    "Osu.C70_break",
    "Osu.C70_video",
    "Osu.C70_path_set",
    "Osu.C70_sprite_new",
    "Osu.C70_sprite",
    "Osu.C70_loop_default",
    "Osu.C70_hit_object",
    "Osu.C70_false_sprite",
    "Osu.C70_false_old_time"
   ],
   "note": "C70_false_sprite and C70_false_old_time are the two oddities named in the statement. Absolute paths as on Unix."
  },
  {
   "property": "C71",
   "status": "proved",
   "theorems": [
    "Osu.C71_write_section",
    "Osu.C71_read_section",
    "Osu.C71_append_hit_objects",
    "Osu.C71_append_timing_points",
    "Osu.C71_append_events",
    "Osu.C71_line_timing_points",
    "Osu.C71_line_hit_objects",
    "Osu.C71_line_colours",
    "Osu.C71_line_field",
    "Osu.C71_remove_section",
    "Osu.C71_add_section",
    "Osu.C71_remove_written",
    "Osu.C71_add_written"
   ],
   "note": "LastSection, SameBut in Spec/Edits; texts with LF line endings (C68 carries it over to CRLF), without a final line feed."
  },
  {
   "property": "C72",
   "status": "proved",
   "theorems": [
    "Osu.C72_timing_points",
    "Osu.C72_timing_points_new",
    "Osu.C72_hit_objects",
    "Osu.C72_hit_objects_exact",
    "Osu.C72_events",
    "Osu.C72_colours",
    "Osu.C72_fields",
    "Osu.C72_file",
    "Osu.C72_version",
    "Osu.C72_osb",
    "Osu.C72_false_text",
    "Osu.C72_false_old"
   ],
   "note": "C72_false_text and C72_false_old show that the hypotheses are needed."
  },
  {
   "property": "C73",
   "status": "proved",
   "theorems": [
    "Osu.C73_after_colon",
    "Osu.C73_gap",
    "Osu.C73_keys",
    "Osu.C73_names",
    "Osu.C73_first_line",
    "Osu.C73_general",
    "Osu.C73_editor",
    "Osu.C73_metadata",
    "Osu.C73_decimal",
    "Osu.C73_timing_point",
    "Osu.C73_hit_object",
    "Osu.C73_after_last_comma"
   ],
   "note": "The statements on decimals suppose that the decimal type takes no white space (DecNoWs; rust_decimal does not, and Dec96 is shown to)."
  },
  {
   "property": "C74",
   "status": "proved",
   "theorems": [
    "Osu.C74_number",
    "Osu.C74_general_value",
    "Osu.C74_editor_value",
    "Osu.C74_general",
    "Osu.C74_editor",
    "Osu.C74_metadata",
    "Osu.C74_difficulty"
   ],
   "note": "The texts of ParseIntError are those of the standard library (assumed)."
  },
  {
   "property": "C75",
   "status": "proved",
   "theorems": [
    "Osu.C75_file",
    "Osu.C75_general",
    "Osu.C75_editor",
    "Osu.C75_difficulty",
    "Osu.C75_metadata",
    "Osu.C75_colours",
    "Osu.C75_no_colon"
   ],
   "note": "Sections with colons in some lines of timing points, events and hit objects are covered by the file theorem through the comparison of lines itself."
  },
  {
   "property": "C76",
   "status": "proved",
   "theorems": [
    "Osu.C76_general_value",
    "Osu.C76_general_distinct",
    "Osu.C76_general",
    "Osu.C76_other_keys",
    "Osu.C76_file",
    "Osu.C76_osb",
    "Osu.C76_says_more"
   ],
   "note": "What thiserror derives for `#[from]` and `transparent` is assumed."
  },
  {
   "property": "C77",
   "status": "proved",
   "theorems": [
    "Osu.C77_exact",
    "Osu.C77_shortest",
    "Osu.C77_same_use",
    "Osu.C77_equivalence",
    "Osu.C77_false_text",
    "Osu.C77_false_quotes"
   ],
   "note": "PathBuf equality by components (std, Unix) is assumed; elsewhere in the model equality of values is equality of spellings, which is finer."
  },
  {
   "property": "C78",
   "status": "proved",
   "theorems": [
    "Osu.C78_events",
    "Osu.C78_section",
    "Osu.C78_file",
    "Osu.C78_file_one",
    "Osu.C78_storyboard"
   ],
   "note": "The number is that of the line as counted by the library; C46 says when it is the line in the text."
  },
  {
   "property": "C79",
   "status": "proved",
   "theorems": [
    "Osu.C79_general_read",
    "Osu.C79_general_written",
    "Osu.C79_editor_read",
    "Osu.C79_editor_written",
    "Osu.C79_metadata_read",
    "Osu.C79_metadata_written",
    "Osu.C79_difficulty_read",
    "Osu.C79_difficulty_written",
    "Osu.C79_unknown"
   ],
   "note": "The tables of names, kinds and versions are in Spec/Fields.lean. The blank in Difficulty depends on the value, not on the key: the macro compares the printed value with the names (macro hygiene)."
  },
  {
   "property": "C80",
   "status": "proved",
   "theorems": [
    "Osu.C80_curve_type",
    "Osu.C80_parameter",
    "Osu.C80_layer",
    "Osu.C80_loop_type",
    "Osu.C80_trigger_words",
    "Osu.C80_origin",
    "Osu.C80_easing",
    "Osu.C80_point_sample_set",
    "Osu.C80_object_sample_set",
    "Osu.C80_point_sample_index",
    "Osu.C80_point_numbers",
    "Osu.C80_object_sample_index",
    "Osu.C80_object_volume",
    "Osu.C80_hit_sound",
    "Osu.C80_pairs",
    "Osu.C80_object_type",
    "Osu.C80_event_numbers"
   ],
   "note": "The tables are in Spec/Names.lean. Those of the key/value sections are in C79."
  },
  {
   "property": "C81",
   "status": "proved",
   "theorems": [
    "Osu.C81_timing_point",
    "Osu.C81_timing_points",
    "Osu.C81_hit_object",
    "Osu.C81_hit_objects",
    "Osu.C81_command",
    "Osu.C81_event",
    "Osu.C81_events",
    "Osu.C81_colour",
    "Osu.C81_colours",
    "Osu.C81_variable"
   ],
   "note": "The lines are lists of pieces (Spec/Writing.lean). Hit objects: those that skip at most 7 colours, which is all that can be built or read (C24). Commands: without variables; C38 says what variables change. Sections of key/value pairs are in C79, whole files in C43."
  },
  {
   "property": "C82",
   "status": "proved",
   "theorems": [
    "Osu.C82_exact",
    "Osu.C82_written",
    "Osu.C82_save_as",
    "Osu.C82_only",
    "Osu.C82_newest_fields",
    "Osu.C82_moved_times",
    "Osu.C82_later_keeps_more",
    "Osu.C82_false"
   ],
   "note": "`Only if` needs no loading: it holds for every file value. `SavableAs` says nothing about parts that loading guarantees."
  },
  {
   "property": "C83",
   "status": "proved",
   "theorems": [
    "Osu.C83_general",
    "Osu.C83_editor",
    "Osu.C83_metadata",
    "Osu.C83_difficulty",
    "Osu.C83_timing_points",
    "Osu.C83_hit_objects",
    "Osu.C83_colours",
    "Osu.C83_events",
    "Osu.C83_file",
    "Osu.C83_false_title",
    "Osu.C83_false_order",
    "Osu.C83_false_nesting"
   ],
   "note": "`C83_false_title`, `C83_false_order` and `C83_false_nesting` show why the claim is not equality of the loaded values."
  },
  {
   "property": "C84",
   "status": "proved",
   "theorems": [
    "Osu.C84_exact",
    "Osu.C84_exact_storyboard",
    "Osu.C84_equivalence",
    "Osu.C84_respelled",
    "Osu.C84_normal",
    "Osu.C84_kept",
    "Osu.C84_saved",
    "Osu.C84_text",
    "Osu.C84_text_loaded",
    "Osu.C84_text_storyboard",
    "Osu.C84_saved_storyboard",
    "Osu.C84_false_saved",
    "Osu.C84_false_kind",
    "Osu.C84_false_number",
    "Osu.C84_false_text_storyboard"
   ],
   "note": "`C84_false_saved`, `C84_false_kind`, `C84_false_number` and `C84_false_text_storyboard` are the four negative parts of the claim."
  },
  {
   "property": "C85",
   "status": "proved",
   "theorems": [
    "Osu.C85_written",
    "Osu.C85_saved",
    "Osu.C85_save_as",
    "Osu.C85_again",
    "Osu.C85_exact",
    "Osu.C85_later",
    "Osu.C85_nothing_lost",
    "Osu.C85_false"
   ],
   "note": "`C85_false` is the case of the game mode. Carriage returns: either the written text has none at ends of lines, or the loaded lines have none (`C85_save_as`)."
  },
  {
   "property": "C86",
   "status": "proved",
   "theorems": [
    "Osu.C86_timing_point",
    "Osu.C86_hit_object",
    "Osu.C86_event",
    "Osu.C86_file",
    "Osu.C86_later",
    "Osu.C86_storyboard",
    "Osu.C86_loaded",
    "Osu.C86_loaded_decimals",
    "Osu.C86_false_older"
   ],
   "note": "`C86_false_older` is a loaded file of version 14 that panics when saved as version 4. `C86_loaded` needs that a decimal to which 24 was added admits taking 24 away, which `C86_loaded_decimals` proves for the concrete decimals."
  },
  {
   "property": "C87",
   "status": "proved",
   "theorems": [
    "Osu.C87_agrees",
    "Osu.C87_events_written",
    "Osu.C87_events_saved",
    "Osu.C87_agrees_saving",
    "Osu.C87_saving_panics",
    "Osu.C87_line",
    "Osu.C87_section",
    "Osu.C87_exact",
    "Osu.C87_outcome",
    "Osu.C87_panics",
    "Osu.C87_events_round_trip",
    "Osu.C87_false_late",
    "Osu.C87_empty_section"
   ],
   "note": "`C87_false_late` and `C87_empty_section` are the two differences on concrete files."
  },
  {
   "property": "C88",
   "status": "proved",
   "theorems": [
    "Osu.C88_push",
    "Osu.C88_push_keeps",
    "Osu.C88_push_agrees",
    "Osu.C88_set",
    "Osu.C88_colour_push",
    "Osu.C88_colour_push_agrees",
    "Osu.C88_colour_push_keeps",
    "Osu.C88_colour_set"
   ],
   "note": ""
  },
  {
   "property": "C89",
   "status": "proved",
   "theorems": [
    "Osu.C89_numbers",
    "Osu.C89_origin",
    "Osu.C89_event_values",
    "Osu.C89_volume",
    "Osu.C89_edge_set",
    "Osu.C89_false_second",
    "Osu.C89_curve_point",
    "Osu.C89_hit_sample",
    "Osu.C89_false_separator",
    "Osu.C89_trigger",
    "Osu.C89_colour",
    "Osu.C89_names",
    "Osu.C89_flag"
   ],
   "note": "C89_false_second and C89_false_separator: errors that exist but are never reported."
  },
  {
   "property": "C90",
   "status": "proved",
   "theorems": [
    "Osu.C90_limits",
    "Osu.C90_sample_set",
    "Osu.C90_false_same",
    "Osu.C90_no_cause",
    "Osu.C90_edge_set",
    "Osu.C90_curve_point",
    "Osu.C90_hit_sample",
    "Osu.C90_trigger",
    "Osu.C90_names",
    "Osu.C90_setters",
    "Osu.C90_set_volume",
    "Osu.C90_false_range",
    "Osu.C90_file_path",
    "Osu.C90_false_path",
    "Osu.C90_set_pair",
    "Osu.C90_false_index",
    "Osu.C90_set_colour",
    "Osu.C90_new_pair",
    "Osu.C90_new_colour",
    "Osu.C90_false_blue",
    "Osu.C90_distinct"
   ],
   "note": "C90_false_*: texts that are not true of the call that shows them, with witnesses; the exact conditions are in the other theorems."
  },
  {
   "property": "C91",
   "status": "proved",
   "theorems": [
    "Osu.C91_equal",
    "Osu.C91_frames_defined",
    "Osu.C91_frame_names",
    "Osu.C91_sprite_new",
    "Osu.C91_same_use",
    "Osu.C91_equal_more",
    "Osu.C91_equal_same",
    "Osu.C91_frames_same",
    "Osu.C91_false_frames",
    "Osu.C91_false_sprite",
    "Osu.C91_false_equal",
    "Osu.C91_false_case"
   ],
   "note": "C91_false_*: what differs between the systems and what Windows does not identify, with witnesses; the exact conditions are in the other theorems. Network, device and verbatim paths are not modelled."
  },
  {
   "property": "C92",
   "status": "proved",
   "theorems": [
    "Osu.C92_sample_read",
    "Osu.C92_sample_written",
    "Osu.C92_timing",
    "Osu.C92_combo_skip",
    "Osu.C92_equal",
    "Osu.C92_false_louder"
   ],
   "note": "C92_false_louder: what the order does not say, with a witness."
  },
  {
   "property": "C93",
   "status": "proved",
   "theorems": [
    "Osu.C93_64_object",
    "Osu.C93_64_events",
    "Osu.C93_sample",
    "Osu.C93_object",
    "Osu.C93_object_panic",
    "Osu.C93_object_error",
    "Osu.C93_section",
    "Osu.C93_section_error",
    "Osu.C93_round_trip",
    "Osu.C93_settings",
    "Osu.C93_cause",
    "Osu.C93_events",
    "Osu.C93_false_same",
    "Osu.C93_file",
    "Osu.C93_file_error",
    "Osu.C93_file_differs",
    "Osu.C93_storyboard",
    "Osu.C93_64_file"
   ],
   "note": "C93_false_same: a hit object line that a 64 bit build reads and a 32 bit build refuses."
  },
  {
   "property": "C94",
   "status": "proved",
   "theorems": [
    "Osu.C94_path",
    "Osu.C94_false_path",
    "Osu.C94_values",
    "Osu.C94_storyboard",
    "Osu.C94_exact_storyboard",
    "Osu.C94_file",
    "Osu.C94_exact",
    "Osu.C94_many",
    "Osu.C94_false_different"
   ],
   "note": "C94_false_different: loaded files that are not equal and make the same calls on the hasher."
  },
  {
   "property": "C95",
   "status": "proved",
   "theorems": [
    "Osu.C95_lines",
    "Osu.C95_events",
    "Osu.C95_depth",
    "Osu.C95_fields",
    "Osu.C95_rows",
    "Osu.C95_file",
    "Osu.C95_file_lines",
    "Osu.C95_file_depth",
    "Osu.C95_storyboard",
    "Osu.C95_file_tight",
    "Osu.C95_false_lines"
   ],
   "note": "C95_false_lines: four fields on one line, separated by carriage returns, in a file of three lines. C95_file_tight: the bound is reached."
  },
  {
   "property": "C96",
   "status": "proved",
   "theorems": [
    "Osu.C96_lines",
    "Osu.C96_fields",
    "Osu.C96_events",
    "Osu.C96_file",
    "Osu.C96_storyboard",
    "Osu.C96_false_read",
    "Osu.C96_false_middle"
   ],
   "note": "C96_false_read: cut after the header of a section, loading panics. C96_false_middle: PreviewTime: 12 cut to PreviewTime: 1."
  },
  {
   "property": "C97",
   "status": "proved",
   "theorems": [
    "Osu.C97_storyboard",
    "Osu.C97_file",
    "Osu.C97_all",
    "Osu.C97_not_longer",
    "Osu.C97_false"
   ],
   "note": "C97_false: [General]Mode: 1 on one line is saved on two."
  },
  {
   "property": "C98",
   "status": "proved",
   "theorems": [
    "Osu.C98_file",
    "Osu.C98_storyboard",
    "Osu.C98_ascii",
    "Osu.C98_never_added",
    "Osu.C98_false"
   ],
   "note": "C98_false: the path a b.png is saved with quotes."
  },
  {
   "property": "C99",
   "status": "proved",
   "theorems": [
    "Osu.C99_section",
    "Osu.C99_file",
    "Osu.C99_older",
    "Osu.C99_recent",
    "Osu.C99_exact",
    "Osu.C99_false"
   ],
   "note": "C99_false: a timing point with eight columns is accepted in version 14 and refused in version 4."
  },
  {
   "property": "C100",
   "status": "proved",
   "theorems": [
    "Osu.C100_lines",
    "Osu.C100_fields",
    "Osu.C100_parts",
    "Osu.C100_events",
    "Osu.C100_pruned",
    "Osu.C100_file",
    "Osu.C100_false_events",
    "Osu.C100_false_repeated"
   ],
   "note": "C100_false_events: a command without the line of its event is refused. C100_false_repeated: a key may occur once only."
  }
 ]
}