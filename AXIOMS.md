# Axioms of the theorems in MANIFEST.json

Generated with `#print axioms` (names without the prefix `Osu.`).

## none

C02_never_fails, C02_keeps_text, C22_normal, C25_event_codes, C25_curve_type, C26_read_write, C48_false_bom, C49_false_hit_objects, C49_false_before, C51_nested, C66_false_distinct, C73_decimal, C77_false_quotes, C90_no_cause, C90_false_range, C90_false_path, C90_distinct, C92_false_louder

## propext

C02_print_parse, C02_stable, C02_try_make, C03_print, C07_colours_gate, C07_sampleSet, C07_overlay, C08_empty_tags_not_read_back, C09_roundtrip, C10_false, C12_old_versions, C13_index_in_range, C22_flags, C22_written, C22_round_trip, C23_written, C25_ho_sample_set, C25_ho_sample_index, C26_write_read, C26_other_versions, C30_refused, C30_zero_panics, C31_set_panics, C32_set_panics, C33_false, C33_ambiguous, C37_false_equals, C39_old, C40_old, C40_last, C40_all_or_nothing, C48_equivalence, C53_text, C53_nothing_left, C54_false, C64_texts, C64_false_tags, C64_general_which, C66_osb_same, C68_false_cr, C70_decimal_text, C70_path_set, C73_names, C76_osb, C77_same_use, C80_curve_type, C80_parameter, C80_layer, C80_loop_type, C80_trigger_words, C82_newest_fields, C84_exact_storyboard, C88_colour_set, C89_names, C90_false_same, C90_set_volume, C91_same_use, C91_false_frames, C91_false_sprite, C91_false_equal, C91_false_case, C93_64_object, C100_false_repeated

## propext, Classical.choice, Quot.sound

C01_i32_roundtrip, C01_i32_accepts, C01_i32_injective, C03_read, C03_stable, C03_injective, C04_general, C04_general_exact, C04_editor, C04_difficulty, C04_metadata, C04_general_read, C04_editor_read, C04_difficulty_read, C04_metadata_read, C04_general_iff, C04_editor_iff, C04_difficulty_iff, C04_metadata_iff, C05_permutation, C05_line_ending, C06_accepted_iff, C06_duplicate, C06_unknown, C06_bad_value, C06_no_colon, C06_split, C06_any_text_accepted, C06_any_text_no_colon, C06_any_text_duplicate, C06_any_text_unknown, C06_any_text_bad_value, C07_storyboard, C07_mode_read, C07_mode_roundtrip, C07_false_mode, C08_bookmarks_roundtrip, C08_bookmarks_accepts, C08_bookmarks_no_panic, C08_bookmarks_error, C08_tags_text, C08_tags_roundtrip, C08_tags_no_blank, C09_accepts, C10_exact, C11_colour_round_trip, C11_false, C11_injective, C12_colours_round_trip, C12_colours_iff, C13_events, C14_events, C14_colours, C14_timing_points, C14_hit_objects, C15_round_trip, C15_lossy, C15_false, C15_false_effects_only, C15_false_flag_only, C15_exact, C16_round_trip, C16_lossy, C16_exact, C17_line_meaning, C17_v3_defaults, C17_v4_volume, C17_tails, C18_bits, C18_queries, C18_new, C19_decode, C19_unknown, C19_round_trip, C20_line_meaning, C20_round_trip, C20_lossy, C20_text_stable, C20_false, C20_false_blank_filename, C20_false_v3_position, C20_exact, C21_round_trip, C21_lossy, C21_exact, C23_meaning, C23_prefix, C23_round_trip, C24_combo_skip_read, C24_volume, C24_volume_bound, C25_origin, C25_easing_text, C25_tp_sample_set, C25_tp_sample_set_text, C26_events, C26_event_print, C26_hit_object, C26_timing_point, C27_grammar, C27_round_trip, C27_stable, C27_exact, C27_unwritable, C27_panics, C30_accepted, C30_iff, C31_parsed, C32_parsed, C32_set, C33_exact, C33_grammar, C33_panics, C33_stable, C34_grammar, C34_round_trip, C34_round_trip_plain, C34_read_is_writable, C34_read_fits, C34_colour_transformation_lost, C34_path_false, C35_grammar, C35_round_trip, C35_round_trip_cr, C35_round_trip_plain, C35_iff, C36_exact, C36_event_line, C36_false_header, C36_false_char, C36_false_time, C36_false_loop, C36_false_trigger, C37_missing_header, C37_missing_equals, C37_no_panic, C38_round_trip, C38_read, C38_no_dollar, C38_false_empty, C38_false_prefix, C38_false_overlap, C38_false_dollar, C38_not_in_first_line, C38_iff, C39_some, C39_round_trip, C39_round_trip_plain, C39_stable, C39_false_empty, C39_false_order, C39_iff, C40_round_trip, C40_iff, C41_iff, C41_round_trip, C41_false_empty_section, C42_events, C42_events_value, C42_file_value, C42_file, C42_file_false_empty, C42_file_false_blank, C42_hit_objects_stable, C42_hit_objects_value, C42_hit_objects_v11_sample_lost, C42_hit_objects_v9_sample_lost, C42_colours_stable, C42_file_exact, C42_general, C42_editor, C42_difficulty, C42_metadata, C42_timing_points_stable, C42_timing_points_value, C42_timing_points_v4_volume_lost, C43_order, C43_order_written, C44_accepted, C44_duplicate, C44_unknown, C45_accepted, C45_undefined, C45_invalid, C46_outcome, C46_unexpected_line, C46_right_line, C46_false_gap, C46_false_indent, C46_false_unexpected, C47_exact, C47_false_empty, C47_false_events, C48_exact, C48_blanks, C48_crlf, C48_bom, C48_order, C48_idempotent, C48_idempotent_plain, C48_normal_form, C48_third, C49_no_sections, C49_messages, C49_exact, C49_plain_lines, C49_false_values, C50_hit_object_panic, C50_hit_objects_no_panic, C50_general, C50_editor, C50_difficulty, C50_timing_point_panic, C50_timing_points_no_panic, C52_false, C52_exact, C53_exact, C53_false_header, C53_false_comment, C54_two_less, C55_exact, C55_rejected, C55_panic, C56_line, C56_accepted, C56_section, C56_section_panics, C57_line, C57_accepted, C57_false_prefix, C58_line, C58_accepted, C58_section, C58_false_prefix, C58_variables, C58_variables_panic, C59_line, C59_panic, C59_accepted, C59_section, C59_section_panics, C59_never, C59_false_curve_point, C59_false_edge_sound, C59_false_edge_set, C61_defined, C61_names, C61_unique, C61_slot, C61_count, C61_false, C61_quotes, C62_bpm_value, C62_bpm_defined, C62_bpm_zero_panics, C62_multiplier_value, C62_multiplier_back, C62_multiplier_exact, C62_bpm_back, C62_which, C62_kinds, C62_zero_multiplier_panics, C62_no_flag, C62_round_trip, C62_false_exact, C62_false_zero, C63_edits, C63_flag_alone, C63_effects_alone, C64_general, C64_object_texts, C64_objects_back, C64_new_file, C64_false_empty_list, C65_slider_back, C65_equal, C65_false, C66_timing_point, C66_hit_object, C66_command, C66_event, C66_event_section, C66_false_metadata, C66_whole, C66_variable, C67_section_read, C67_section_write, C67_read, C67_write, C67_write_exact, C67_read_exact, C67_upgrade, C68_file, C68_crlf, C68_section, C68_final_file, C68_final_section, C68_false_crcr, C69_fields, C69_false_indented, C70_decimal_int, C70_break, C70_video, C70_sprite, C70_loop_default, C70_hit_object, C70_false_sprite, C70_false_old_time, C71_read_section, C71_append_hit_objects, C71_append_timing_points, C71_append_events, C71_line_field, C71_remove_section, C71_add_section, C71_remove_written, C71_add_written, C72_timing_points, C72_timing_points_new, C72_hit_objects, C72_hit_objects_exact, C72_events, C72_colours, C72_fields, C72_file, C72_osb, C72_false_text, C72_false_old, C73_after_colon, C73_gap, C73_keys, C73_first_line, C73_general, C73_editor, C73_metadata, C73_timing_point, C73_hit_object, C73_after_last_comma, C74_general_value, C74_editor_value, C74_general, C74_editor, C74_metadata, C74_difficulty, C75_file, C75_general, C75_editor, C75_difficulty, C75_metadata, C75_colours, C76_general_value, C76_general_distinct, C76_general, C76_other_keys, C76_file, C76_says_more, C77_shortest, C77_false_text, C78_events, C78_section, C78_file, C78_file_one, C78_storyboard, C79_general_read, C79_general_written, C79_editor_read, C79_editor_written, C79_metadata_read, C79_metadata_written, C79_difficulty_read, C79_difficulty_written, C79_unknown, C80_origin, C80_easing, C80_point_sample_set, C80_point_numbers, C80_pairs, C81_timing_point, C81_timing_points, C81_hit_object, C81_hit_objects, C81_command, C81_event, C81_events, C81_colour, C81_colours, C81_variable, C82_exact, C82_written, C82_save_as, C82_only, C82_moved_times, C82_later_keeps_more, C82_false, C83_general, C83_editor, C83_metadata, C83_difficulty, C83_timing_points, C83_hit_objects, C83_colours, C83_events, C83_file, C83_false_title, C83_false_order, C83_false_nesting, C84_saved, C84_text_loaded, C84_saved_storyboard, C84_false_saved, C84_false_kind, C84_false_number, C84_false_text_storyboard, C85_written, C85_saved, C85_save_as, C85_again, C85_exact, C85_later, C85_nothing_lost, C85_false, C86_timing_point, C86_hit_object, C86_event, C86_file, C86_later, C86_storyboard, C86_loaded, C86_loaded_decimals, C86_false_older, C87_events_written, C87_events_saved, C87_saving_panics, C87_line, C87_section, C87_exact, C87_outcome, C87_panics, C87_events_round_trip, C87_false_late, C87_empty_section, C88_push_keeps, C89_origin, C89_event_values, C89_volume, C89_edge_set, C89_false_second, C89_curve_point, C89_hit_sample, C89_false_separator, C89_trigger, C89_flag, C90_limits, C90_edge_set, C90_curve_point, C90_hit_sample, C90_trigger, C90_setters, C90_set_pair, C90_false_index, C90_set_colour, C90_new_pair, C91_equal, C91_frames_defined, C91_frame_names, C91_sprite_new, C91_equal_more, C91_equal_same, C91_frames_same, C92_sample_read, C92_sample_written, C92_timing, C92_combo_skip, C92_equal, C93_64_events, C93_object, C93_object_panic, C93_object_error, C93_section, C93_section_error, C93_round_trip, C93_events, C93_false_same, C93_file, C93_file_error, C93_file_differs, C93_storyboard, C93_64_file, C94_path, C94_false_path, C94_values, C94_storyboard, C94_exact_storyboard, C94_file, C94_exact, C94_many, C94_false_different, C95_events, C95_depth, C95_fields, C95_file, C95_file_lines, C95_file_depth, C95_storyboard, C95_file_tight, C95_false_lines, C96_fields, C96_events, C96_file, C96_storyboard, C96_false_read, C96_false_middle, C97_storyboard, C97_file, C97_all, C97_not_longer, C97_false, C98_file, C98_storyboard, C98_ascii, C98_never_added, C98_false, C99_section, C99_file, C99_older, C99_recent, C99_exact, C99_false, C100_fields, C100_pruned, C100_file, C100_false_events

## propext, Quot.sound

C01_printed, C01_printed_unsigned, C01_u8_roundtrip, C01_u32_roundtrip, C01_usize_roundtrip, C01_usize_accepts, C01_u8_accepts, C01_u32_accepts, C07_countdown, C07_written, C09_no_panic, C11_read_is_writable, C13_colours, C13_timing_points, C13_hit_objects, C19_encode, C22_low_bits, C24_audio_volume, C24_audio_volume_bound, C24_combo_skip, C24_combo_skip_bound, C25_ho_sample_set_text, C25_easing, C25_tp_sample_index, C28_depth_first, C29_rebuild, C29_rebuild_after, C29_injective, C30_no_panic, C31_new, C31_push_panics, C31_push, C31_set, C32_new, C32_push_panics, C32_push, C32_push_false, C37_grammar, C37_round_trip, C37_stable, C38_text, C40_text, C43_written, C46_content_position, C46_header_position, C46_content_line, C46_header_line, C49_layout, C50_colours_no_panic, C51_given_line, C51_line_number, C52_numbers_no_blank, C54_report, C54_usable, C60_grammar, C60_line, C60_accepted, C60_section, C64_general_gate, C64_lists, C66_colour, C66_one_line, C66_one_line_osb, C66_recover, C66_distinct, C66_known_section, C66_versions, C68_osb, C68_final_osb, C69_timing_points, C69_hit_objects, C69_colours, C69_events, C70_try_make, C70_sprite_new, C71_write_section, C71_line_timing_points, C71_line_hit_objects, C71_line_colours, C72_version, C74_number, C75_no_colon, C77_exact, C77_equivalence, C80_object_sample_set, C80_point_sample_index, C80_object_sample_index, C80_object_volume, C80_hit_sound, C80_object_type, C80_event_numbers, C84_exact, C84_equivalence, C84_respelled, C84_normal, C84_kept, C84_text, C84_text_storyboard, C87_agrees, C87_agrees_saving, C88_push, C88_push_agrees, C88_set, C88_colour_push, C88_colour_push_agrees, C88_colour_push_keeps, C89_numbers, C89_colour, C90_sample_set, C90_names, C90_file_path, C90_new_colour, C90_false_blue, C93_sample, C93_settings, C93_cause, C95_lines, C95_rows, C96_lines, C100_lines, C100_parts, C100_events
