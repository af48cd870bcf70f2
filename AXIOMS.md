# Axioms each theorem depends on

Output of `#print axioms` for every theorem named in MANIFEST.json, grouped by
the set of axioms.  All of them are axioms of Lean itself.

## none (3 theorems)

* `Midi2.C43_device_id_violation`
* `Midi2.C51_ump_sizes`
* `Midi2.C60_names_once`

## propext (10 theorems)

* `Midi2.C06_sysex7_bytes_violation`
* `Midi2.C20_bytes_stale_terminator_violation`
* `Midi2.C22_bytes_stale_terminator_violation`
* `Midi2.C22_bytes_underestimate_violation`
* `Midi2.C24_bytes_violation`
* `Midi2.C34_packet_unique`
* `Midi2.C51_bytes_sizes`
* `Midi2.C81_frames_unique`
* `Midi2.C81_picked_unique`
* `Midi2.C85_times`

## Quot.sound (1 theorems)

* `Midi2.C71_record`

## propext, Quot.sound (138 theorems)

* `Midi2.C05_sysex7_bytes_total`
* `Midi2.C05_sysex_total`
* `Midi2.C06_sysex_truncated_violation`
* `Midi2.C07_sysex7_bytes_accepts_exactly`
* `Midi2.C08_array_too_small`
* `Midi2.C08_constructor_panics`
* `Midi2.C08_dirty_buffer_violation`
* `Midi2.C08_fixed_too_short`
* `Midi2.C08_sysex7_bytes`
* `Midi2.C08_vec_bytes_partial`
* `Midi2.C08_vec_ump_partial`
* `Midi2.C12_flex_data_violation`
* `Midi2.C13_song_position_pointer_violation`
* `Midi2.C14_bytes_rebuffer`
* `Midi2.C14_ci_rebuffer`
* `Midi2.C14_fixed_enum_array_rebuffer`
* `Midi2.C14_fixed_rebuffer`
* `Midi2.C14_song_position_pointer_violation`
* `Midi2.C19_stream_id_violation`
* `Midi2.C20_debug_assertion_violation`
* `Midi2.C21_debug_assertion_violation`
* `Midi2.C21_full_messages`
* `Midi2.C21_sysex7_odd_packet_violation`
* `Midi2.C22_underestimate_violation`
* `Midi2.C24_nth_violation`
* `Midi2.C25_top_bit_violation`
* `Midi2.C26_violation`
* `Midi2.C28_stream_lost_violation`
* `Midi2.C33_fixed_packets`
* `Midi2.C34_violation`
* `Midi2.C38_violation`
* `Midi2.C40_flex_text_violation`
* `Midi2.C42_disjoint`
* `Midi2.C42_no_assertion_alteration`
* `Midi2.C42_no_assertion_bytes_read`
* `Midi2.C42_no_assertion_bytes_write`
* `Midi2.C42_no_assertion_ci_read`
* `Midi2.C42_no_assertion_ci_write`
* `Midi2.C42_no_assertion_compact`
* `Midi2.C42_no_assertion_flex_read`
* `Midi2.C42_no_assertion_flex_write`
* `Midi2.C42_no_assertion_move`
* `Midi2.C42_no_assertion_stream_read`
* `Midi2.C42_no_assertion_stream_write`
* `Midi2.C42_no_assertion_sysex`
* `Midi2.C42_no_assertion_ump_read`
* `Midi2.C42_no_assertion_ump_write`
* `Midi2.C42_no_assertion_zero_tail`
* `Midi2.C43_device_id_exactly`
* `Midi2.C43_device_id_partial`
* `Midi2.C43_dirty_buffer_violation`
* `Midi2.C43_getter_violation`
* `Midi2.C43_length_violation`
* `Midi2.C43_unknown_version_violation`
* `Midi2.C45_bytes_past_end_exactly`
* `Midi2.C45_bytes_set_payload_byte`
* `Midi2.C45_bytes_terminator_violation`
* `Midi2.C46_fixed_resize`
* `Midi2.C46_vec_resize`
* `Midi2.C48_bytes_stream_violation`
* `Midi2.C49_violation`
* `Midi2.C50_alteration`
* `Midi2.C50_chord_sharps_flats`
* `Midi2.C50_chord_type`
* `Midi2.C50_direction`
* `Midi2.C50_key_sharps_flats`
* `Midi2.C50_midi1_port`
* `Midi2.C50_tonic`
* `Midi2.C50_ui_hint`
* `Midi2.C53_song_position_pointer_violation`
* `Midi2.C54_song_position_array_violation`
* `Midi2.C55_empty_end_violation`
* `Midi2.C57_reserved_bit_violation`
* `Midi2.C57_sysex7_stale_payload_violation`
* `Midi2.C57_sysex8_stale_payload_violation`
* `Midi2.C57_sysex_padding_moved`
* `Midi2.C59_assertion_premise`
* `Midi2.C59_from_bytes`
* `Midi2.C59_packet_iterator`
* `Midi2.C59_sysex_history`
* `Midi2.C59_sysex_try_history`
* `Midi2.C61_reserved_bits_violation`
* `Midi2.C62_bytes_fill_violation`
* `Midi2.C62_bytes_try_violation`
* `Midi2.C62_discovery_violation`
* `Midi2.C62_new_any_buffer`
* `Midi2.C62_new_bytes_violation`
* `Midi2.C62_new_filled_violation`
* `Midi2.C62_new_short_violation`
* `Midi2.C62_new_violation`
* `Midi2.C62_new_with_buffer`
* `Midi2.C62_no_hint_violation`
* `Midi2.C62_roomy_bytes_violation`
* `Midi2.C62_roomy_debug_violation`
* `Midi2.C62_stream_text_any_buffer`
* `Midi2.C62_sysex7_top_bit_violation`
* `Midi2.C62_sysex8_stream_id_violation`
* `Midi2.C62_try_new_any_buffer`
* `Midi2.C62_try_new_with_buffer`
* `Midi2.C62_try_new_with_buffer_rest`
* `Midi2.C62_try_text_any_buffer`
* `Midi2.C64_chord_codes_violation`
* `Midi2.C64_function_block_discovery_violation`
* `Midi2.C64_per_note_management_violation`
* `Midi2.C64_program_bank_violation`
* `Midi2.C65_bytes_exactly`
* `Midi2.C66_iterators`
* `Midi2.C66_release_violation`
* `Midi2.C66_sysex_bytes_history`
* `Midi2.C66_sysex_bytes_try_history`
* `Midi2.C66_sysex_history`
* `Midi2.C66_sysex_try_history`
* `Midi2.C67_ump_wrap`
* `Midi2.C67_ump_wrap_injective`
* `Midi2.C68_speaks_partial`
* `Midi2.C69_underestimate_violation`
* `Midi2.C71_fits`
* `Midi2.C74_standard_violation`
* `Midi2.C76_violation`
* `Midi2.C77_flex_text_group_violation`
* `Midi2.C77_flex_text_wipes_violation`
* `Midi2.C77_function_block_name_violation`
* `Midi2.C77_old_stream_id_violation`
* `Midi2.C77_old_top_bit_violation`
* `Midi2.C77_overflow_violation`
* `Midi2.C77_set_group_violation`
* `Midi2.C77_size_hint_violation`
* `Midi2.C77_song_position_pointer_violation`
* `Midi2.C77_stream_text_wipes_violation`
* `Midi2.C77_stream_violation`
* `Midi2.C77_sysex8_violation`
* `Midi2.C77_writer_violation`
* `Midi2.C78_arrived_unique`
* `Midi2.C81_skip_one_violation`
* `Midi2.C82_in_step`
* `Midi2.C82_length_violation`
* `Midi2.C82_violation`
* `Midi2.C87_blocks_violation`

## propext, Classical.choice, Quot.sound (569 theorems)

* `Midi2.C01_ump_set_get`
* `Midi2.C01_ump_set_get_plain`
* `Midi2.C02_bytes_set_get_exactly`
* `Midi2.C02_bytes_set_get_partial`
* `Midi2.C02_song_position_pointer_violation`
* `Midi2.C03_bytes_no_interference`
* `Midi2.C03_ump_no_interference`
* `Midi2.C04_bytes_footprint`
* `Midi2.C04_ump_footprint`
* `Midi2.C05_bytes_enums_total`
* `Midi2.C05_fixed_bytes_total`
* `Midi2.C05_fixed_ump_total`
* `Midi2.C05_flex_text_total`
* `Midi2.C05_stream_text_total`
* `Midi2.C05_ump_enums_total`
* `Midi2.C06_fixed_bytes_exactly`
* `Midi2.C06_fixed_bytes_reads_partial`
* `Midi2.C06_fixed_ump_reads`
* `Midi2.C06_flex_text_data_partial`
* `Midi2.C06_flex_text_exactly`
* `Midi2.C06_flex_text_getters`
* `Midi2.C06_flex_text_truncated_violation`
* `Midi2.C06_song_position_pointer_violation`
* `Midi2.C06_stream_text_data_partial`
* `Midi2.C06_stream_text_exactly`
* `Midi2.C06_stream_text_getters`
* `Midi2.C06_stream_text_truncated_violation`
* `Midi2.C06_sysex7_bytes_reads_partial`
* `Midi2.C06_sysex_exactly`
* `Midi2.C06_sysex_reads_partial`
* `Midi2.C06_ump_message_exactly`
* `Midi2.C07_bytes_accepts_exactly`
* `Midi2.C07_flex_text_accepts_exactly`
* `Midi2.C07_stream_text_accepts_exactly`
* `Midi2.C07_sysex_accepts_exactly`
* `Midi2.C07_ump_accepts_exactly`
* `Midi2.C08_array_bytes`
* `Midi2.C08_array_ump`
* `Midi2.C08_fixed_bytes_exactly`
* `Midi2.C08_fixed_bytes_partial`
* `Midi2.C08_fixed_ump_exactly`
* `Midi2.C08_fixed_ump_partial`
* `Midi2.C08_flex_text_array`
* `Midi2.C08_flex_text_dirty_buffer_violation`
* `Midi2.C08_flex_text_new`
* `Midi2.C08_flex_text_new_with_buffer`
* `Midi2.C08_flex_text_try_new_with_buffer_exactly`
* `Midi2.C08_flex_text_try_new_with_buffer_partial`
* `Midi2.C08_stream_text_array`
* `Midi2.C08_stream_text_dirty_buffer_violation`
* `Midi2.C08_stream_text_new`
* `Midi2.C08_stream_text_new_with_buffer`
* `Midi2.C08_stream_text_try_new_with_buffer_exactly`
* `Midi2.C08_stream_text_try_new_with_buffer_partial`
* `Midi2.C08_sysex_array`
* `Midi2.C08_sysex_new`
* `Midi2.C08_sysex_try_new_with_buffer`
* `Midi2.C09_bytes_history_exactly`
* `Midi2.C09_bytes_history_partial`
* `Midi2.C09_ump_history`
* `Midi2.C10_channel_voice1`
* `Midi2.C10_channel_voice2`
* `Midi2.C10_flex_data_partial`
* `Midi2.C10_recording_violation`
* `Midi2.C10_short_function_block_discovery_violation`
* `Midi2.C10_system_common`
* `Midi2.C10_ump_dispatch_exactly`
* `Midi2.C10_ump_dispatch_partial`
* `Midi2.C10_ump_stream_partial`
* `Midi2.C10_ump_unique`
* `Midi2.C10_ump_unknown`
* `Midi2.C10_ump_variant`
* `Midi2.C10_utility`
* `Midi2.C11_bytes_dispatch`
* `Midi2.C11_bytes_unique`
* `Midi2.C11_bytes_unknown`
* `Midi2.C11_bytes_variant`
* `Midi2.C11_channel_voice1`
* `Midi2.C11_system_common`
* `Midi2.C12_bytes_suffix`
* `Midi2.C12_sysex7_bytes_suffix`
* `Midi2.C12_ump_message_exactly`
* `Midi2.C12_ump_suffix`
* `Midi2.C13_bytes_roundtrip`
* `Midi2.C13_bytes_roundtrip_exact`
* `Midi2.C13_bytes_to_ump`
* `Midi2.C13_bytes_to_ump_exactly`
* `Midi2.C13_bytes_to_ump_words`
* `Midi2.C13_enum_bytes_to_ump_partial`
* `Midi2.C13_enum_ump_to_bytes_partial`
* `Midi2.C13_ump_roundtrip`
* `Midi2.C13_ump_to_bytes_exactly`
* `Midi2.C13_ump_to_bytes_partial`
* `Midi2.C13_ump_to_bytes_words`
* `Midi2.C14_array_rebuffer_violation`
* `Midi2.C14_bytes_message_rebuffer`
* `Midi2.C14_fixed_bytes_rebuffer_reads_partial`
* `Midi2.C14_fixed_rebuffer_reads`
* `Midi2.C14_flex_text_getter_violation`
* `Midi2.C14_flex_text_panic_violation`
* `Midi2.C14_flex_text_rebuffer_exactly`
* `Midi2.C14_stream_text_rebuffer_reads`
* `Midi2.C14_sysex7_bytes_rebuffer_reads`
* `Midi2.C14_sysex_rebuffer_reads`
* `Midi2.C14_ump_message_rebuffer_partial`
* `Midi2.C14_ump_message_truncated`
* `Midi2.C14_ump_rebuffer`
* `Midi2.C15_sysex7_set_payload`
* `Midi2.C16_set_payload`
* `Midi2.C17_sysex8_set_payload`
* `Midi2.C18_sysex7_wire_format`
* `Midi2.C19_sysex8_stream_ids_exactly`
* `Midi2.C19_sysex8_wire_format_partial`
* `Midi2.C20_bytes_exactly`
* `Midi2.C20_bytes_fresh`
* `Midi2.C20_bytes_try_set_payload_partial`
* `Midi2.C20_debug_exactly`
* `Midi2.C20_stream_ids_exactly`
* `Midi2.C20_try_set_payload`
* `Midi2.C21_append_partial`
* `Midi2.C21_bytes_any_hint_partial`
* `Midi2.C21_bytes_end_exactly`
* `Midi2.C21_bytes_exact_hint_exactly`
* `Midi2.C21_bytes_exact_hint_partial`
* `Midi2.C21_bytes_splice_partial`
* `Midi2.C21_debug_exactly`
* `Midi2.C21_holds_exactly`
* `Midi2.C21_insert_partial`
* `Midi2.C21_splice_exactly`
* `Midi2.C21_splice_partial`
* `Midi2.C21_sysex8_release`
* `Midi2.C22_any_hint_partial`
* `Midi2.C22_bytes_any_payload_partial`
* `Midi2.C22_bytes_append`
* `Midi2.C22_bytes_append_exactly`
* `Midi2.C22_bytes_end_exactly`
* `Midi2.C22_bytes_exact_hint_exactly`
* `Midi2.C22_bytes_exact_hint_partial`
* `Midi2.C22_bytes_low_hint_partial`
* `Midi2.C22_bytes_remove`
* `Midi2.C22_bytes_try_splice_partial`
* `Midi2.C22_debug_exactly`
* `Midi2.C22_low_hint_exactly`
* `Midi2.C22_try_splice_exactly`
* `Midi2.C22_try_splice_partial`
* `Midi2.C23_payload_of_accepted`
* `Midi2.C24_bytes_iterator_exactly`
* `Midi2.C24_bytes_iterator_partial`
* `Midi2.C24_iterator_exactly`
* `Midi2.C24_next_only`
* `Midi2.C24_sysex7_iterator_partial`
* `Midi2.C24_sysex8_iterator_partial`
* `Midi2.C25_bytes_roundtrip`
* `Midi2.C25_bytes_to_ump`
* `Midi2.C25_bytes_to_ump_array`
* `Midi2.C25_bytes_to_ump_array_exactly`
* `Midi2.C25_bytes_to_ump_exactly`
* `Midi2.C25_bytes_to_ump_stepwise`
* `Midi2.C25_ump_roundtrip`
* `Midi2.C25_ump_to_bytes`
* `Midi2.C25_ump_to_bytes_array`
* `Midi2.C25_ump_to_bytes_exactly`
* `Midi2.C26_set_stream_id_exactly`
* `Midi2.C26_set_stream_id_partial`
* `Midi2.C27_flex_text_set_group`
* `Midi2.C27_set_group`
* `Midi2.C28_any_hint_exactly`
* `Midi2.C28_fixed_stream_ids_partial`
* `Midi2.C28_splice_keeps_group_partial`
* `Midi2.C28_stream_ids_exactly`
* `Midi2.C28_stream_ids_partial`
* `Midi2.C29_broken_character_violation`
* `Midi2.C29_multiple_of_12_violation`
* `Midi2.C29_round_trip_iff`
* `Midi2.C29_text_exactly`
* `Midi2.C29_text_round_trip_partial`
* `Midi2.C29_try_text_exactly`
* `Midi2.C29_try_text_round_trip_partial`
* `Midi2.C30_data_parses_partial`
* `Midi2.C30_history`
* `Midi2.C30_try_wire_format`
* `Midi2.C30_wire_format`
* `Midi2.C31_history`
* `Midi2.C31_stream_text`
* `Midi2.C31_text_exactly`
* `Midi2.C31_try_stream_text`
* `Midi2.C32_function_block_name_text`
* `Midi2.C32_number_exactly`
* `Midi2.C32_number_on_growth_violation`
* `Midi2.C32_number_partial`
* `Midi2.C32_set_function_block`
* `Midi2.C32_try_function_block_name_text`
* `Midi2.C33_flex_text_packets`
* `Midi2.C33_function_block_discovery_violation`
* `Midi2.C33_packet_values_exactly`
* `Midi2.C33_packet_values_partial`
* `Midi2.C33_stream_text_packets`
* `Midi2.C33_sysex_packets`
* `Midi2.C33_ump_message_packets_partial`
* `Midi2.C34_channel`
* `Midi2.C34_collect_partial`
* `Midi2.C34_format`
* `Midi2.C34_group`
* `Midi2.C34_packet_accepts_exactly`
* `Midi2.C34_sysex7_payload_exactly`
* `Midi2.C34_sysex7_payload_partial`
* `Midi2.C34_sysex8_payload_exactly`
* `Midi2.C34_sysex8_payload_partial`
* `Midi2.C34_sysex8_status`
* `Midi2.C34_typed_accepts_exactly`
* `Midi2.C35_attribute_set_get`
* `Midi2.C35_attribute_validated`
* `Midi2.C36_controller_read_write_partial`
* `Midi2.C36_controller_set_get_partial`
* `Midi2.C36_controller_write_exactly`
* `Midi2.C36_violation`
* `Midi2.C37_bank_set_get`
* `Midi2.C38_sharps_flats_set_get_partial`
* `Midi2.C38_wire_value`
* `Midi2.C39_chord_name_accepted`
* `Midi2.C39_chord_name_set_get`
* `Midi2.C40_channel_then_text_partial`
* `Midi2.C40_fixed_set_get`
* `Midi2.C40_flex_text_exactly`
* `Midi2.C40_flex_text_set_get`
* `Midi2.C41_decode_encode`
* `Midi2.C41_encode_decode`
* `Midi2.C41_top_bit_ignored`
* `Midi2.C41_u14_digits`
* `Midi2.C41_u14_value`
* `Midi2.C41_u21_digits`
* `Midi2.C41_u21_value`
* `Midi2.C41_u28_digits`
* `Midi2.C41_u28_value`
* `Midi2.C42_get_set_laws`
* `Midi2.C42_u32_exactly`
* `Midi2.C42_u32_positions`
* `Midi2.C42_u7_exactly`
* `Midi2.C42_u8_exactly`
* `Midi2.C42_u8_u7_positions`
* `Midi2.C43_accepts_exactly`
* `Midi2.C43_default_accepted`
* `Midi2.C43_getters_exactly`
* `Midi2.C43_getters_partial`
* `Midi2.C43_history`
* `Midi2.C43_layout`
* `Midi2.C43_new`
* `Midi2.C43_set_get`
* `Midi2.C43_try_new_with_buffer_partial`
* `Midi2.C43_wrong_version_or_length`
* `Midi2.C44_delta_clockstamp`
* `Midi2.C44_ticks`
* `Midi2.C45_past_end_exactly`
* `Midi2.C45_past_end_panics`
* `Midi2.C45_set_payload_byte`
* `Midi2.C47_any_fixed_history`
* `Midi2.C47_any_history`
* `Midi2.C47_bytes_fixed_history_partial`
* `Midi2.C47_bytes_history`
* `Midi2.C47_dirty_buffer_history_partial`
* `Midi2.C47_fixed_history`
* `Midi2.C47_history`
* `Midi2.C48_bytes_stream`
* `Midi2.C48_bytes_stream_exactly`
* `Midi2.C48_ump_stream`
* `Midi2.C48_ump_stream_exactly`
* `Midi2.C48_ump_stream_violation`
* `Midi2.C49_exactly`
* `Midi2.C49_standard_length_partial`
* `Midi2.C50_attribute`
* `Midi2.C51_bytes_constants`
* `Midi2.C51_bytes_layout`
* `Midi2.C51_ump_constants`
* `Midi2.C51_ump_layout`
* `Midi2.C52_channel_voice1_bytes_channel`
* `Midi2.C52_channel_voice1_channel`
* `Midi2.C52_channel_voice2_channel`
* `Midi2.C52_enum_group`
* `Midi2.C52_flex_bank_status`
* `Midi2.C52_flex_data_group`
* `Midi2.C53_bytes_message`
* `Midi2.C53_fixed_bytes_partial`
* `Midi2.C53_fixed_ump_exactly`
* `Midi2.C53_fixed_ump_partial`
* `Midi2.C53_flex_text_exactly`
* `Midi2.C53_flex_text_partial`
* `Midi2.C53_flex_text_violation`
* `Midi2.C53_stream_formats_violation`
* `Midi2.C53_stream_text_exactly`
* `Midi2.C53_stream_text_partial`
* `Midi2.C53_stream_text_violation`
* `Midi2.C53_sysex7_bytes`
* `Midi2.C53_sysex_partial`
* `Midi2.C53_ump_message_exactly`
* `Midi2.C53_ump_message_partial`
* `Midi2.C54_discovery_query`
* `Midi2.C54_fixed_bytes_array_partial`
* `Midi2.C54_fixed_bytes_partial`
* `Midi2.C54_fixed_ump_array`
* `Midi2.C54_fixed_ump_partial`
* `Midi2.C54_flex_text_array_exactly`
* `Midi2.C54_flex_text_partial`
* `Midi2.C54_stream_text_array_exactly`
* `Midi2.C54_stream_text_partial`
* `Midi2.C54_sysex`
* `Midi2.C54_sysex7_bytes`
* `Midi2.C54_sysex7_bytes_array_partial`
* `Midi2.C54_sysex_array`
* `Midi2.C55_sysex_exactly`
* `Midi2.C55_sysex_partial`
* `Midi2.C56_bytes_last_call_wins_exactly`
* `Midi2.C56_bytes_last_call_wins_partial`
* `Midi2.C56_bytes_write_back`
* `Midi2.C56_stale_attribute_violation`
* `Midi2.C56_ump_last_call_wins_exactly`
* `Midi2.C56_ump_last_call_wins_partial`
* `Midi2.C56_ump_same_values_partial`
* `Midi2.C56_ump_write_back_exactly`
* `Midi2.C56_ump_write_back_partial`
* `Midi2.C56_write_back_violation`
* `Midi2.C57_flex_text_channel_violation`
* `Midi2.C57_flex_text_history_free_partial`
* `Midi2.C57_function_block_name_history_free_partial`
* `Midi2.C57_stream_text_history_free`
* `Midi2.C57_sysex7_bytes_history_free`
* `Midi2.C57_sysex_fixed_wire_partial`
* `Midi2.C57_sysex_history_free_partial`
* `Midi2.C57_sysex_wire_exactly`
* `Midi2.C57_sysex_wire_partial`
* `Midi2.C58_generator`
* `Midi2.C58_handle_message_exactly`
* `Midi2.C58_handle_message_partial`
* `Midi2.C58_handle_message_violation`
* `Midi2.C58_payload_roundtrip`
* `Midi2.C58_splicing`
* `Midi2.C59_flex_text_history`
* `Midi2.C59_stream_text_history`
* `Midi2.C60_bytes_message_injective`
* `Midi2.C60_bytes_message_text`
* `Midi2.C60_debug_equality`
* `Midi2.C60_debug_injective`
* `Midi2.C60_debug_text`
* `Midi2.C60_packet_text`
* `Midi2.C60_ump_message_equality`
* `Midi2.C60_ump_message_injective`
* `Midi2.C60_ump_message_text`
* `Midi2.C61_bytes_exactly`
* `Midi2.C61_new_array_bytes`
* `Midi2.C61_new_array_ump_partial`
* `Midi2.C61_new_bytes`
* `Midi2.C61_new_ump_partial`
* `Midi2.C61_trailing_words_violation`
* `Midi2.C61_ump_exactly`
* `Midi2.C61_ump_message`
* `Midi2.C61_ump_partial`
* `Midi2.C62_any_hint`
* `Midi2.C62_bytes_history_partial`
* `Midi2.C62_bytes_try_exactly`
* `Midi2.C62_discovery_default`
* `Midi2.C62_discovery_history_partial`
* `Midi2.C62_discovery_new`
* `Midi2.C62_discovery_try_new`
* `Midi2.C62_fixed_any_buffer`
* `Midi2.C62_flex_text`
* `Midi2.C62_flex_text_any_buffer`
* `Midi2.C62_flex_text_short_violation`
* `Midi2.C62_function_block_name_violation`
* `Midi2.C62_limited_partial`
* `Midi2.C62_new_bytes_defaults`
* `Midi2.C62_new_defaults`
* `Midi2.C62_new_flex_text_exactly`
* `Midi2.C62_new_flex_text_set`
* `Midi2.C62_new_stream_text_exactly`
* `Midi2.C62_new_stream_text_set`
* `Midi2.C62_new_sysex7_exactly`
* `Midi2.C62_new_sysex8_exactly`
* `Midi2.C62_new_text_violation`
* `Midi2.C62_roomy_block_name_partial`
* `Midi2.C62_roomy_bytes_history_partial`
* `Midi2.C62_roomy_flex_text`
* `Midi2.C62_roomy_history_partial`
* `Midi2.C62_roomy_new_partial`
* `Midi2.C62_roomy_stream_names`
* `Midi2.C62_stream_names`
* `Midi2.C62_stream_text_partial`
* `Midi2.C62_sysex_history_partial`
* `Midi2.C62_sysex_room`
* `Midi2.C62_sysex_try_history_partial`
* `Midi2.C63_flex_next`
* `Midi2.C63_flex_size_hint_violation`
* `Midi2.C63_stream_next`
* `Midi2.C63_stream_size_hint_violation`
* `Midi2.C64_flags_exactly`
* `Midi2.C64_program_bank_exactly`
* `Midi2.C64_standard_layout_partial`
* `Midi2.C65_additive_partial`
* `Midi2.C65_all_features`
* `Midi2.C65_packet_exactly`
* `Midi2.C65_packets_partial`
* `Midi2.C65_std_exactly`
* `Midi2.C65_std_violation`
* `Midi2.C65_text_accepts_exactly`
* `Midi2.C65_text_bytes`
* `Midi2.C65_total`
* `Midi2.C65_ump_exactly`
* `Midi2.C65_ump_std_exactly`
* `Midi2.C66_flex_text_exactly`
* `Midi2.C66_flex_text_history`
* `Midi2.C66_flex_text_reads`
* `Midi2.C66_flex_text_truncated`
* `Midi2.C66_iterators_exact`
* `Midi2.C66_payload_exact`
* `Midi2.C66_stream_text_exactly`
* `Midi2.C66_stream_text_history`
* `Midi2.C66_stream_text_reads`
* `Midi2.C66_stream_text_truncated`
* `Midi2.C66_sysex_bytes_history_exact`
* `Midi2.C66_sysex_bytes_try_history_exact`
* `Midi2.C66_sysex_bytes_try_history_release`
* `Midi2.C66_sysex_history_exact`
* `Midi2.C66_sysex_history_release`
* `Midi2.C66_sysex_try_history_exact`
* `Midi2.C66_sysex_try_history_release`
* `Midi2.C67_bytes_parse`
* `Midi2.C67_bytes_wrap`
* `Midi2.C67_bytes_wrap_injective`
* `Midi2.C67_ump_parse`
* `Midi2.C67_ump_reparse_partial`
* `Midi2.C67_ump_reparse_violation`
* `Midi2.C68_bytes`
* `Midi2.C68_bytes_enum`
* `Midi2.C68_bytes_rest`
* `Midi2.C68_ci`
* `Midi2.C68_misfiled_codes`
* `Midi2.C68_misfiled_violation`
* `Midi2.C68_packet_enum`
* `Midi2.C68_packets`
* `Midi2.C68_same_parsers`
* `Midi2.C68_speaks_violation`
* `Midi2.C68_ump`
* `Midi2.C68_ump_cases`
* `Midi2.C68_ump_enum_partial`
* `Midi2.C68_ump_rest`
* `Midi2.C68_ump_stranger`
* `Midi2.C68_verdict`
* `Midi2.C69_bytes_any_splice_partial`
* `Midi2.C69_bytes_any_try_splice_partial`
* `Midi2.C69_bytes_set_payload`
* `Midi2.C69_bytes_splice_partial`
* `Midi2.C69_bytes_try_splice_partial`
* `Midi2.C69_insert_partial`
* `Midi2.C69_set_payload`
* `Midi2.C69_size_hint_partial`
* `Midi2.C69_splice_partial`
* `Midi2.C69_try_set_payload`
* `Midi2.C69_try_splice_partial`
* `Midi2.C70_bytes_any_endless_partial`
* `Midi2.C70_bytes_any_overflow_partial`
* `Midi2.C70_bytes_any_splice_partial`
* `Midi2.C70_bytes_endless_partial`
* `Midi2.C70_bytes_overflow_partial`
* `Midi2.C70_bytes_splice_partial`
* `Midi2.C70_endless_partial`
* `Midi2.C70_list`
* `Midi2.C70_overflow_partial`
* `Midi2.C70_splice_partial`
* `Midi2.C70_try_list`
* `Midi2.C71_bytes_any_work_partial`
* `Midi2.C71_bytes_sizes_partial`
* `Midi2.C71_bytes_try_work_partial`
* `Midi2.C71_bytes_work_partial`
* `Midi2.C71_set_payload`
* `Midi2.C71_sizes_partial`
* `Midi2.C71_splice`
* `Midi2.C71_try_splice`
* `Midi2.C71_try_work_partial`
* `Midi2.C71_work_partial`
* `Midi2.C72_flex_text_partial`
* `Midi2.C72_from_bytes_partial`
* `Midi2.C72_from_ump_partial`
* `Midi2.C72_stream_text_partial`
* `Midi2.C72_sysex7_bytes_partial`
* `Midi2.C72_sysex7_ump_partial`
* `Midi2.C72_sysex_arrays_partial`
* `Midi2.C72_words_exactly`
* `Midi2.C73_flex_text_exactly`
* `Midi2.C73_stream_text_exactly`
* `Midi2.C74_midi1_partial`
* `Midi2.C74_one_slice_partial`
* `Midi2.C74_one_slice_violation`
* `Midi2.C74_stream_exactly`
* `Midi2.C74_ump_exactly`
* `Midi2.C75_empty_end_lost`
* `Midi2.C75_interleaved`
* `Midi2.C75_interleaved_exactly`
* `Midi2.C75_lanes_independent`
* `Midi2.C75_never_panics`
* `Midi2.C76_bytes`
* `Midi2.C76_bytes_however_cut`
* `Midi2.C76_bytes_sent`
* `Midi2.C76_message_prefix_exactly`
* `Midi2.C76_messages_exactly`
* `Midi2.C76_packets_careful`
* `Midi2.C76_packets_exactly`
* `Midi2.C76_packets_however_cut`
* `Midi2.C77_bytes_writer_partial`
* `Midi2.C77_fixed`
* `Midi2.C77_fixed_bytes_partial`
* `Midi2.C77_flex_text_new_exactly`
* `Midi2.C77_flex_text_set_channel`
* `Midi2.C77_flex_text_set_group_exactly`
* `Midi2.C77_flex_text_set_text_exactly`
* `Midi2.C77_function_block_set_number_exactly`
* `Midi2.C77_mixed_writer_partial`
* `Midi2.C77_setters`
* `Midi2.C77_stream_exactly`
* `Midi2.C77_stream_text_new_exactly`
* `Midi2.C77_stream_text_set_text_exactly`
* `Midi2.C77_sysex_bytes`
* `Midi2.C77_sysex_exactly`
* `Midi2.C77_sysex_set_group_exactly`
* `Midi2.C77_sysex_set_payload_exactly`
* `Midi2.C77_sysex_set_payload_overflow_exactly`
* `Midi2.C77_sysex_set_payload_partial`
* `Midi2.C77_writer_partial`
* `Midi2.C77_written_read`
* `Midi2.C78_back_exactly`
* `Midi2.C78_gateway_exactly`
* `Midi2.C78_greedy`
* `Midi2.C78_greedy_violation`
* `Midi2.C78_line`
* `Midi2.C78_line_all`
* `Midi2.C78_midi1_partial`
* `Midi2.C78_same`
* `Midi2.C79_built_query_travels`
* `Midi2.C79_query_travels`
* `Midi2.C80_bytes`
* `Midi2.C80_gateway`
* `Midi2.C80_interleaved`
* `Midi2.C80_line`
* `Midi2.C80_line_all`
* `Midi2.C81_damage_local`
* `Midi2.C81_interleaved`
* `Midi2.C81_packets`
* `Midi2.C81_refused_ignored`
* `Midi2.C81_unknown_refused`
* `Midi2.C82_cable`
* `Midi2.C82_gateway`
* `Midi2.C82_never_panics`
* `Midi2.C82_top_bits_exactly`
* `Midi2.C83_merge_violation`
* `Midi2.C83_message`
* `Midi2.C83_never_panics`
* `Midi2.C83_router`
* `Midi2.C83_router_exactly`
* `Midi2.C84_channel`
* `Midi2.C84_mapper`
* `Midi2.C84_mapper_exactly`
* `Midi2.C84_message`
* `Midi2.C84_never_panics`
* `Midi2.C85_all`
* `Midi2.C85_recording`
* `Midi2.C85_stamps`
* `Midi2.C86_dialogue`
* `Midi2.C87_blocks`
* `Midi2.C88_dump`
* `Midi2.C88_dump_bytes`
* `Midi2.C88_dump_exactly`
* `Midi2.C88_rounds`
