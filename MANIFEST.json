{
 "claims": [
  {
   "property": "C01",
   "status": "proved",
   "theorems": [
    "Midi2.C01_ump_set_get",
    "Midi2.C01_ump_set_get_plain"
   ],
   "note": "iff: the round trip holds exactly for the faithful values (all, except the exhibited controllers and Flats(0))"
  },
  {
   "property": "C02",
   "status": "partial",
   "theorems": [
    "Midi2.C02_bytes_set_get_partial",
    "Midi2.C02_song_position_pointer_violation",
    "Midi2.C02_bytes_set_get_exactly"
   ],
   "note": "fails in the code for SongPositionPointer over two bytes (declared minimum too small), where every setter panics; the _exactly theorem covers every type and buffer"
  },
  {
   "property": "C03",
   "status": "proved",
   "theorems": [
    "Midi2.C03_ump_no_interference",
    "Midi2.C03_bytes_no_interference"
   ],
   "note": ""
  },
  {
   "property": "C04",
   "status": "proved",
   "theorems": [
    "Midi2.C04_ump_footprint",
    "Midi2.C04_bytes_footprint"
   ],
   "note": ""
  },
  {
   "property": "C09",
   "status": "partial",
   "theorems": [
    "Midi2.C09_ump_history",
    "Midi2.C09_bytes_history_partial",
    "Midi2.C09_bytes_history_exactly"
   ],
   "note": "UMP form proved in full; over bytes the _exactly theorem says which histories panic (any call on a two-byte SongPositionPointer) and proves the property for the rest"
  },
  {
   "property": "C41",
   "status": "proved",
   "theorems": [
    "Midi2.C41_u14_value",
    "Midi2.C41_u21_value",
    "Midi2.C41_u28_value",
    "Midi2.C41_u14_digits",
    "Midi2.C41_u21_digits",
    "Midi2.C41_u28_digits",
    "Midi2.C41_decode_encode",
    "Midi2.C41_encode_decode",
    "Midi2.C41_top_bit_ignored"
   ],
   "note": ""
  },
  {
   "property": "C42",
   "status": "proved",
   "theorems": [
    "Midi2.C42_u32_positions",
    "Midi2.C42_u8_u7_positions",
    "Midi2.C42_get_set_laws",
    "Midi2.C42_disjoint",
    "Midi2.C42_u32_exactly",
    "Midi2.C42_u8_exactly",
    "Midi2.C42_u7_exactly",
    "Midi2.C42_no_assertion_ump_read",
    "Midi2.C42_no_assertion_ump_write",
    "Midi2.C42_no_assertion_bytes_read",
    "Midi2.C42_no_assertion_bytes_write",
    "Midi2.C42_no_assertion_alteration",
    "Midi2.C42_no_assertion_sysex",
    "Midi2.C42_no_assertion_flex_read",
    "Midi2.C42_no_assertion_flex_write",
    "Midi2.C42_no_assertion_stream_read",
    "Midi2.C42_no_assertion_stream_write",
    "Midi2.C42_no_assertion_ci_read",
    "Midi2.C42_no_assertion_ci_write",
    "Midi2.C42_no_assertion_move",
    "Midi2.C42_no_assertion_zero_tail",
    "Midi2.C42_no_assertion_compact"
   ],
   "note": ""
  },
  {
   "property": "C50",
   "status": "proved",
   "theorems": [
    "Midi2.C50_tonic",
    "Midi2.C50_chord_sharps_flats",
    "Midi2.C50_chord_type",
    "Midi2.C50_ui_hint",
    "Midi2.C50_midi1_port",
    "Midi2.C50_direction",
    "Midi2.C50_alteration",
    "Midi2.C50_key_sharps_flats",
    "Midi2.C50_attribute"
   ],
   "note": ""
  },
  {
   "property": "C05",
   "status": "proved",
   "theorems": [
    "Midi2.C05_ump_enums_total",
    "Midi2.C05_bytes_enums_total",
    "Midi2.C05_fixed_ump_total",
    "Midi2.C05_fixed_bytes_total",
    "Midi2.C05_sysex_total",
    "Midi2.C05_sysex7_bytes_total",
    "Midi2.C05_flex_text_total",
    "Midi2.C05_stream_text_total"
   ],
   "note": ""
  },
  {
   "property": "C06",
   "status": "partial",
   "theorems": [
    "Midi2.C06_fixed_ump_reads",
    "Midi2.C06_fixed_bytes_reads_partial",
    "Midi2.C06_song_position_pointer_violation",
    "Midi2.C06_sysex_reads_partial",
    "Midi2.C06_sysex_truncated_violation",
    "Midi2.C06_sysex7_bytes_reads_partial",
    "Midi2.C06_sysex7_bytes_violation",
    "Midi2.C06_flex_text_getters",
    "Midi2.C06_flex_text_data_partial",
    "Midi2.C06_flex_text_truncated_violation",
    "Midi2.C06_stream_text_getters",
    "Midi2.C06_stream_text_data_partial",
    "Midi2.C06_stream_text_truncated_violation",
    "Midi2.C06_sysex_exactly",
    "Midi2.C06_flex_text_exactly",
    "Midi2.C06_stream_text_exactly",
    "Midi2.C06_ump_message_exactly",
    "Midi2.C06_fixed_bytes_exactly"
   ],
   "note": "every message type; the _exactly theorems say precisely when accessors panic; fails in the code for SongPositionPointer over two bytes and for sysex and text messages with a truncated last packet"
  },
  {
   "property": "C07",
   "status": "proved",
   "theorems": [
    "Midi2.C07_ump_accepts_exactly",
    "Midi2.C07_bytes_accepts_exactly",
    "Midi2.C07_sysex_accepts_exactly",
    "Midi2.C07_sysex7_bytes_accepts_exactly",
    "Midi2.C07_flex_text_accepts_exactly",
    "Midi2.C07_stream_text_accepts_exactly"
   ],
   "note": ""
  },
  {
   "property": "C12",
   "status": "proved",
   "theorems": [
    "Midi2.C12_ump_suffix",
    "Midi2.C12_bytes_suffix",
    "Midi2.C12_flex_data_violation",
    "Midi2.C12_sysex7_bytes_suffix",
    "Midi2.C12_ump_message_exactly"
   ],
   "note": "C12_ump_message_exactly says precisely which words are tolerated behind a message of any type"
  },
  {
   "property": "C33",
   "status": "partial",
   "theorems": [
    "Midi2.C33_fixed_packets",
    "Midi2.C33_flex_text_packets",
    "Midi2.C33_stream_text_packets",
    "Midi2.C33_sysex_packets",
    "Midi2.C33_ump_message_packets_partial",
    "Midi2.C33_packet_values_partial",
    "Midi2.C33_packet_values_exactly",
    "Midi2.C33_function_block_discovery_violation"
   ],
   "note": "the code violates it for FunctionBlockDiscovery (data() is one word, its packet four) and for a truncated last packet (packets() panics); C33_packet_values_exactly says for every accepted slice which case it is and what every sequence of calls yields"
  },
  {
   "property": "C35",
   "status": "proved",
   "theorems": [
    "Midi2.C35_attribute_set_get",
    "Midi2.C35_attribute_validated",
    "Midi2.C50_attribute"
   ],
   "note": ""
  },
  {
   "property": "C36",
   "status": "partial",
   "theorems": [
    "Midi2.C36_controller_set_get_partial",
    "Midi2.C36_controller_read_write_partial",
    "Midi2.C36_controller_write_exactly",
    "Midi2.C36_violation"
   ],
   "note": "the code violates it for EffectDepth 5 and the named controllers; the exact set that round-trips is characterised"
  },
  {
   "property": "C37",
   "status": "proved",
   "theorems": [
    "Midi2.C37_bank_set_get"
   ],
   "note": ""
  },
  {
   "property": "C38",
   "status": "partial",
   "theorems": [
    "Midi2.C38_sharps_flats_set_get_partial",
    "Midi2.C38_violation",
    "Midi2.C38_wire_value"
   ],
   "note": "the code panics for Flats(0); every other value round-trips"
  },
  {
   "property": "C39",
   "status": "proved",
   "theorems": [
    "Midi2.C39_chord_name_set_get",
    "Midi2.C39_chord_name_accepted",
    "Midi2.C50_tonic",
    "Midi2.C50_chord_sharps_flats",
    "Midi2.C50_chord_type",
    "Midi2.C50_alteration"
   ],
   "note": ""
  },
  {
   "property": "C40",
   "status": "partial",
   "theorems": [
    "Midi2.C40_fixed_set_get",
    "Midi2.C40_flex_text_set_get",
    "Midi2.C40_channel_then_text_partial",
    "Midi2.C40_flex_text_violation",
    "Midi2.C40_flex_text_exactly"
   ],
   "note": "the code violates it for flex text over several packets: the channel is written to the first packet only; C40_flex_text_exactly says for every message which packets have it"
  },
  {
   "property": "C44",
   "status": "proved",
   "theorems": [
    "Midi2.C44_delta_clockstamp",
    "Midi2.C44_ticks"
   ],
   "note": ""
  },
  {
   "property": "C51",
   "status": "proved",
   "theorems": [
    "Midi2.C51_ump_layout",
    "Midi2.C51_bytes_layout",
    "Midi2.C51_ump_constants",
    "Midi2.C51_bytes_constants",
    "Midi2.C51_ump_sizes",
    "Midi2.C51_bytes_sizes"
   ],
   "note": ""
  },
  {
   "property": "C08",
   "status": "partial",
   "theorems": [
    "Midi2.C08_array_too_small",
    "Midi2.C08_vec_ump_partial",
    "Midi2.C08_vec_bytes_partial",
    "Midi2.C08_fixed_too_short",
    "Midi2.C08_fixed_ump_partial",
    "Midi2.C08_fixed_ump_exactly",
    "Midi2.C08_array_ump",
    "Midi2.C08_fixed_bytes_partial",
    "Midi2.C08_array_bytes",
    "Midi2.C08_constructor_panics",
    "Midi2.C08_dirty_buffer_violation",
    "Midi2.C08_sysex7_bytes",
    "Midi2.C08_sysex_new",
    "Midi2.C08_sysex_try_new_with_buffer",
    "Midi2.C08_sysex_array",
    "Midi2.C08_flex_text_new",
    "Midi2.C08_flex_text_new_with_buffer",
    "Midi2.C08_flex_text_array",
    "Midi2.C08_flex_text_try_new_with_buffer_partial",
    "Midi2.C08_flex_text_try_new_with_buffer_exactly",
    "Midi2.C08_flex_text_dirty_buffer_violation",
    "Midi2.C08_stream_text_new",
    "Midi2.C08_stream_text_new_with_buffer",
    "Midi2.C08_stream_text_array",
    "Midi2.C08_stream_text_try_new_with_buffer_partial",
    "Midi2.C08_stream_text_try_new_with_buffer_exactly",
    "Midi2.C08_stream_text_dirty_buffer_violation",
    "Midi2.C08_fixed_bytes_exactly"
   ],
   "note": "fixed-size messages, sysex messages and text messages; the code violates it for SongPositionPointer over Vec<u8>, FunctionBlockDiscovery in short buffers, and stream and text messages in dirty buffers; the _exactly theorems say for every fixed-size and text type and every UMP buffer what happens"
  },
  {
   "property": "C14",
   "status": "partial",
   "theorems": [
    "Midi2.C14_fixed_rebuffer",
    "Midi2.C14_fixed_rebuffer_reads",
    "Midi2.C14_ump_rebuffer",
    "Midi2.C14_bytes_rebuffer",
    "Midi2.C14_ump_message_rebuffer_partial",
    "Midi2.C14_bytes_message_rebuffer",
    "Midi2.C14_fixed_enum_array_rebuffer",
    "Midi2.C14_ci_rebuffer",
    "Midi2.C14_array_rebuffer_violation",
    "Midi2.C14_flex_text_getter_violation",
    "Midi2.C14_sysex_rebuffer_reads",
    "Midi2.C14_sysex7_bytes_rebuffer_reads",
    "Midi2.C14_fixed_bytes_rebuffer_reads_partial",
    "Midi2.C14_song_position_pointer_violation",
    "Midi2.C14_stream_text_rebuffer_reads",
    "Midi2.C14_flex_text_rebuffer_exactly",
    "Midi2.C14_flex_text_panic_violation",
    "Midi2.C14_ump_message_truncated"
   ],
   "note": "data() is preserved for every message type; the code violates the property for array_rebuffer of long variable-size messages and for text() of flex data text messages (which may even panic), as exhibited; for UMP enum messages whose last packet is cut off, data() panics before and after (C14_ump_message_truncated); the _reads theorems say that the getters are kept too"
  },
  {
   "property": "C46",
   "status": "proved",
   "theorems": [
    "Midi2.C46_vec_resize",
    "Midi2.C46_fixed_resize"
   ],
   "note": ""
  },
  {
   "property": "C13",
   "status": "partial",
   "theorems": [
    "Midi2.C13_enum_bytes_to_ump_partial",
    "Midi2.C13_enum_ump_to_bytes_partial",
    "Midi2.C13_bytes_to_ump",
    "Midi2.C13_ump_to_bytes_partial",
    "Midi2.C13_bytes_roundtrip",
    "Midi2.C13_bytes_roundtrip_exact",
    "Midi2.C13_ump_roundtrip",
    "Midi2.C13_song_position_pointer_violation",
    "Midi2.C13_bytes_to_ump_exactly",
    "Midi2.C13_ump_to_bytes_exactly",
    "Midi2.C13_bytes_to_ump_words",
    "Midi2.C13_ump_to_bytes_words"
   ],
   "note": "the code panics for SongPositionPointer with a two-byte buffer; the _exactly theorems cover every type and buffer"
  },
  {
   "property": "C15",
   "status": "proved",
   "theorems": [
    "Midi2.C15_sysex7_set_payload"
   ],
   "note": ""
  },
  {
   "property": "C17",
   "status": "proved",
   "theorems": [
    "Midi2.C17_sysex8_set_payload"
   ],
   "note": ""
  },
  {
   "property": "C18",
   "status": "proved",
   "theorems": [
    "Midi2.C18_sysex7_wire_format"
   ],
   "note": ""
  },
  {
   "property": "C19",
   "status": "partial",
   "theorems": [
    "Midi2.C19_sysex8_wire_format_partial",
    "Midi2.C19_sysex8_stream_ids_exactly",
    "Midi2.C19_stream_id_violation"
   ],
   "note": "the code violates the part about the stream id of later packets; everything else proved, and C19_sysex8_stream_ids_exactly says which stream ids the packets get and when the result is accepted"
  },
  {
   "property": "C20",
   "status": "partial",
   "theorems": [
    "Midi2.C20_try_set_payload",
    "Midi2.C20_debug_assertion_violation",
    "Midi2.C20_debug_exactly",
    "Midi2.C20_stream_ids_exactly",
    "Midi2.C20_bytes_try_set_payload_partial",
    "Midi2.C20_bytes_fresh",
    "Midi2.C20_bytes_exactly",
    "Midi2.C20_bytes_stale_terminator_violation"
   ],
   "note": "UMP: proved for builds without debug assertions; with them, proved to hold exactly for the buffers with no partly filled stale packet behind the first packet. Bytes: C20_bytes_exactly says for every message, iterator and size hint whether the call panics (a stale terminator within the last guess of the size) and proves the property if not"
  },
  {
   "property": "C21",
   "status": "partial",
   "theorems": [
    "Midi2.C21_splice_partial",
    "Midi2.C21_insert_partial",
    "Midi2.C21_append_partial",
    "Midi2.C21_full_messages",
    "Midi2.C21_sysex8_release",
    "Midi2.C21_sysex7_odd_packet_violation",
    "Midi2.C21_debug_assertion_violation",
    "Midi2.C21_debug_exactly",
    "Midi2.C21_splice_exactly",
    "Midi2.C21_holds_exactly",
    "Midi2.C21_bytes_splice_partial",
    "Midi2.C21_bytes_exact_hint_partial",
    "Midi2.C21_bytes_any_hint_partial",
    "Midi2.C21_bytes_end_exactly",
    "Midi2.C21_bytes_exact_hint_exactly"
   ],
   "note": "the code violates it for sysex7 messages with short odd-numbered packets (compactness check looks at every second packet) and, with debug assertions, for exactly those other messages where a partly filled stale packet follows the packets the payload needs; proved for all others; C21_splice_exactly says what a splice does to every complete message, C21_holds_exactly for exactly which messages the property holds; over bytes it holds for every message and hint unless a stale F7 is among the bytes the first guess takes in, and the _exactly theorems say what happens then for ranges reaching the end and for exact hints"
  },
  {
   "property": "C22",
   "status": "partial",
   "theorems": [
    "Midi2.C22_try_splice_partial",
    "Midi2.C22_any_hint_partial",
    "Midi2.C22_try_splice_exactly",
    "Midi2.C22_debug_exactly",
    "Midi2.C22_underestimate_violation",
    "Midi2.C22_low_hint_exactly",
    "Midi2.C22_bytes_low_hint_partial",
    "Midi2.C22_bytes_try_splice_partial",
    "Midi2.C22_bytes_exact_hint_partial",
    "Midi2.C22_bytes_append",
    "Midi2.C22_bytes_append_exactly",
    "Midi2.C22_bytes_remove",
    "Midi2.C22_bytes_any_payload_partial",
    "Midi2.C22_bytes_end_exactly",
    "Midi2.C22_bytes_underestimate_violation",
    "Midi2.C22_bytes_exact_hint_exactly",
    "Midi2.C22_bytes_stale_terminator_violation"
   ],
   "note": "same exceptions as C21, iterators whose hint is too low replacing a non-empty range in a buffer without room for twice their items (over bytes also with any room, if three bytes or more are replaced: C22_bytes_underestimate_violation; C22_low_hint_exactly says for every low hint whether the payload is right and which one it is if not), and byte buffers with stale terminators, for which the code corrupts the payload (with exact size hints only for insertions before the end of the payload, of two bytes or more: the C22_bytes theorems)"
  },
  {
   "property": "C23",
   "status": "proved",
   "theorems": [
    "Midi2.C23_payload_of_accepted"
   ],
   "note": ""
  },
  {
   "property": "C24",
   "status": "partial",
   "theorems": [
    "Midi2.C24_iterator_exactly",
    "Midi2.C24_sysex7_iterator_partial",
    "Midi2.C24_sysex8_iterator_partial",
    "Midi2.C24_next_only",
    "Midi2.C24_nth_violation",
    "Midi2.C24_bytes_iterator_partial",
    "Midi2.C24_bytes_iterator_exactly",
    "Midi2.C24_bytes_violation"
   ],
   "note": "nth past the end panics in some situations in the code: C24_iterator_exactly and C24_bytes_iterator_exactly say for every message and every interleaving of calls whether it panics, and prove the property if not; size_hint over bytes is always 0"
  },
  {
   "property": "C26",
   "status": "partial",
   "theorems": [
    "Midi2.C26_set_stream_id_partial",
    "Midi2.C26_set_stream_id_exactly",
    "Midi2.C26_violation"
   ],
   "note": "the code writes the stream id over the first payload byte; C26_set_stream_id_exactly says what it does to every packet"
  },
  {
   "property": "C27",
   "status": "proved",
   "theorems": [
    "Midi2.C27_set_group",
    "Midi2.C27_flex_text_set_group"
   ],
   "note": ""
  },
  {
   "property": "C28",
   "status": "partial",
   "theorems": [
    "Midi2.C28_splice_keeps_group_partial",
    "Midi2.C28_fixed_stream_ids_partial",
    "Midi2.C28_stream_ids_partial",
    "Midi2.C19_stream_id_violation",
    "Midi2.C28_stream_ids_exactly",
    "Midi2.C28_any_hint_exactly",
    "Midi2.C28_stream_lost_violation"
   ],
   "note": "group proved; the stream id of packets added by growth is wrong in the code: on fixed buffers no stream id changes, on resizable ones packets keep theirs and those behind the end of the old buffer get 0, as long as the size hint is not too low; with a low hint packets that were there lose theirs, as exhibited; C28_any_hint_exactly says for every hint which packets keep their stream id and whether the result is accepted"
  },
  {
   "property": "C45",
   "status": "proved",
   "theorems": [
    "Midi2.C45_set_payload_byte",
    "Midi2.C45_past_end_exactly",
    "Midi2.C45_past_end_panics",
    "Midi2.C45_bytes_set_payload_byte",
    "Midi2.C45_bytes_past_end_exactly",
    "Midi2.C45_bytes_terminator_violation"
   ],
   "note": "below payload_size exactly the byte is changed; the _past_end theorems say what larger indices do: index payload_size overwrites the terminator of a byte message, others what lies behind the message, or they panic"
  },
  {
   "property": "C47",
   "status": "proved",
   "theorems": [
    "Midi2.C47_history",
    "Midi2.C47_fixed_history",
    "Midi2.C47_dirty_buffer_history_partial",
    "Midi2.C47_bytes_history",
    "Midi2.C47_bytes_fixed_history_partial",
    "Midi2.C47_any_history",
    "Midi2.C47_any_fixed_history"
   ],
   "note": "C47_any_history and C47_any_fixed_history begin with any message that can be spliced (C21); the _partial theorems add histories on buffers that were not cleared and on fixed byte buffers"
  },
  {
   "property": "C16",
   "status": "proved",
   "theorems": [
    "Midi2.C16_set_payload"
   ],
   "note": ""
  },
  {
   "property": "C25",
   "status": "partial",
   "theorems": [
    "Midi2.C25_bytes_to_ump",
    "Midi2.C25_bytes_to_ump_array",
    "Midi2.C25_ump_to_bytes",
    "Midi2.C25_ump_to_bytes_array",
    "Midi2.C25_bytes_roundtrip",
    "Midi2.C25_ump_roundtrip",
    "Midi2.C25_top_bit_violation",
    "Midi2.C25_bytes_to_ump_exactly",
    "Midi2.C25_bytes_to_ump_stepwise",
    "Midi2.C25_bytes_to_ump_array_exactly",
    "Midi2.C25_ump_to_bytes_exactly"
   ],
   "note": "proved for every message with a well-formed payload; the outcome is given for every accepted message, with the source read byte by byte: the code panics for accepted byte messages with the top bit set in the payload, unless the bytes before it already overflow the array, and for truncated UMP slices"
  },
  {
   "property": "C29",
   "status": "partial",
   "theorems": [
    "Midi2.C29_text_round_trip_partial",
    "Midi2.C29_multiple_of_12_violation",
    "Midi2.C29_try_text_round_trip_partial",
    "Midi2.C29_broken_character_violation",
    "Midi2.C30_data_parses_partial",
    "Midi2.C29_text_exactly",
    "Midi2.C29_try_text_exactly",
    "Midi2.C29_round_trip_iff"
   ],
   "note": "the _exactly theorems say for every string what the getter returns; the round trip is proved for every length that is not a positive multiple of 12; the code drops the last byte otherwise"
  },
  {
   "property": "C30",
   "status": "proved",
   "theorems": [
    "Midi2.C30_wire_format",
    "Midi2.C30_try_wire_format",
    "Midi2.C30_history"
   ],
   "note": ""
  },
  {
   "property": "C31",
   "status": "proved",
   "theorems": [
    "Midi2.C31_stream_text",
    "Midi2.C31_try_stream_text",
    "Midi2.C31_history",
    "Midi2.C31_text_exactly"
   ],
   "note": ""
  },
  {
   "property": "C32",
   "status": "partial",
   "theorems": [
    "Midi2.C32_function_block_name_text",
    "Midi2.C32_try_function_block_name_text",
    "Midi2.C32_number_partial",
    "Midi2.C32_set_function_block",
    "Midi2.C32_number_on_growth_violation",
    "Midi2.C32_number_exactly"
   ],
   "note": "the text half is proved; the code writes number 0 to packets added by growth; C32_number_exactly says for every message and text which numbers the packets have and whether the words parse"
  },
  {
   "property": "C10",
   "status": "partial",
   "theorems": [
    "Midi2.C10_ump_variant",
    "Midi2.C10_ump_dispatch_partial",
    "Midi2.C10_ump_unknown",
    "Midi2.C10_ump_unique",
    "Midi2.C10_recording_violation",
    "Midi2.C10_short_function_block_discovery_violation",
    "Midi2.C10_channel_voice2",
    "Midi2.C10_channel_voice1",
    "Midi2.C10_system_common",
    "Midi2.C10_utility",
    "Midi2.C10_flex_data_partial",
    "Midi2.C10_ump_stream_partial",
    "Midi2.C10_ump_dispatch_exactly"
   ],
   "note": "the code violates it for three flex data statuses (written 0x0110..0x0112 in the dispatcher) and for short FunctionBlockDiscovery slices; C10_ump_dispatch_exactly says for every slice a type accepts whether the dispatcher gives it"
  },
  {
   "property": "C11",
   "status": "proved",
   "theorems": [
    "Midi2.C11_bytes_dispatch",
    "Midi2.C11_bytes_variant",
    "Midi2.C11_bytes_unique",
    "Midi2.C11_bytes_unknown",
    "Midi2.C11_channel_voice1",
    "Midi2.C11_system_common"
   ],
   "note": ""
  },
  {
   "property": "C48",
   "status": "proved",
   "theorems": [
    "Midi2.C48_ump_stream",
    "Midi2.C48_ump_stream_exactly",
    "Midi2.C48_ump_stream_violation",
    "Midi2.C48_bytes_stream",
    "Midi2.C48_bytes_stream_exactly",
    "Midi2.C48_bytes_stream_violation"
   ],
   "note": "proved for all sequences of messages whose parser does not look past their end (over bytes: all types), and exactly which streams of words and which streams of bytes are read back; the violations show messages that look past their end, and standard MIDI 1.0 encodings the parser does not share"
  },
  {
   "property": "C49",
   "status": "partial",
   "theorems": [
    "Midi2.C49_standard_length_partial",
    "Midi2.C49_violation",
    "Midi2.C49_exactly"
   ],
   "note": "the code violates it for TuneRequest, TimeCode and SongPositionPointer; every other message proved"
  },
  {
   "property": "C34",
   "status": "partial",
   "theorems": [
    "Midi2.C34_typed_accepts_exactly",
    "Midi2.C34_packet_accepts_exactly",
    "Midi2.C34_packet_unique",
    "Midi2.C34_group",
    "Midi2.C34_channel",
    "Midi2.C34_format",
    "Midi2.C34_sysex8_status",
    "Midi2.C34_sysex7_payload_partial",
    "Midi2.C34_sysex8_payload_partial",
    "Midi2.C34_sysex7_payload_exactly",
    "Midi2.C34_sysex8_payload_exactly",
    "Midi2.C34_collect_partial",
    "Midi2.C34_violation"
   ],
   "note": "the code violates it for the payload iterators of sysex packets, as exhibited; the _exactly theorems say for every accepted packet and every sequence of calls what they return; everything else proved"
  },
  {
   "property": "C43",
   "status": "partial",
   "theorems": [
    "Midi2.C43_accepts_exactly",
    "Midi2.C43_wrong_version_or_length",
    "Midi2.C43_set_get",
    "Midi2.C43_layout",
    "Midi2.C43_new",
    "Midi2.C43_try_new_with_buffer_partial",
    "Midi2.C43_default_accepted",
    "Midi2.C43_getters_partial",
    "Midi2.C43_getters_exactly",
    "Midi2.C43_device_id_exactly",
    "Midi2.C43_history",
    "Midi2.C43_device_id_partial",
    "Midi2.C43_dirty_buffer_violation",
    "Midi2.C43_getter_violation",
    "Midi2.C43_length_violation",
    "Midi2.C43_unknown_version_violation",
    "Midi2.C43_device_id_violation"
   ],
   "note": "proved for well-formed queries and clean buffers; the code violates it for dirty buffers, for accepted slices with eight-bit bytes or an early terminator, for unknown versions, and for channel 15 in the device identifier codec"
  },
  {
   "property": "C52",
   "status": "proved",
   "theorems": [
    "Midi2.C52_enum_group",
    "Midi2.C52_channel_voice2_channel",
    "Midi2.C52_channel_voice1_channel",
    "Midi2.C52_channel_voice1_bytes_channel",
    "Midi2.C52_flex_data_group",
    "Midi2.C52_flex_bank_status"
   ],
   "note": ""
  },
  {
   "property": "C53",
   "status": "partial",
   "theorems": [
    "Midi2.C53_fixed_ump_partial",
    "Midi2.C53_fixed_bytes_partial",
    "Midi2.C53_sysex_partial",
    "Midi2.C53_sysex7_bytes",
    "Midi2.C53_flex_text_partial",
    "Midi2.C53_stream_text_partial",
    "Midi2.C53_ump_message_partial",
    "Midi2.C53_bytes_message",
    "Midi2.C53_stream_formats_violation",
    "Midi2.C53_flex_text_violation",
    "Midi2.C53_stream_text_violation",
    "Midi2.C53_song_position_pointer_violation",
    "Midi2.C53_fixed_ump_exactly",
    "Midi2.C53_flex_text_exactly",
    "Midi2.C53_stream_text_exactly",
    "Midi2.C53_ump_message_exactly"
   ],
   "note": "the code violates it for stream messages given as a begin and an end packet, for text messages with another packet behind them and for SongPositionPointer over bytes, as exhibited; the _exactly theorems say for every accepted slice whether what data() returns is accepted and what it reads as"
  },
  {
   "property": "C54",
   "status": "partial",
   "theorems": [
    "Midi2.C54_fixed_ump_partial",
    "Midi2.C54_fixed_bytes_partial",
    "Midi2.C54_sysex",
    "Midi2.C54_sysex7_bytes",
    "Midi2.C54_fixed_ump_array",
    "Midi2.C54_fixed_bytes_array_partial",
    "Midi2.C54_song_position_array_violation",
    "Midi2.C54_sysex_array",
    "Midi2.C54_sysex7_bytes_array_partial",
    "Midi2.C54_flex_text_array_exactly",
    "Midi2.C54_stream_text_array_exactly",
    "Midi2.C54_discovery_query",
    "Midi2.C54_flex_text_partial",
    "Midi2.C54_stream_text_partial"
   ],
   "note": "missing where the code violates it: types whose new() panics on a Vec (C08; in arrays FunctionBlockDiscovery is covered), SongPositionPointer over bytes, whose data() is a byte short, types the enum misfiles (C10), texts of a multiple of 12 bytes (C29) or with NUL, function block names grown after the number was set (C32)"
  },
  {
   "property": "C55",
   "status": "partial",
   "theorems": [
    "Midi2.C55_sysex_partial",
    "Midi2.C55_sysex_exactly",
    "Midi2.C55_empty_end_violation"
   ],
   "note": "the code violates it for truncated last packets (it panics) and for an empty last packet of Sysex8; C55_sysex_exactly says for every accepted message which packets are affected and proves the property for the rest"
  },
  {
   "property": "C56",
   "status": "partial",
   "theorems": [
    "Midi2.C56_ump_last_call_wins_partial",
    "Midi2.C56_bytes_last_call_wins_partial",
    "Midi2.C56_ump_write_back_partial",
    "Midi2.C56_bytes_write_back",
    "Midi2.C56_ump_same_values_partial",
    "Midi2.C56_stale_attribute_violation",
    "Midi2.C56_write_back_violation",
    "Midi2.C56_ump_last_call_wins_exactly",
    "Midi2.C56_bytes_last_call_wins_exactly",
    "Midi2.C56_ump_write_back_exactly"
   ],
   "note": "the code violates it for a cleared note attribute, for values with several forms on the wire and for two-byte song position pointers; the _exactly theorems say for every history and every message what is left; values the setters do not store faithfully (C36, C38) are excluded"
  },
  {
   "property": "C57",
   "status": "partial",
   "theorems": [
    "Midi2.C57_sysex_wire_partial",
    "Midi2.C57_sysex_history_free_partial",
    "Midi2.C57_sysex_fixed_wire_partial",
    "Midi2.C57_sysex7_stale_payload_violation",
    "Midi2.C57_sysex8_stale_payload_violation",
    "Midi2.C57_reserved_bit_violation",
    "Midi2.C57_sysex7_bytes_history_free",
    "Midi2.C57_flex_text_history_free_partial",
    "Midi2.C57_flex_text_channel_violation",
    "Midi2.C57_stream_text_history_free",
    "Midi2.C57_function_block_name_history_free_partial",
    "Midi2.C57_sysex_wire_exactly",
    "Midi2.C57_sysex_padding_moved"
   ],
   "note": "missing where the code violates it: padding of single-packet sysex messages, parsed sysex7 messages with reserved bits, channels and block numbers of packets other than the first; each exhibited, and C57_sysex_wire_exactly says what the padding holds after any history"
  },
  {
   "property": "C58",
   "status": "partial",
   "theorems": [
    "Midi2.C58_payload_roundtrip",
    "Midi2.C58_splicing",
    "Midi2.C58_generator",
    "Midi2.C58_handle_message_partial",
    "Midi2.C58_handle_message_violation",
    "Midi2.C58_handle_message_exactly"
   ],
   "note": "fuzz targets and the generator example in full; the handler example panics exactly on sysex7 slices that end within a packet"
  },
  {
   "property": "C59",
   "status": "proved",
   "theorems": [
    "Midi2.C59_sysex_history",
    "Midi2.C59_sysex_try_history",
    "Midi2.C59_from_bytes",
    "Midi2.C59_packet_iterator",
    "Midi2.C59_assertion_premise",
    "Midi2.C59_flex_text_history",
    "Midi2.C59_stream_text_history"
   ],
   "note": "overflow checks are on in both builds; the premise is needed, as C59_assertion_premise exhibits; for text messages the assertions never fire, so the two builds agree without it"
  },
  {
   "property": "C60",
   "status": "proved",
   "theorems": [
    "Midi2.C60_names_once",
    "Midi2.C60_debug_text",
    "Midi2.C60_debug_injective",
    "Midi2.C60_debug_equality",
    "Midi2.C60_ump_message_text",
    "Midi2.C60_ump_message_injective",
    "Midi2.C60_ump_message_equality",
    "Midi2.C60_bytes_message_text",
    "Midi2.C60_bytes_message_injective",
    "Midi2.C60_packet_text"
   ],
   "note": ""
  },
  {
   "property": "C61",
   "status": "partial",
   "theorems": [
    "Midi2.C61_ump_partial",
    "Midi2.C61_new_ump_partial",
    "Midi2.C61_new_bytes",
    "Midi2.C61_new_array_ump_partial",
    "Midi2.C61_new_array_bytes",
    "Midi2.C61_ump_message",
    "Midi2.C61_trailing_words_violation",
    "Midi2.C61_reserved_bits_violation",
    "Midi2.C56_stale_attribute_violation",
    "Midi2.C61_ump_exactly",
    "Midi2.C61_bytes_exactly"
   ],
   "note": "the _exactly theorems say for any two accepted messages when they are equal; the property fails in the code for cleared note attributes and parsed messages with reserved bits or words behind them (each exhibited); messages made by new() are covered for every type, in vectors and in arrays of every size for which new() returns; messages with payload or text are in C57"
  },
  {
   "property": "C62",
   "status": "partial",
   "theorems": [
    "Midi2.C62_new_with_buffer",
    "Midi2.C62_new_any_buffer",
    "Midi2.C62_try_new_any_buffer",
    "Midi2.C62_fixed_any_buffer",
    "Midi2.C62_new_short_violation",
    "Midi2.C62_new_defaults",
    "Midi2.C62_new_bytes_defaults",
    "Midi2.C62_new_bytes_violation",
    "Midi2.C62_new_sysex7_exactly",
    "Midi2.C62_new_sysex8_exactly",
    "Midi2.C62_new_flex_text_exactly",
    "Midi2.C62_new_stream_text_exactly",
    "Midi2.C62_new_flex_text_set",
    "Midi2.C62_new_stream_text_set",
    "Midi2.C62_new_filled_violation",
    "Midi2.C62_new_text_violation",
    "Midi2.C62_flex_text_any_buffer",
    "Midi2.C62_stream_text_any_buffer",
    "Midi2.C62_try_text_any_buffer",
    "Midi2.C62_flex_text_short_violation",
    "Midi2.C62_try_new_with_buffer",
    "Midi2.C62_sysex_history_partial",
    "Midi2.C62_sysex_try_history_partial",
    "Midi2.C62_any_hint",
    "Midi2.C62_sysex_room",
    "Midi2.C62_limited_partial",
    "Midi2.C62_bytes_history_partial",
    "Midi2.C62_bytes_try_exactly",
    "Midi2.C62_try_new_with_buffer_rest",
    "Midi2.C62_flex_text",
    "Midi2.C62_stream_names",
    "Midi2.C62_stream_text_partial",
    "Midi2.C62_roomy_history_partial",
    "Midi2.C62_roomy_bytes_history_partial",
    "Midi2.C62_roomy_new_partial",
    "Midi2.C62_roomy_flex_text",
    "Midi2.C62_roomy_stream_names",
    "Midi2.C62_roomy_block_name_partial",
    "Midi2.C62_discovery_new",
    "Midi2.C62_discovery_default",
    "Midi2.C62_discovery_history_partial",
    "Midi2.C62_discovery_try_new",
    "Midi2.C62_discovery_violation",
    "Midi2.C62_roomy_debug_violation",
    "Midi2.C62_roomy_bytes_violation",
    "Midi2.C62_new_violation",
    "Midi2.C62_sysex8_stream_id_violation",
    "Midi2.C62_sysex7_top_bit_violation",
    "Midi2.C62_no_hint_violation",
    "Midi2.C62_bytes_fill_violation",
    "Midi2.C62_bytes_try_violation",
    "Midi2.C62_function_block_name_violation"
   ],
   "note": "missing where the code violates it: what growth fills in shows in new(), Sysex8 stream ids, top bits of Sysex7 bytes and added FunctionBlockName packets, and breaks byte messages; limited buffers need exact size hints or room for what the library asks for (the size hint, or less than twice the items, and the tail); limited byte buffers panic where C62_bytes_try_exactly says; over buffers larger than requested what lies behind the message can trip a debug assertion, and over bytes an old F7 loses payload; each exhibited"
  },
  {
   "property": "C63",
   "status": "partial",
   "theorems": [
    "Midi2.C63_flex_next",
    "Midi2.C63_stream_next",
    "Midi2.C63_flex_size_hint_violation",
    "Midi2.C63_stream_size_hint_violation"
   ],
   "note": "next() and the upper bound of size_hint() are right for every message; the lower bound is wrong for every message in the code"
  },
  {
   "property": "C64",
   "status": "partial",
   "theorems": [
    "Midi2.C64_standard_layout_partial",
    "Midi2.C64_program_bank_exactly",
    "Midi2.C64_flags_exactly",
    "Midi2.C64_per_note_management_violation",
    "Midi2.C64_program_bank_violation",
    "Midi2.C64_function_block_discovery_violation",
    "Midi2.C64_chord_codes_violation"
   ],
   "note": "every property but five agrees with the standard; for the five (bank of ProgramChange, the flags of PerNoteManagement and FunctionBlockDiscovery) the theorems say exactly which messages are read as the standard says; two chord codes are refused; the standard is transcribed from memory, since the sandbox has no copy"
  },
  {
   "property": "C65",
   "status": "partial",
   "theorems": [
    "Midi2.C65_all_features",
    "Midi2.C65_ump_exactly",
    "Midi2.C65_bytes_exactly",
    "Midi2.C65_packet_exactly",
    "Midi2.C65_additive_partial",
    "Midi2.C65_total",
    "Midi2.C65_packets_partial",
    "Midi2.C65_text_accepts_exactly",
    "Midi2.C65_std_exactly",
    "Midi2.C65_ump_std_exactly",
    "Midi2.C65_text_bytes",
    "Midi2.C65_std_violation"
   ],
   "note": "proved for the features of message groups; std takes away the text messages that are not UTF-8 in the code, and exactly those; iterating packets lacks truncated last packets and FunctionBlockDiscovery as in C33"
  },
  {
   "property": "C66",
   "status": "proved",
   "theorems": [
    "Midi2.C66_sysex_history",
    "Midi2.C66_sysex_try_history",
    "Midi2.C66_sysex_bytes_history",
    "Midi2.C66_iterators",
    "Midi2.C66_sysex_history_exact",
    "Midi2.C66_sysex_history_release",
    "Midi2.C66_sysex_try_history_exact",
    "Midi2.C66_sysex_try_history_release",
    "Midi2.C66_sysex_bytes_history_exact",
    "Midi2.C66_sysex_bytes_try_history",
    "Midi2.C66_sysex_bytes_try_history_exact",
    "Midi2.C66_sysex_bytes_try_history_release",
    "Midi2.C66_iterators_exact",
    "Midi2.C66_payload_exact",
    "Midi2.C66_release_violation",
    "Midi2.C66_flex_text_exactly",
    "Midi2.C66_stream_text_exactly",
    "Midi2.C66_flex_text_truncated",
    "Midi2.C66_stream_text_truncated",
    "Midi2.C66_flex_text_history",
    "Midi2.C66_stream_text_history",
    "Midi2.C66_flex_text_reads",
    "Midi2.C66_stream_text_reads"
   ],
   "note": "C66_release_violation exhibits what release builds do where debug builds panic; for texts that overflow in a large enough buffer of fixed size, release builds are described where the wrapped size is at least a packet (and, for stream texts, a number of whole packets)"
  },
  {
   "property": "C67",
   "status": "partial",
   "theorems": [
    "Midi2.C67_ump_wrap",
    "Midi2.C67_ump_wrap_injective",
    "Midi2.C67_ump_parse",
    "Midi2.C67_ump_reparse_partial",
    "Midi2.C67_ump_reparse_violation",
    "Midi2.C67_bytes_wrap",
    "Midi2.C67_bytes_wrap_injective",
    "Midi2.C67_bytes_parse"
   ],
   "note": "proved except where C10 is violated: the parser of UmpMessage never returns the three misfiled flex data texts, and refuses FunctionBlockDiscovery in slices with another status"
  },
  {
   "property": "C68",
   "status": "partial",
   "theorems": [
    "Midi2.C68_verdict",
    "Midi2.C68_ump",
    "Midi2.C68_bytes",
    "Midi2.C68_packets",
    "Midi2.C68_ci",
    "Midi2.C68_same_parsers",
    "Midi2.C68_ump_enum_partial",
    "Midi2.C68_misfiled_violation",
    "Midi2.C68_misfiled_codes",
    "Midi2.C68_ump_stranger",
    "Midi2.C68_ump_rest",
    "Midi2.C68_ump_cases",
    "Midi2.C68_bytes_enum",
    "Midi2.C68_bytes_rest",
    "Midi2.C68_packet_enum",
    "Midi2.C68_speaks_partial",
    "Midi2.C68_speaks_violation"
   ],
   "note": "exact for every slice and every parser; the property fails for unknown system common messages (called MIDI 1.0 channel voice), unknown stream messages (called flex data) and the three misfiled flex data texts (called unknown)"
  },
  {
   "property": "C69",
   "status": "partial",
   "theorems": [
    "Midi2.C69_splice_partial",
    "Midi2.C69_insert_partial",
    "Midi2.C69_set_payload",
    "Midi2.C69_size_hint_partial",
    "Midi2.C69_try_splice_partial",
    "Midi2.C69_try_set_payload",
    "Midi2.C69_bytes_splice_partial",
    "Midi2.C69_bytes_try_splice_partial",
    "Midi2.C69_bytes_any_splice_partial",
    "Midi2.C69_bytes_any_try_splice_partial",
    "Midi2.C69_bytes_set_payload",
    "Midi2.C69_underestimate_violation"
   ],
   "note": "setting is proved for every buffer; splicing for messages that can be spliced (C21), on buffers of fixed size in full for the size hints of C22 and for the part before the range for every hint; byte messages with no F7 behind them"
  },
  {
   "property": "C70",
   "status": "partial",
   "theorems": [
    "Midi2.C70_list",
    "Midi2.C70_try_list",
    "Midi2.C70_splice_partial",
    "Midi2.C70_overflow_partial",
    "Midi2.C70_endless_partial",
    "Midi2.C70_bytes_splice_partial",
    "Midi2.C70_bytes_overflow_partial",
    "Midi2.C70_bytes_endless_partial",
    "Midi2.C70_bytes_any_splice_partial",
    "Midi2.C70_bytes_any_overflow_partial",
    "Midi2.C70_bytes_any_endless_partial"
   ],
   "note": "equality with the list and the number of calls are proved for every buffer; overflow and endless iterators for messages that can be spliced, and for byte messages with no F7 behind them (growable buffers: none in reach of the size hint)"
  },
  {
   "property": "C71",
   "status": "partial",
   "theorems": [
    "Midi2.C71_record",
    "Midi2.C71_splice",
    "Midi2.C71_set_payload",
    "Midi2.C71_sizes_partial",
    "Midi2.C71_bytes_sizes_partial",
    "Midi2.C71_work_partial",
    "Midi2.C71_bytes_work_partial",
    "Midi2.C71_bytes_any_work_partial",
    "Midi2.C71_try_splice",
    "Midi2.C71_try_work_partial",
    "Midi2.C71_bytes_try_work_partial",
    "Midi2.C71_fits"
   ],
   "note": "the numbers of writes, resizes and moves are proved for every buffer and every call that returns; every size asked for and every move of the tail is given exactly for messages that can be spliced (growable buffers; over bytes with no F7 behind the message in reach of the size hint), and for every call that returns on buffers of fixed size; append_payload and insert_payload are splices at a position"
  },
  {
   "property": "C72",
   "status": "partial",
   "theorems": [
    "Midi2.C72_words_exactly",
    "Midi2.C72_from_ump_partial",
    "Midi2.C72_from_bytes_partial",
    "Midi2.C72_sysex7_ump_partial",
    "Midi2.C72_sysex7_bytes_partial",
    "Midi2.C72_sysex_arrays_partial",
    "Midi2.C72_flex_text_partial",
    "Midi2.C72_stream_text_partial"
   ],
   "note": "Sysex7 in growable buffers that visit arrays; Sysex7 and Sysex8 (stream id 0, see C47) with fallible calls in the arrays, the size hints of C22 not below the number of items; text messages from the first text that is set on, in growable buffers and arrays of any number of words, with the refusals of C29 and C32; fixed-size messages of every type over words with anything behind them (C72_words_exactly: a receiver refuses flex data and stream messages exactly where C12 says); left out: translations of SongPositionPointer (C13) and values the setters do not store faithfully (C09)"
  },
  {
   "property": "C73",
   "status": "partial",
   "theorems": [
    "Midi2.C73_flex_text_exactly",
    "Midi2.C73_stream_text_exactly",
    "Midi2.C29_multiple_of_12_violation",
    "Midi2.C29_broken_character_violation",
    "Midi2.C32_number_on_growth_violation"
   ],
   "note": "the theorems say exactly what is read back for every history; the property fails only as in C29 (a flex data text that fills its buffer loses its last octet) and C32 (packets added by growth have number 0)"
  },
  {
   "property": "C74",
   "status": "partial",
   "theorems": [
    "Midi2.C74_stream_exactly",
    "Midi2.C74_midi1_partial",
    "Midi2.C74_ump_exactly",
    "Midi2.C74_one_slice_partial",
    "Midi2.C74_standard_violation",
    "Midi2.C74_one_slice_violation"
   ],
   "note": "the _exactly theorems cover every readable stream and every sequence of UMP messages; the property fails for TimeCode, SongPositionPointer and TuneRequest (C49, C13), for system exclusive with a byte that is no data byte (C25), and in one slice for system exclusive followed by other messages (C12, C48)"
  },
  {
   "property": "C75",
   "status": "proved",
   "theorems": [
    "Midi2.C75_interleaved",
    "Midi2.C75_interleaved_exactly",
    "Midi2.C75_never_panics",
    "Midi2.C75_lanes_independent",
    "Midi2.C75_empty_end_lost"
   ],
   "note": "for all message types and any interleaving, loss of the end and other traffic; the receiver has to keep what ends with UnexpectedEnd(Valid), C75_empty_end_lost shows what a receiver that does not misses"
  },
  {
   "property": "C76",
   "status": "partial",
   "theorems": [
    "Midi2.C76_packets_careful",
    "Midi2.C76_packets_however_cut",
    "Midi2.C76_packets_exactly",
    "Midi2.C76_violation",
    "Midi2.C76_message_prefix_exactly",
    "Midi2.C76_messages_exactly",
    "Midi2.C76_bytes",
    "Midi2.C76_bytes_however_cut",
    "Midi2.C76_bytes_sent"
   ],
   "note": "proved in full for a reader of packets that waits and for a reader of bytes; for a reader that does not wait the property fails exactly when a piece ends within a channel voice 2, flex data or stream packet, and for a reader of messages exactly when a piece ends within the last of several packets of a message"
  },
  {
   "property": "C77",
   "status": "partial",
   "theorems": [
    "Midi2.C77_setters",
    "Midi2.C77_fixed",
    "Midi2.C77_fixed_bytes_partial",
    "Midi2.C77_song_position_pointer_violation",
    "Midi2.C77_stream_exactly",
    "Midi2.C77_stream_violation",
    "Midi2.C77_writer_partial",
    "Midi2.C77_writer_violation",
    "Midi2.C77_written_read",
    "Midi2.C77_sysex_exactly",
    "Midi2.C77_sysex8_violation",
    "Midi2.C77_sysex_set_group_exactly",
    "Midi2.C77_set_group_violation",
    "Midi2.C77_sysex_bytes",
    "Midi2.C77_bytes_writer_partial",
    "Midi2.C77_sysex_set_payload_partial",
    "Midi2.C77_size_hint_violation",
    "Midi2.C77_sysex_set_payload_exactly",
    "Midi2.C77_sysex_set_payload_overflow_exactly",
    "Midi2.C77_overflow_violation",
    "Midi2.C77_mixed_writer_partial",
    "Midi2.C77_old_stream_id_violation",
    "Midi2.C77_old_top_bit_violation",
    "Midi2.C77_flex_text_new_exactly",
    "Midi2.C77_flex_text_set_group_exactly",
    "Midi2.C77_flex_text_set_channel",
    "Midi2.C77_flex_text_set_text_exactly",
    "Midi2.C77_stream_text_new_exactly",
    "Midi2.C77_stream_text_set_text_exactly",
    "Midi2.C77_function_block_set_number_exactly",
    "Midi2.C77_flex_text_wipes_violation",
    "Midi2.C77_stream_text_wipes_violation",
    "Midi2.C77_flex_text_group_violation",
    "Midi2.C77_function_block_name_violation"
   ],
   "note": "proved in full for channel voice, system common, utility and flex data messages over words, for setters of all types, and over bytes for all types but song position pointer; for stream and system exclusive messages over words the property fails, and the theorems say exactly what changes behind the message; try_set_payload changes nothing behind data() if the size hint is right, and for any other hint, and if there is no room, the theorems say what it writes there; setting a text wipes the whole packets behind it, and the theorems say exactly which words are kept; FunctionBlockDiscovery needs four words to be built in and takes one (C77_writer_violation)"
  },
  {
   "property": "C78",
   "status": "partial",
   "theorems": [
    "Midi2.C78_line",
    "Midi2.C78_same",
    "Midi2.C78_arrived_unique",
    "Midi2.C78_line_all",
    "Midi2.C78_greedy",
    "Midi2.C78_greedy_violation",
    "Midi2.C78_gateway_exactly",
    "Midi2.C78_midi1_partial",
    "Midi2.C78_back_exactly"
   ],
   "note": "the line is proved in full for all messages; the gateway exactly for every byte stream of messages that into_ump translates, and for MIDI 1.0 without the three messages of C74 that the crate takes to have another length or panics on"
  },
  {
   "property": "C79",
   "status": "proved",
   "theorems": [
    "Midi2.C79_query_travels",
    "Midi2.C79_built_query_travels"
   ],
   "note": ""
  },
  {
   "property": "C80",
   "status": "proved",
   "theorems": [
    "Midi2.C80_line",
    "Midi2.C80_line_all",
    "Midi2.C80_interleaved",
    "Midi2.C80_bytes",
    "Midi2.C80_gateway"
   ],
   "note": "the builds ranged over are Built.Legal and ByteBuilt.Legal (Spec/Built.lean): the exclusions named in the statement, and FunctionBlockName histories after which all packets carry one number; what happens outside them is C08, C10, C29 and C32"
  },
  {
   "property": "C81",
   "status": "proved",
   "theorems": [
    "Midi2.C81_unknown_refused",
    "Midi2.C81_packets",
    "Midi2.C81_frames_unique",
    "Midi2.C81_picked_unique",
    "Midi2.C81_refused_ignored",
    "Midi2.C81_damage_local",
    "Midi2.C81_interleaved",
    "Midi2.C81_skip_one_violation"
   ],
   "note": "the reader is the user's program of Spec/Skip.lean over the modelled Packet::try_from; the last theorem shows what happens without the table of lengths"
  },
  {
   "property": "C82",
   "status": "partial",
   "theorems": [
    "Midi2.C82_cable",
    "Midi2.C82_never_panics",
    "Midi2.C82_in_step",
    "Midi2.C82_gateway",
    "Midi2.C82_violation",
    "Midi2.C82_length_violation",
    "Midi2.C82_top_bits_exactly"
   ],
   "note": "proved for every cable without the three messages whose length the crate has wrong (C49); with them, and for BytesMessage::try_from alone, the code violates it, as exhibited; C82_top_bits_exactly says what the parsers make of status bytes in the place of data bytes"
  },
  {
   "property": "C83",
   "status": "proved",
   "theorems": [
    "Midi2.C83_message",
    "Midi2.C83_never_panics",
    "Midi2.C83_router_exactly",
    "Midi2.C83_router",
    "Midi2.C83_merge_violation"
   ],
   "note": "the last theorem shows that the map must not merge groups"
  },
  {
   "property": "C84",
   "status": "proved",
   "theorems": [
    "Midi2.C84_message",
    "Midi2.C84_channel",
    "Midi2.C84_never_panics",
    "Midi2.C84_mapper_exactly",
    "Midi2.C84_mapper"
   ],
   "note": ""
  },
  {
   "property": "C85",
   "status": "proved",
   "theorems": [
    "Midi2.C85_recording",
    "Midi2.C85_all",
    "Midi2.C85_times",
    "Midi2.C85_stamps"
   ],
   "note": "a recorded DeltaClockstamp would itself count as time, so it is excluded"
  },
  {
   "property": "C86",
   "status": "proved",
   "theorems": [
    "Midi2.C86_dialogue"
   ],
   "note": ""
  },
  {
   "property": "C87",
   "status": "proved",
   "theorems": [
    "Midi2.C87_blocks",
    "Midi2.C87_blocks_violation"
   ],
   "note": "the request is built over [u32; 4]: over a Vec its new() panics (C87_blocks_violation)"
  },
  {
   "property": "C88",
   "status": "proved",
   "theorems": [
    "Midi2.C88_rounds",
    "Midi2.C88_dump",
    "Midi2.C88_dump_exactly",
    "Midi2.C88_dump_bytes"
   ],
   "note": "iterators of try_splice_payload that replace a non-empty range must not have a size hint below the number of their items (C22)"
  }
 ]
}