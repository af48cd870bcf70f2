{"id": "C01", "title": "Getter returns what the setter stored (UMP)", "statement": "For every fixed-size UMP message type and every property with a setter, setting a value and then calling the getter returns that value, for any backing words that are long enough. The only exceptions are the controller names and key signatures that the code does not store faithfully, which C36 and C38 list; for those the getter never returns the value.", "quantifier": "all message types in the crate, all settable properties, all values of the property type, all backing buffers of at least the minimum size (including buffers with arbitrary reserved bits)", "why_tests_cant": "2^32..2^128 buffer contents times every value; unit tests check a handful of literals per property", "anchors": ["midi2/src/detail/schema.rs: UmpSchemaRepr", "midi2/src/detail/common_properties.rs: UmpSchemaProperty, HybridSchemaProperty", "midi2/src/channel_voice2", "midi2/src/flex_data", "midi2/src/ump_stream"]}
{"id": "C02", "title": "Getter returns what the setter stored (MIDI 1.0 bytes)", "statement": "For every fixed-size message type with a byte-stream representation and every property with a setter, set then get returns the value, for any backing bytes that are long enough.", "quantifier": "all byte-capable message types, all properties, all values, all backing byte buffers of at least the minimum size", "why_tests_cant": "the space of byte buffers and values is too large to enumerate in tests", "anchors": ["midi2/src/detail/schema.rs: BytesSchemaRepr", "midi2/src/channel_voice1", "midi2/src/system_common"]}
{"id": "C03", "title": "Setters do not disturb other properties", "statement": "Setting one property of a message never changes the value returned by the getter of any other property of that message.", "quantifier": "all message types, all ordered pairs of distinct properties, all values, all backing buffers", "why_tests_cant": "quadratically many pairs over all buffer contents; tests check single setters on zeroed buffers", "anchors": ["midi2/src/detail/schema.rs", "midi2/src/channel_voice2", "midi2/src/flex_data", "midi2/src/ump_stream"]}
{"id": "C04", "title": "Setters touch only their declared bits", "statement": "A setter changes only the bits that the property's declared schema mask (or documented position) covers; buffer length, reserved bits and everything past the message are left alone.", "quantifier": "all message types and properties, all values, all backing buffers and all bit positions", "why_tests_cant": "needs every bit of every buffer, including reserved bits that tests leave zero", "anchors": ["midi2/src/detail/bit_ops.rs: BitOps", "midi2/src/detail/schema.rs"]}
{"id": "C05", "title": "Parsing never panics", "statement": "UmpMessage::try_from and BytesMessage::try_from (and each concrete type's try_from) return Ok or Err for every slice; no input makes them panic.", "quantifier": "every slice of u32 / u8, of any length and content", "why_tests_cant": "untrusted input of any length; tests only parse valid samples", "anchors": ["midi2/src/message.rs: UmpMessage, BytesMessage", "midi2_proc/src/generate_message.rs: try_from_slice_impl"]}
{"id": "C06", "title": "A successfully parsed message can be read without panicking", "statement": "If try_from accepts a slice then every getter, data() and packets() of the resulting message returns without panicking. (Violated by the code for truncated final packets of multi-packet messages, two-byte SongPositionPointer, sysex7 byte payloads with the top bit set and others; each violation is exhibited.)", "quantifier": "every accepted slice of any length and content, every accessor", "why_tests_cant": "depends on all malformed inputs; tests never call accessors on adversarial accepted inputs", "anchors": ["midi2_proc/src/generate_message.rs: data_impl, property_getter", "midi2/src/detail/helpers.rs: validate_sysex_group_statuses", "midi2/src/sysex7.rs: size"]}
{"id": "C07", "title": "Parsing accepts exactly the well-formed slices", "statement": "For each fixed-size message type try_from succeeds exactly when the slice has at least the minimum length and its type nibble, status and enumerated fields hold legal codes.", "quantifier": "all message types, all slices", "why_tests_cant": "an exact acceptance set needs every slice", "anchors": ["midi2_proc/src/generate_message.rs: try_from_slice_impl", "midi2/src/channel_voice1.rs", "midi2/src/channel_voice2.rs", "midi2/src/utility.rs", "midi2/src/system_common.rs"]}
{"id": "C08", "title": "A fresh message is valid and holds defaults", "statement": "new() / try_new() / new_with_buffer() / try_new_with_buffer() / array new() yield a message whose data() is accepted by try_from of the same type and whose settable properties read back as their documented default, whatever the supplied buffer contained; try_new* fails exactly when the buffer is shorter than the minimum. (Violated for SongPositionPointer over Vec<u8> and FunctionBlockDiscovery over exact-size buffers.)", "quantifier": "all message types, all supplied buffers (any length and content)", "why_tests_cant": "needs every prior content of a user supplied buffer", "anchors": ["midi2_proc/src/generate_message.rs: new_impl, try_new_impl, new_with_buffer_impl, try_new_with_buffer_impl, new_array_impl"]}
{"id": "C09", "title": "Any history of setter calls keeps a message valid", "statement": "After any finite sequence of setter calls on a valid message, data() is still accepted by try_from of the same type, and each property reads as the last value set for it (or its original value).", "quantifier": "all message types, all finite sequences of (property, value) setter calls, of any length", "why_tests_cant": "unbounded call histories", "anchors": ["midi2_proc/src/generate_message.rs: property_setter", "midi2/src/detail/schema.rs"]}
{"id": "C10", "title": "UMP dispatch agrees with the concrete parsers", "statement": "UmpMessage::try_from(slice) yields variant T exactly when the type nibble and status select T and T::try_from(slice) succeeds; a slice accepted by a concrete type is accepted by UmpMessage with that variant. (Violated for flex-data statuses 0x0A..0x0C of bank 1.)", "quantifier": "all slices, all UMP message types", "why_tests_cant": "needs all slices against all of ~65 parsers", "anchors": ["midi2/src/message.rs: UmpMessage", "midi2/src/channel_voice2.rs: TryFrom", "midi2/src/flex_data.rs: TryFrom", "midi2/src/ump_stream.rs: TryFrom", "midi2/src/utility.rs", "midi2/src/system_common.rs"]}
{"id": "C11", "title": "Bytes dispatch agrees with the concrete parsers", "statement": "BytesMessage::try_from(slice) yields variant T exactly when the status byte selects T and T::try_from(slice) succeeds.", "quantifier": "all byte slices, all byte-capable message types", "why_tests_cant": "needs all slices", "anchors": ["midi2/src/message.rs: BytesMessage", "midi2/src/channel_voice1.rs", "midi2/src/system_common.rs"]}
{"id": "C12", "title": "Parsing looks only at the message, not at what follows it", "statement": "For channel voice, system common and utility messages, appending arbitrary data to a slice changes neither acceptance nor any getter, and data() is the minimum-size prefix. (Violated for flex-data fixed-size messages, whose status/bank check ranges over all following packets.)", "quantifier": "all message types, all slices, all suffixes", "why_tests_cant": "arbitrary suffixes", "anchors": ["midi2_proc/src/generate_message.rs: data_impl", "midi2/src/flex_data.rs: StatusProperty, BankProperty"]}
{"id": "C13", "title": "Bytes/UMP conversion preserves every property", "statement": "Converting a channel-voice-1 or system-common message from bytes to UMP preserves every property and yields a valid UMP message with group 0; converting UMP to bytes preserves every property except group; the two compose to the identity on the byte form and to 'group := 0' on the UMP form.", "quantifier": "all byte-capable fixed-size messages, all buffers accepted by try_from", "why_tests_cant": "all buffer contents", "anchors": ["midi2_proc/src/generate_message.rs: from_bytes_impl, from_ump_impl, convert_properties"]}
{"id": "C14", "title": "Rebuffering preserves the message", "statement": "rebuffer_into / try_rebuffer_into / array_rebuffer_into give a message with the same data(); try_rebuffer_into an array fails exactly when the source buffer is longer than the array. (array_rebuffer panics for variable-size messages longer than the array.)", "quantifier": "all messages, all source buffers, all target sizes", "why_tests_cant": "all sizes and contents", "anchors": ["midi2_proc/src/generate_message.rs: rebuffer_from_impl, try_rebuffer_from_impl, rebuffer_from_array_impl", "midi2/src/buffer.rs: TryFromBuffer"]}
{"id": "C15", "title": "Sysex7 UMP payload round trip", "statement": "set_payload(bytes) on a Sysex7 over a resizable u32 buffer, then payload(), yields exactly the same bytes, for any previous contents of the message.", "quantifier": "all payloads of any length, all prior valid messages", "why_tests_cant": "payload length is unbounded; packet-boundary behaviour depends on length mod 6", "anchors": ["midi2/src/sysex7.rs: set_payload, payload, write_datum, try_resize_ump"]}
{"id": "C16", "title": "Sysex7 bytes payload round trip", "statement": "set_payload(bytes) on a Sysex7 over a resizable u8 buffer, then payload(), yields the same bytes and data() is F0 payload F7.", "quantifier": "all payloads of any length, all prior valid messages", "why_tests_cant": "unbounded payloads", "anchors": ["midi2/src/sysex7.rs"]}
{"id": "C17", "title": "Sysex8 payload round trip", "statement": "set_payload(bytes) on a Sysex8 over a resizable u32 buffer, then payload(), yields the same bytes.", "quantifier": "all payloads of any length, all prior valid messages", "why_tests_cant": "unbounded payloads; packet boundary behaviour mod 13", "anchors": ["midi2/src/sysex8.rs"]}
{"id": "C18", "title": "Sysex7 UMP wire format", "statement": "After set_payload, data() is the standard packetisation: ceil(n/6) (at least 1) two-word packets, each with type 3, the message's group, status complete or begin/continue*/end, a size nibble and payload bytes in order; all packets but the last hold 6 bytes.", "quantifier": "all payloads and groups", "why_tests_cant": "unbounded payloads", "anchors": ["midi2/src/sysex7.rs: try_resize_ump, write_datum"]}
{"id": "C19", "title": "Sysex8 wire format", "statement": "After set_payload, data() is the standard packetisation into 4-word packets of type 5 with up to 13 payload bytes each, statuses complete or begin/continue*/end and size nibble = bytes+1. The stream id octet is the message's stream id in every packet (violated: packets added by growth keep stream id 0).", "quantifier": "all payloads, groups and stream ids", "why_tests_cant": "unbounded payloads", "anchors": ["midi2/src/sysex8.rs: try_resize, write_datum"]}
{"id": "C20", "title": "Fallible payload writes on fixed buffers", "statement": "try_set_payload on a fixed-size buffer succeeds exactly when the encoded message fits in the buffer and then payload() is the data; otherwise it returns BufferOverflow and the message is left valid with an empty payload and unchanged group.", "quantifier": "all buffer sizes, all payloads", "why_tests_cant": "all sizes of buffers and payloads", "anchors": ["midi2/src/detail/helpers.rs: try_splice_sysex_data", "midi2/src/sysex7.rs: try_resize_ump"]}
{"id": "C21", "title": "Splice/append/insert behave like Vec::splice", "statement": "splice_payload(data, range) on a message over a resizable buffer makes payload() equal to the old payload with range replaced by data, whatever size hint the data iterator gives within the Iterator contract; append_payload and insert_payload are the corresponding special cases.", "quantifier": "all prior messages, all in-range ranges, all data, all size hints allowed by the Iterator contract", "why_tests_cant": "product of lengths, offsets and hints is unbounded", "anchors": ["midi2/src/detail/helpers.rs: detail::try_splice_sysex_data", "midi2/src/traits.rs: Sysex"]}
{"id": "C22", "title": "Splice on fixed-size buffers", "statement": "try_splice_payload on a fixed-size buffer with an exact size hint succeeds exactly when the result fits, with Vec::splice semantics, and otherwise resets to an empty payload. (For under-estimating iterators replacing a non-empty range the code corrupts or panics; exhibited.)", "quantifier": "all buffer sizes, prior messages, ranges and data", "why_tests_cant": "as C21, with buffer capacity as a further dimension", "anchors": ["midi2/src/detail/helpers.rs"]}
{"id": "C23", "title": "Sysex payload of any accepted slice", "statement": "For any slice accepted by Sysex7/Sysex8::try_from whose packets are complete, payload() yields the concatenation of each packet's declared bytes, including non-compact messages with short or empty middle packets.", "quantifier": "all accepted slices of any number of packets with arbitrary per-packet sizes", "why_tests_cant": "unbounded number of packets, arbitrary size patterns", "anchors": ["midi2/src/sysex7.rs: PayloadIterator", "midi2/src/sysex8.rs: PayloadIterator"]}
{"id": "C24", "title": "Payload iterator laws", "statement": "payload().len(), size_hint() and nth(n) agree with repeated next(): len is the number of remaining items, nth(n) returns what the n+1-th next would and leaves the iterator after it.", "quantifier": "all messages, all interleavings of next/nth calls", "why_tests_cant": "unbounded call interleavings", "anchors": ["midi2/src/sysex7.rs: PayloadIterator", "midi2/src/sysex8.rs: PayloadIterator", "midi2/src/sysex8/packet.rs", "midi2/src/sysex7/packet.rs"]}
{"id": "C25", "title": "Sysex7 bytes/UMP conversion preserves the payload", "statement": "Converting a Sysex7 between the byte and UMP representations (and back) preserves the payload; the fallible variants fail exactly when the result does not fit.", "quantifier": "all payloads, all buffer sizes", "why_tests_cant": "unbounded payloads", "anchors": ["midi2/src/sysex7.rs: FromBytes, FromUmp, TryFromBytes, TryFromUmp"]}
{"id": "C26", "title": "Sysex8 stream id round trip", "statement": "set_stream_id(v) then stream_id() returns v and leaves the payload unchanged. (Violated: written to octet 3, read from octet 2.)", "quantifier": "all messages, all stream ids", "why_tests_cant": "all messages", "anchors": ["midi2/src/sysex8.rs: StreamIdProperty"]}
{"id": "C27", "title": "set_group reaches every packet", "statement": "set_group(g) on a multi-packet message (sysex7, sysex8, flex text) makes group() return g, sets the group nibble of every packet and leaves payload/text unchanged; the message stays valid.", "quantifier": "all messages of any number of packets, all groups", "why_tests_cant": "unbounded packets", "anchors": ["midi2/src/sysex7.rs: GroupProperty", "midi2/src/sysex8.rs: GroupProperty", "midi2/src/flex_data.rs: GroupProperty"]}
{"id": "C28", "title": "Group and stream id survive resizing", "statement": "Growing or shrinking the payload keeps group() and stream_id() and keeps them consistent over packets. (Group: holds. Stream id: violated.)", "quantifier": "all messages, all payload changes", "why_tests_cant": "unbounded", "anchors": ["midi2/src/sysex7.rs: try_resize_ump", "midi2/src/sysex8.rs: try_resize"]}
{"id": "C29", "title": "Flex-data text round trip", "statement": "set_text(s) followed by text()/text_bytes() returns s for every NUL-free UTF-8 string. (Violated when the byte length is a positive multiple of 12 and the buffer is exact; partial theorem for all other lengths.)", "quantifier": "all strings without NUL, all prior messages", "why_tests_cant": "unbounded text lengths", "anchors": ["midi2/src/flex_data/text.rs"]}
{"id": "C30", "title": "Flex-data text wire format", "statement": "After set_text, data() is max(1,ceil(n/12)) four-word packets with type D, the same group, bank and status, format complete or begin/continue*/end, 12 bytes per packet zero padded.", "quantifier": "all texts, groups", "why_tests_cant": "unbounded", "anchors": ["midi2/src/flex_data/text.rs: TextWriteStrProperty, grow_buffer"]}
{"id": "C31", "title": "Stream text (endpoint name, product instance id) round trip and wire format", "statement": "set_name / set_id followed by the getter returns the string for NUL-free UTF-8, and data() is the standard packetisation of 14 bytes per packet with formats complete or begin/continue*/end.", "quantifier": "all strings without NUL, all prior messages", "why_tests_cant": "unbounded", "anchors": ["midi2/src/ump_stream.rs: TextWriteStrProperty, TextBytesIterator"]}
{"id": "C32", "title": "Function block name text and number", "statement": "set_name on FunctionBlockName round-trips the text (13 bytes per packet) and keeps the function block number consistent across packets. (Second half violated on growth.)", "quantifier": "all strings without NUL, all prior messages", "why_tests_cant": "unbounded", "anchors": ["midi2/src/ump_stream/function_block_name.rs"]}
{"id": "C33", "title": "packets() partitions data()", "statement": "The packets yielded by packets() are, in order, exactly the consecutive packet-size chunks of data(): nothing lost, duplicated or reordered.", "quantifier": "all UMP messages, any number of packets", "why_tests_cant": "unbounded number of packets", "anchors": ["midi2_proc/src/generate_message.rs: packets_impl", "midi2/src/packet.rs"]}
{"id": "C34", "title": "Packet parsing", "statement": "UmpPacket/typed Packet try_from accepts a slice exactly when it is non-empty (and long enough) with the right type nibble; accessors of an accepted packet do not panic (violated for sysex8 size nibble 0) and expose the header fields.", "quantifier": "all slices", "why_tests_cant": "all slices", "anchors": ["midi2/src/packet.rs", "midi2/src/sysex7/packet.rs", "midi2/src/sysex8/packet.rs", "midi2/src/flex_data/packet.rs", "midi2/src/ump_stream/packet.rs"]}
{"id": "C35", "title": "Note attribute semantics", "statement": "For note on/off, set_attribute(Some(a)) then attribute() is Some(a); set_attribute(None) then attribute() is None; unknown attribute codes are rejected at parse time and accepted messages always read an attribute without panicking.", "quantifier": "all attribute kinds and 16-bit data, all message buffers", "why_tests_cant": "65536 data values times buffers", "anchors": ["midi2/src/channel_voice2/attribute.rs"]}
{"id": "C36", "title": "Registered per-note controller mapping", "statement": "set_controller(c) then controller() is c, and every accepted index can be read and written back. (Violated: EffectDepth 5, ChorusSendLevel and the aliasing names; partial theorem for the exact set that round-trips.)", "quantifier": "all controller values, all index bytes, all 32-bit data", "why_tests_cant": "all data values", "anchors": ["midi2/src/channel_voice2/controller.rs"]}
{"id": "C37", "title": "Optional bank of program change", "statement": "set_bank(Some(b)) then bank() is Some(b), set_bank(None) then bank() is None; neither affects program or header.", "quantifier": "all 14-bit banks, all buffers", "why_tests_cant": "all buffers", "anchors": ["midi2/src/channel_voice2/program_change.rs"]}
{"id": "C38", "title": "Key signature sharps/flats", "statement": "set_sharps_flats(v) then sharps_flats() is v for every constructible value (Sharps/Flats 0..7, NonStandard). (Violated: Flats(0) panics, out-of-range counts panic or alias.)", "quantifier": "all constructible values, all buffers", "why_tests_cant": "all buffers", "anchors": ["midi2/src/flex_data/set_key_signature.rs"]}
{"id": "C39", "title": "Chord name fields round trip and validate", "statement": "Every chord-name property (tonic, sharps/flats, chord type, four alterations, bass equivalents) round-trips, its codes are in bijection with values, and accepted messages never panic on read.", "quantifier": "all values, all buffers", "why_tests_cant": "all buffers", "anchors": ["midi2/src/flex_data/set_chord_name.rs", "midi2/src/flex_data/tonic.rs"]}
{"id": "C40", "title": "Optional channel of flex-data messages", "statement": "set_optional_channel(c) then optional_channel() is c; for multi-packet texts the address field is the same in all packets (violated: only the first packet is written).", "quantifier": "all channels, all messages", "why_tests_cant": "unbounded packets", "anchors": ["midi2/src/flex_data.rs: OptionalChannelProperty"]}
{"id": "C41", "title": "7-bit encodings are inverse bijections", "statement": "Encoding u14/u21/u28 values into septets and decoding them gives the value back; decoding then encoding gives the septets back; decoding ignores the top bit of bytes.", "quantifier": "all 14/21/28-bit values, all septet tuples", "why_tests_cant": "2^28 values", "anchors": ["midi2/src/detail/encode_7bit.rs"]}
{"id": "C42", "title": "Bit accessors obey get/set laws", "statement": "For bit, crumb, nibble, septet, octet and word accessors of u32/u8/u7: get after set returns the value, set after get is the identity, double set keeps the last, and accessors of disjoint positions commute and do not interfere; positions count from the most significant end. An index behind the last position, or an accessor the integer does not have, panics; only reading the septet or octet of a u8 ignores the index. Reading or writing a property, a text or a payload byte, and moving payload, never uses such an index.", "quantifier": "all words, all values, all positions", "why_tests_cant": "2^32 words times positions", "anchors": ["midi2/src/detail/bit_ops.rs"]}
{"id": "C43", "title": "MIDI-CI discovery query", "statement": "new() yields a message accepted by try_from with default values; each getter returns what its setter stored and setters do not interfere; version 1 and 2 layouts have the documented sizes; wrong version or length is rejected. (Device id channel 15 does not round trip in the shared DeviceId codec.)", "quantifier": "all field values, all buffers", "why_tests_cant": "28-bit fields, all buffers", "anchors": ["midi2/src/ci.rs", "midi2/src/ci/discovery.rs", "midi2_proc/src/generate_ci.rs"]}
{"id": "C44", "title": "Delta clockstamp fields", "statement": "20-bit time data and 16-bit ticks round trip with no effect on other bits.", "quantifier": "all 20-bit values, all words", "why_tests_cant": "2^20 * 2^32", "anchors": ["midi2/src/utility.rs: DeltaClockstamp, DeltaClockstampTpq"]}
{"id": "C45", "title": "set_payload_byte", "statement": "set_payload_byte(i, v) for i < payload_size changes exactly the i-th payload byte. (For i = payload_size in byte form it overwrites the terminator; exhibited.)", "quantifier": "all messages, indices and values", "why_tests_cant": "unbounded", "anchors": ["midi2/src/traits.rs: Sysex", "midi2/src/sysex7.rs: write_datum"]}
{"id": "C46", "title": "Buffer resize contract", "statement": "For Vec, resize(n) yields exactly n units keeping the common prefix and zero-filling; for arrays and mutable slices try_resize(n) fails exactly when n exceeds the length and never modifies the contents.", "quantifier": "all buffers and sizes", "why_tests_cant": "unbounded sizes", "anchors": ["midi2/src/buffer.rs"]}
{"id": "C47", "title": "Sysex messages stay valid under any history", "statement": "Starting from new() on a resizable buffer, any finite sequence of set_group / set_payload / append / insert / splice calls with in-range arguments never panics, always leaves data() acceptable to try_from, and payload() equals the same operations applied to a plain list of bytes. The same holds starting from any message that can be spliced, wherever it came from and whatever lies behind it, and for the fallible calls on buffers of fixed size, which return BufferOverflow exactly when the wanted payload does not fit.", "quantifier": "all finite call sequences", "why_tests_cant": "unbounded histories (refinement to a list)", "anchors": ["midi2/src/sysex7.rs", "midi2/src/sysex8.rs", "midi2/src/detail/helpers.rs"]}
{"id": "C48", "title": "Self-delimiting UMP streams", "statement": "For messages whose parse does not look past their end, a concatenation of encoded messages is recovered by repeatedly parsing and advancing by data().len(): no message is lost, merged or altered.", "quantifier": "all finite sequences of messages", "why_tests_cant": "unbounded sequences", "anchors": ["midi2/src/message.rs", "midi2_proc/src/generate_message.rs: data_impl"]}
{"id": "C49", "title": "Standard-length system common messages", "statement": "The MIDI 1.0 encodings of system-common messages (1, 2 or 3 bytes as per the MIDI specification) are accepted by BytesMessage::try_from. (Violated: one-byte TuneRequest and two-byte TimeCode are rejected, two-byte SongPositionPointer is accepted and then panics on read.)", "quantifier": "all system common status bytes and data", "why_tests_cant": "all byte slices", "anchors": ["midi2/src/system_common"]}
{"id": "C50", "title": "Enumerated codes are bijective", "statement": "Property enums (tonic, chord type, alteration, sharps/flats, attribute kind, ui hint, port kind, direction, flex format) map legal codes one-to-one to values; illegal codes are rejected by validation and never reach a getter of an accepted message.", "quantifier": "all codes, all values", "why_tests_cant": "exhaustive over all enums together with buffers", "anchors": ["midi2/src/flex_data", "midi2/src/ump_stream", "midi2/src/channel_voice2/attribute.rs"]}
{"id": "C51", "title": "Every property sits where the wire layout says", "statement": "Each getter of each fixed-size message returns the value encoded by the bits the wire layout assigns to that property, and each accepted message carries the layout's constant bits (message type, status, bank); the message sizes are the layout's. The layout is the crate's documented one (its tests); C64 compares with the published standard.", "quantifier": "every fixed-size message type, every property, every buffer", "why_tests_cant": "tests read a handful of literals; a wrong bit only shows for particular values", "anchors": ["midi2_proc/src/generate_message.rs: property_getter", "midi2/src/detail/common_properties.rs", "midi2/src/channel_voice1", "midi2/src/channel_voice2", "midi2/src/flex_data", "midi2/src/ump_stream"]}
{"id": "C52", "title": "Group and channel of a message of unknown variant", "statement": "On SystemCommon, ChannelVoice1, ChannelVoice2 and FlexData, group() and channel() return what the message inside returns, and set_group() / set_channel() change that value and no other property (for FlexData text: the group of every packet): the message is still accepted as the same variant and all its other properties are unchanged.", "quantifier": "every grouped or channeled message enum, every variant, every accepted buffer, every group and channel value, both representations", "why_tests_cant": "the enum methods are derived once per variant; a wrong arm or a wrong nibble only shows for a particular variant and buffer", "anchors": ["midi2_proc/src/derives.rs: grouped, channeled", "midi2_proc/src/generate_message.rs: grouped/channeled impls", "midi2/src/detail/common_properties.rs: GroupProperty, ChannelProperty"]}
{"id": "C53", "title": "What data() returns is the message", "statement": "The words or bytes data() returns for a parsed message are themselves accepted, as the same variant; they are their own data(), and every getter (values, payload, text, group, channel) returns on them what it returned on the slice the message was parsed from. Forwarding data() therefore forwards the message.", "quantifier": "every message type and both top-level enums, every accepted slice with anything behind the message", "why_tests_cant": "tests parse slices which hold the message and nothing else, so data() is the slice", "anchors": ["midi2_proc/src/generate_message.rs: data, try_from", "midi2_proc/src/derives.rs: data", "midi2/src/detail/helpers.rs", "midi2/src/flex_data.rs: TextBytesIterator", "midi2/src/ump_stream.rs: TextBytesIterator"]}
{"id": "C54", "title": "What a sender builds is what a receiver gets", "statement": "A message built with a constructor and any sequence of setter calls, sent as what data() returns and parsed by the receiver with the top-level enum, arrives as the same message type, and every getter of the received message returns the last value that was set, or the documented default if it was never set, whether it is built in a Vec or in an array of any size that has room for it. For a MIDI-CI discovery query the same holds through the system exclusive message which carries it, over bytes and over UMP and back.", "quantifier": "every message type the enums know, every sequence of setter calls of any length with any values", "why_tests_cant": "tests check setters one at a time on one value and parse hand-written slices; the composition over all types and histories is not enumerable", "anchors": ["midi2/src/message.rs: UmpMessage, BytesMessage", "midi2_proc/src/generate_message.rs: new, property_setter, data", "midi2/src/sysex7.rs", "midi2/src/sysex8.rs", "midi2/src/flex_data.rs", "midi2/src/ump_stream.rs", "midi2/src/ci/discovery.rs"]}
{"id": "C55", "title": "The packets of a message say what the message says", "statement": "Going through packets() of an accepted system exclusive message, every packet is itself accepted as a packet, has the group (and stream id) of the message and the status its place calls for (complete, or begin, continue ..., end), and the payloads of the packets one after the other are the payload of the message.", "quantifier": "every accepted Sysex7 and Sysex8 message with any number of packets, every packet of it, any number of calls of next()", "why_tests_cant": "the number of packets and the distribution of bytes over them are unbounded; tests look at one or two fixed messages", "anchors": ["midi2/src/packets.rs", "midi2/src/sysex7/packet.rs", "midi2/src/sysex8/packet.rs", "midi2/src/sysex7.rs: payload", "midi2/src/sysex8.rs: payload"]}
{"id": "C56", "title": "Setting a property is an assignment", "statement": "Setters behave like assignments to independent variables, down to equality of messages: two sequences of setter calls on the same message in which every property gets the same last value (or is not set at all) leave equal messages, so the order of calls on different properties does not matter and overwritten values leave no trace; setting a property to the value its getter returns leaves the message unchanged; and if a getter returns the same value for two messages of a type, the messages carry the same bits for that property.", "quantifier": "every fixed-size message type in both representations, every buffer, every pair of call sequences of any length with any values, every property", "why_tests_cant": "there are unboundedly many call sequences, and leftovers show up only for particular earlier values in particular bits; tests set one property once on a fresh buffer", "anchors": ["midi2_proc/src/generate_message.rs: derive(PartialEq), property_setter, property_getter", "midi2/src/detail/property.rs", "midi2/src/channel_voice2/attribute.rs", "midi2/src/channel_voice2/program_change.rs", "midi2/src/flex_data.rs: OptionalChannelProperty", "midi2/src/flex_data/set_chord_name.rs"]}
{"id": "C57", "title": "Earlier contents leave no trace on the wire", "statement": "The words or bytes of a message with variable content depend only on what the message shows (group, channel, payload or text), not on the calls that led there: data() is exactly the standard packets of the current content with zero padding, so two messages made differently but showing the same content are equal, and content that was replaced is not transmitted. (Violated: a Sysex7 or Sysex8 payload that fits in one packet leaves earlier payload bytes in the padding; parsed Sysex7 octets keep their reserved top bit through set_payload; the channel of a flex data text and the number of a function block name differ between packets depending on the order of calls.)", "quantifier": "all sequences of in-range calls on new messages over growable buffers and arrays of every size, all payloads, texts, groups and channels", "why_tests_cant": "leftovers depend on the whole history of earlier contents and lengths; tests compare payloads, or data() of messages built in one step", "anchors": ["midi2/src/sysex7.rs: try_resize_ump, write_datum", "midi2/src/sysex8.rs: try_resize, write_datum", "midi2/src/detail/helpers.rs", "midi2/src/flex_data/text.rs", "midi2/src/ump_stream/function_block_name.rs"]}
{"id": "C58", "title": "The project's fuzz targets and examples never fail", "statement": "No input makes a fuzz target of the repository fail: for all data, payload round trips of Sysex7 and Sysex8 return the data set and re-parse, and setting and then splicing payloads in fixed-size zeroed buffers, over words and over bytes, either reports an overflow or shows exactly what Vec::splice gives. The generator example returns the same four messages whatever its buffer held before. The message handler example prints, for every slice of words, the channel, key, velocity or payload found in its bits, or the error line, and does not panic. (Violated: the handler panics on a Sysex7 slice that ends within a packet.)", "quantifier": "all fuzz inputs, all buffer sizes and ranges the random generator may draw (and larger ones), all previous buffer contents, all slices of words, with and without debug assertions", "why_tests_cant": "fuzzing samples the inputs; the claim is that it can never find a failure", "anchors": ["fuzz/fuzz_targets/sysex7_payload_roundtrip.rs", "fuzz/fuzz_targets/sysex8_payload_roundtrip.rs", "fuzz/fuzz_targets/generic_sysex_splicing_payloads.rs: test_case", "examples/no_std_dynamic_message_generator/src/main.rs: Generator::generate", "examples/handling_messages/src/main.rs: handle_message"]}
{"id": "C59", "title": "Debug assertions only stop a program", "statement": "A build with debug assertions and one without them behave alike except where an assertion fires: whenever a sequence of calls does not panic in the build with assertions, the build without them returns the same values and errors and leaves the same words, so tests run in debug builds say what release builds do.", "quantifier": "all sequences of mutating calls on Sysex7 and Sysex8 over growable and fixed buffers with any earlier contents, all conversions from byte messages, all packets and all sequences of calls on their payload iterators; all sequences of calls on flex data text and stream text messages, all texts and all buffers, on every target width", "why_tests_cant": "tests run in one build mode; the two modes would have to be compared on every history", "anchors": ["midi2/src/sysex7.rs: move_payload_tail", "midi2/src/sysex8.rs: move_payload_tail", "midi2/src/sysex7/packet.rs: packet_size", "midi2/src/sysex8/packet.rs: packet_size", "midi2/src/detail/helpers.rs: splice_sysex_data", "midi2/src/flex_data/text.rs: grow_buffer", "midi2/src/ump_stream.rs: clear_payload"]}
{"id": "C60", "title": "Debug output shows the message completely", "statement": "Formatting a message or typed packet with {:?} gives the name of its type, and in \"([\" and \"])\" every unit of its buffer, words as 0x and eight upper case hexadecimal digits, bytes as 0x and two, separated by a comma and a space. An UmpMessage, BytesMessage or Packet puts around this, in parentheses, the variant for the message type or status byte and that of the inner aggregate. Two texts are the same only if the types and all units are; messages print alike exactly if they are equal.", "quantifier": "all type names without parenthesis, all message types of UmpMessage and BytesMessage, all packets, all buffers of words or bytes of any length", "why_tests_cant": "tests print a few messages; that no two different messages ever print alike ranges over all pairs", "anchors": ["midi2_proc/src/derives.rs: debug", "midi2_proc/src/generate_message.rs: message", "midi2/src/message.rs: UmpMessage, BytesMessage", "midi2/src/packet.rs: Packet"]}
{"id": "C61", "title": "Equal messages are those with equal properties", "statement": "Two messages of one type made by the constructor and any sequences of setter calls are equal (==) exactly if every getter returns the same for both; two values of the message enum are equal exactly if their words are. (Violated: for a note attribute that was set and then cleared; and for parsed messages, where words behind the message or reserved bits make messages with equal data() or equal properties unequal.)", "quantifier": "all message types, all pairs of histories of setter calls with all values the setters store faithfully, words and bytes", "why_tests_cant": "tests compare pairs of messages built in one way; the claim ranges over all pairs of histories", "anchors": ["midi2_proc/src/generate_message.rs: message", "midi2/src/message.rs: UmpMessage", "midi2/src/channel_voice2/attribute.rs"]}
{"id": "C62", "title": "Messages work over the user's own buffers", "statement": "Over a buffer type written by the user, whose resize gives the requested size and keeps the contents (whatever it puts into new units), messages behave as over Vec: new_with_buffer makes the same message, every sequence of payload and text calls gives the same payload, group and text and never panics, and the data is accepted by the parser. The same calls give the same payload, group and text over a buffer whose resize may give more than requested. Whatever a resize does, new_with_buffer and try_new_with_buffer never return a message shorter than its minimum size, and if the buffer has the words that a message of fixed size needs, every getter of the message that new makes returns its default, whatever the buffer holds. Setting a text on a flex data message, an endpoint name or a product instance id that new made leaves nothing of what the buffer held. Whatever a resize does, setting a text panics if the text does not fit into the buffer, and otherwise does what it does in an array of that size and contents. Over a buffer with a limited capacity the try_ calls fail with BufferOverflow exactly if the message would not fit. (Violated in part: over a buffer that gives less than requested a flex data text can be cut without a panic; with debug assertions a call panics if what lies behind the message in a larger buffer looks like a packet that is not full, and over bytes an old F7 behind the message loses payload; what growth fills in shows through in the payload and the text of messages made by new, in Sysex8 stream ids, in reserved bits, in the top bits of data bytes, in FunctionBlockName numbers, and breaks byte messages if it is not below 0x80; limited buffers overflow early for iterators without size hint; on limited byte buffers a call panics that shortens the payload by one byte, a try_set_payload that replaces one byte, and one that overflows three or four bytes.)", "quantifier": "all lawful resize functions with any fill, all capacities, all earlier contents, all sequences of in-range calls with any iterators and size hints, all strings ; all buffers whose resize gives at least the requested size", "why_tests_cant": "tests use Vec and arrays; the claim ranges over all buffer implementations a user may write", "anchors": ["midi2/src/buffer.rs: BufferResize, BufferTryResize, BufferDefault", "midi2_proc/src/generate_message.rs: new_with_buffer", "midi2/src/sysex7.rs: resize, try_resize", "midi2/src/sysex8.rs: try_resize", "midi2/src/detail/helpers.rs: splice_sysex_data", "midi2/src/flex_data/text.rs: ResizeProperty", "midi2/src/ump_stream.rs: ResizeProperty"]}
{"id": "C63", "title": "Text byte iterator laws", "statement": "text_bytes(), name_bytes() and id_bytes() return the text bytes of the message in order, zeros left out, and then None at every further call; the bounds of size_hint() contain the number of bytes to come. (Violated: the lower bound of size_hint() exceeds the number of bytes for every message, since it counts words as packets; and the last byte of a flex data text is never returned, see C29.)", "quantifier": "all message buffers of any length, any number of calls", "why_tests_cant": "tests collect the bytes of a few messages; unbounded texts and numbers of calls", "anchors": ["midi2/src/flex_data/text.rs: TextBytesIterator", "midi2/src/ump_stream.rs: TextBytesIterator", "midi2/src/ump_stream/function_block_name.rs: TextReadBytesProperty"]}
{"id": "C64", "title": "Agreement with the published standard", "statement": "Every property of every fixed-size message sits in the bits which the UMP and MIDI 2.0 Protocol specification gives it, and every code the specification defines for an enumerated property is accepted, so that messages can be exchanged with other implementations.", "quantifier": "every fixed-size message type, every property of the standard's layout, every buffer", "why_tests_cant": "the tests encode the crate's own reading, often with symmetric values (both flags set), so exchanged bits do not show", "anchors": ["midi2/src/channel_voice2/program_change.rs: BankProperty", "midi2/src/channel_voice2/per_note_management.rs: PerNoteManagement", "midi2/src/ump_stream/function_block_discovery.rs: FunctionBlockDiscovery", "midi2/src/flex_data/set_chord_name.rs: ChordTypeProperty, SharpsFlatsProperty"]}
{"id": "C65", "title": "Cargo features only add", "statement": "Turning on a Cargo feature adds the messages of its group to UmpMessage, BytesMessage and Packet and changes no other result: a slice accepted by a build is accepted, as the same message, by every build with more features; a slice whose group is left out is refused with InvalidData; no build panics on any slice; and whatever the features, packets() of an accepted message can be iterated. (Violated by std: without it text messages whose text is not UTF-8 are accepted, with it they are refused.)", "quantifier": "all sets of features, all slices of words and bytes", "why_tests_cant": "the tests run with a few sets of features; there are hundreds of sets and unbounded slices", "anchors": ["midi2/Cargo.toml: features", "midi2/src/message.rs: UmpMessage, BytesMessage", "midi2/src/packet.rs: Packet", "midi2/src/packets.rs: PacketsIterator", "midi2_proc/src/generate_message.rs: try_from_slice_impl", "midi2_proc/src/common.rs: std_only_attribute"]}
{"id": "C66", "title": "Integer overflow and release builds", "statement": "A call on a Sysex7 or Sysex8 message, on its payload iterator or on the payload of a packet which succeeds in a build with overflow checks has the same outcome in a build without them, whatever the width of usize; and as long as buffers, payloads, size hints and indices are below 2^w/1024 on a w-bit target, integer arithmetic overflows nowhere except where the call panics for unbounded integers as well. (Calls that panic with overflow checks may go on without them: a splice whose range ends before it begins doubles bytes, the length of a Sysex8 packet without stream id is usize::MAX.) The same holds for histories of calls on text messages, for reading them and for parsing them, except that a text of at least 2^(w-2) octets that fills its packets exactly makes the size computation overflow: setting it panics with overflow checks, and without them it panics, is refused, or is reported as set in a buffer of fixed size although the message is only its first packets; and with overflow checks collecting a text from a buffer of 2^w/12 words (stream texts: 2^w/14) panics in size_hint.", "quantifier": "all widths of usize, all buffers, all histories of calls with all arguments", "why_tests_cant": "tests run on one target, in one kind of build, on short payloads; the sizes at which arithmetic overflows cannot be allocated", "anchors": ["midi2/src/detail/helpers.rs: try_splice_sysex_data", "midi2/src/sysex7.rs: PayloadIterator, SysexInternal", "midi2/src/sysex8.rs: PayloadIterator, SysexInternal", "midi2/src/sysex7/packet.rs: PayloadIterator", "midi2/src/sysex8/packet.rs: PayloadIterator", "midi2/src/flex_data/text.rs: ump_buffer_size_for_str, grow_buffer, TextBytesIterator", "midi2/src/ump_stream.rs: required_buffer_size_for_str, TextBytesIterator"]}
{"id": "C67", "title": "Wrapping a message keeps it", "statement": "Turning a message of any type into an UmpMessage or BytesMessage (From, directly or via the enum of its group) gives the variant of its message type, or of its status bytes, and keeps type, buffer, data() and packets(); different messages give different values; and UmpMessage::try_from and BytesMessage::try_from return exactly what parsing the slice as its own type and then wrapping it returns. (Violated for the three flex data texts of C10, and for FunctionBlockDiscovery in short slices.)", "quantifier": "all message types, all buffers, all slices", "why_tests_cant": "each of the 72 types has its own attribute naming the enum it goes through, and each enum its own list of variants and of parser arms; tests wrap a handful of messages", "anchors": ["midi2_proc/src/generate_message.rs: ump_message_via, bytes_message_via", "midi2/src/message.rs: UmpMessage, BytesMessage", "midi2/src/channel_voice1.rs: ChannelVoice1", "midi2/src/channel_voice2.rs: ChannelVoice2", "midi2/src/flex_data.rs: FlexData", "midi2/src/ump_stream.rs: UmpStream", "midi2/src/system_common.rs: SystemCommon", "midi2/src/utility.rs: Utility"]}
{"id": "C68", "title": "A refused slice is told the true reason", "statement": "The text inside the InvalidData that try_from returns names a rule the slice breaks, and of the rules it breaks the first in a fixed order: length, then the constants and properties of the message in declaration order, for system exclusive and text messages the packets' formats, sizes, groups, stream ids and text. Through UmpMessage, BytesMessage, the group enums and packet::Packet the text is that of the type the header selects, and an unknown status is told as unknown in its own group. (Violated: unknown system common messages are called MIDI 1.0 channel voice, unknown stream messages flex data; the three misfiled flex data texts are called unknown.)", "quantifier": "all message, packet and discovery query types, all slices", "why_tests_cant": "a slice can break several rules at once and the text depends on the order in which they are applied; the tests check the text for a few slices", "anchors": ["midi2/src/error.rs: InvalidData", "midi2_proc/src/generate_message.rs: try_from_slice_impl", "midi2_proc/src/generate_ci.rs: try_from", "midi2/src/detail/helpers.rs: validate_sysex_group_statuses", "midi2/src/detail/common_err_strings.rs", "midi2/src/message.rs: UmpMessage, BytesMessage", "midi2/src/packet.rs: Packet", "midi2/src/system_common.rs: SystemCommon", "midi2/src/ump_stream.rs: UmpStream"]}
{"id": "C69", "title": "A panicking iterator leaves a usable message", "statement": "If the iterator passed to set_payload, append_payload, insert_payload, splice_payload or their try_ forms panics, after any number of items, the message it leaves behind is complete, has its group, and can be read and changed again; its payload begins with what was before the range and the items given so far, and what was behind the range is still in it; buffers of fixed size keep their length. If size_hint panics, the payload is what it was. (Violated for size hints that are too low on buffers of fixed size, when a range is replaced near the capacity: there what was before the range is kept, but items and what was behind it may be lost.)", "quantifier": "all messages that can be spliced, all ranges, all iterators, all points at which the iterator panics, all size hints", "why_tests_cant": "the state at the panic depends on the number of items, the size hint, the range and the packets of the message; the tests use iterators that do not panic", "anchors": ["midi2/src/detail/helpers.rs: try_splice_sysex_data, splice_sysex_data", "midi2/src/traits.rs: Sysex", "midi2/src/sysex7.rs: set_payload, try_set_payload", "midi2/src/sysex8.rs: set_payload, try_set_payload"]}
{"id": "C70", "title": "The iterator is asked as often as needed", "statement": "The calls that take an iterator call size_hint once and next once per item and once for the None, never after it, so the iterator need not be fused; what they do depends on nothing but these answers, so they do what they do with the list of the items and the same size hint. On a buffer of fixed size, an iterator that gives more than fits is stopped before it gives more than the first items that do not fit, and the payload is emptied, so endless iterators are safe there; on a growable buffer the call does not return for an endless iterator.", "quantifier": "all buffers, all ranges, all iterators that end, all endless iterators, all size hints", "why_tests_cant": "the number of calls depends on the doubling of the estimate and on the size hint, and an endless iterator cannot be run to its end", "anchors": ["midi2/src/detail/helpers.rs: try_splice_sysex_data, splice_sysex_data", "midi2/src/traits.rs: Sysex"]}
{"id": "C71", "title": "The work of a splice is bounded", "statement": "splice_payload, append_payload, insert_payload and set_payload write every item exactly once. On a growable buffer a splice resizes the buffer and moves the tail of the payload at most twice when the size hint covers the items, and otherwise at most two times more than the number of binary digits of the number of items the hint misses; set_payload resizes once more. No resize asks for more than what stays of the payload plus the hint or twice the items, whichever is more, and the last asks for exactly the new payload. On a buffer of fixed size try_splice_payload resizes at most twice more (once at the limit of the buffer, once to empty the message when it gives up) and never writes an item twice, also when it overflows.", "quantifier": "all messages and buffers, all ranges, all items, all size hints", "why_tests_cant": "the number of turns of the loop depends on the hint, on the number of items and on the buffer; a test sees the result and not the work", "anchors": ["midi2/src/detail/helpers.rs: try_splice_sysex_data, splice_sysex_data", "midi2/src/buffer.rs: BufferResize, BufferTryResize", "midi2/src/traits.rs: Sysex"]}
{"id": "C72", "title": "A message reads the same wherever it has been", "statement": "Take a message of a fixed-size type and do anything to it, in any order and any number of times: call its setters, move it to another buffer with rebuffer_into, try_rebuffer_into or array_rebuffer_into, send it to somebody who parses what data() gave with anything behind it, translate it between bytes and words with from_bytes, from_ump and their try_ and array forms. If no array on the way was too small it arrives, in a buffer of the expected length, still accepted, and every property reads as if only the setters had been called on the original message and its group had been set to 0 at every translation. If one was too small the step that met it reports BufferOverflow, and a receiver that does not tolerate what comes behind a flex data or stream message reports InvalidData. Nothing panics. The same holds for Sysex7 messages in growable buffers, where the steps are the calls that change the payload or the group, moves, visits to arrays, sending and translation: at the end the message shows the group and the bytes that the steps make of a plain list. The same for Sysex8 messages, which are not translated, and for fallible calls made while the message is in an array. And for text messages in growable buffers, which are also worked on in arrays of any size: the first array that is too small reports BufferOverflow, and otherwise the message shows the text, group, channel and number that the steps make of plain values.", "quantifier": "all message types, all accepted buffers, all sequences of steps, all sizes of arrays, all values, all words or bytes received behind a message", "why_tests_cant": "the sequences of steps are unbounded and every pair of steps can interact: stale words behind a message, zeros added by an array, a group that bytes do not have", "anchors": ["midi2/src/traits.rs: RebufferFrom, TryRebufferFrom, ArrayRebufferFrom, FromBytes, FromUmp, TryFromBytes, TryFromUmp, Data", "midi2_proc/src/generate_message.rs: rebuffer_from, from_bytes, from_ump, try_from"]}
{"id": "C73", "title": "A text message after any history, wherever it came from", "statement": "Take any flex data text message or stream text message, made or received, in a growable buffer or in an array or slice of any size, and make any calls on it: set the text, the group, the channel, the function block number, in any order and any number of times, with any values. Nothing panics. Setting a text reports BufferOverflow exactly when the text needs more packets than the buffer has, and then the message is unchanged. Group, channel and number read back as the last ones set. Until a text has found room the message keeps its text and stays accepted. After that the text reads back as the last one that found room (NUL characters are passed over), data() is the encoding of that text with nothing of earlier, longer texts in it, and is accepted by the parser.", "quantifier": "all text message types, all buffers that back a message, all sequences of calls, all texts, all sizes of buffer", "why_tests_cant": "the sequences of calls are unbounded and what is left of a longer text, of a packet header or of a number in a packet further on depends on all of them", "anchors": ["midi2/src/flex_data/text.rs: TextWriteStrProperty", "midi2/src/flex_data.rs: GroupProperty, OptionalChannelProperty", "midi2/src/ump_stream.rs: TextWriteStrProperty, TextReadBytesProperty", "midi2/src/ump_stream/function_block_name.rs: FunctionBlockName"]}
{"id": "C74", "title": "A gateway between a MIDI 1.0 byte stream and UMP", "statement": "A program that reads a stream of MIDI 1.0 bytes message by message with BytesMessage::try_from, passes every message on with into_ump, and elsewhere turns the messages back into bytes with into_bytes, loses nothing: for any sequence of MIDI 1.0 messages, system exclusive of any length included, every message is passed on in order as the packet or packets the standard has for it (message type, group 0, status byte and data bytes), UmpMessage::try_from accepts it as this type of message, and the bytes that come out at the other end are the bytes that went in. The other way round, messages in UMP that MIDI 1.0 has too become their bytes, and reading these gives the same messages in group 0. Laid out in one slice, the packets can be told apart again.", "quantifier": "all streams of bytes that can be read as messages, all sequences of MIDI 1.0 messages, all sequences of whole UMP messages, release and debug builds", "why_tests_cant": "streams are unbounded; whether a message comes through depends on its neighbours, since lengths are not on the wire, and on every value of status, data bytes and payload length", "anchors": ["midi2/src/message.rs: BytesMessage, UmpMessage", "midi2/src/traits.rs: IntoUmp, IntoBytes, TryIntoUmp, TryIntoBytes", "midi2/src/sysex7.rs: FromBytes, FromUmp", "midi2_proc/src/generate_message.rs: from_bytes_impl, from_ump_impl"]}
{"id": "C75", "title": "Messages of several senders, mixed on a transport, can be put together again", "statement": "Let any number of senders each send a sequence of messages, packet by packet with packets(), no two of them with the same message type, group and stream id, and let a transport mix their packets in any order, with any other words in between. A receiver that keeps a buffer for each type, group and stream id, tells packets apart with Packet::try_from, group() and stream_id(), looks at status() or format() to see where a message starts and ends, and reads the collected words with UmpMessage::try_from, gets every message of every sender: of the same type, with the same data(), in the order in which they were sent, whatever was in its buffers before. Wherever the transport stops, exactly the messages whose last packet has come in have been received. Neither side panics, whatever comes in, and what is received with a type, group and stream id depends on no other traffic. The receiver has to keep a message that ends with UnexpectedEnd(Valid): Sysex8 messages with an empty last packet end like this.", "quantifier": "all sets of senders, all sequences of messages of all types and lengths, all interleavings, all other traffic, all stopping points, all initial states of the receiver", "why_tests_cant": "the interleavings and sequences are unbounded; whether a message is found again depends on the status of every packet at every length and on what came before on the same group and stream id", "anchors": ["midi2/src/packet.rs: Packet", "midi2/src/packets.rs: PacketsIterator", "midi2/src/sysex7/packet.rs: Packet, Status", "midi2/src/sysex8/packet.rs: Packet, Status, status_from_data", "midi2/src/flex_data/packet.rs: Packet", "midi2/src/ump_stream/packet.rs: Packet", "midi2/src/message.rs: UmpMessage"]}
{"id": "C76", "title": "Words that arrive in pieces", "statement": "Let a transport deliver the words of a stream in pieces of any size, and let a reader put every piece behind the words it still has and take packets off the front. A reader that waits until the words announced by the message type are there has after every piece exactly the packets that have arrived completely, with Packet::try_from, and so gets the same packets however the stream is cut. A reader that does not wait but tries Packet::try_from until it fails gets the same. In the same way a reader that tries UmpMessage::try_from until it fails, and moves on by the length of data(), has after every piece exactly the messages that have arrived completely, and does not panic: the beginning of a message is refused until its last word is there. The same holds over MIDI 1.0 bytes with BytesMessage::try_from.", "quantifier": "all streams of words and of bytes, all ways of cutting them into pieces; all sequences of messages of all types and lengths", "why_tests_cant": "the streams and the ways of cutting them are unbounded; whether the beginning of a message is refused depends on where it is cut, in every packet of messages of every length", "anchors": ["midi2/src/packet.rs: Packet", "midi2/src/sysex7/packet.rs: Packet", "midi2/src/sysex8/packet.rs: Packet", "midi2/src/channel_voice2/packet.rs: Packet", "midi2/src/flex_data/packet.rs: Packet", "midi2/src/ump_stream/packet.rs: Packet", "midi2/src/message.rs: UmpMessage", "midi2/src/detail/helpers.rs: validate_sysex_group_statuses"]}
{"id": "C77", "title": "Messages in a part of a larger array", "statement": "A user who has an array builds a message at the front of the rest of it that is still unused (try_new_with_buffer on a mutable slice), sets its properties, and goes on behind data(). Building the message and calling its setters changes no word or byte behind data(), whatever is there: a message that is already there stays as it is. The words of the message are the same that new() and the same setters give on a Vec. Any messages written in this way one behind the other fill the front of the array, can be read back from there one by one, and the rest of the array is as it was; if there is no room for all of them the result is an overflow error and never a panic.", "quantifier": "all fixed-size message types with all calls of setters, system exclusive messages with all payloads and size hints, text messages with all texts, all arrays of any length and content, all sequences of messages", "why_tests_cant": "the contents of the rest of the array and the sequences of messages are unbounded; whether the rest is touched depends on what happens to be in it", "anchors": ["midi2_proc/src/generate_message.rs: try_new_with_buffer", "midi2/src/ump_stream.rs: StatusProperty", "midi2/src/ump_stream.rs: ConsistentFormatsProperty", "midi2/src/sysex7.rs: GroupProperty", "midi2/src/sysex8.rs: GroupProperty", "midi2/src/sysex8.rs: StreamIdProperty", "midi2/src/system_common/song_position_pointer.rs: SongPositionPointer", "midi2/src/detail/helpers.rs: try_splice_sysex_data", "midi2/src/flex_data/text.rs: TextWriteStrProperty", "midi2/src/ump_stream.rs: TextWriteStrProperty"]}
{"id": "C78", "title": "Messages over a line, and MIDI 1.0 over UMP, end to end", "statement": "Let somebody send any messages of any types one after the other, packet by packet with packets(), and let a transport deliver the words in pieces of any size. A receiver that takes packets off the pieces with Packet::try_from once their words are there, collects them by type, group and stream id until status() or format() says that the message is complete, and reads the collected words with UmpMessage::try_from, has after every piece exactly the messages that have arrived completely, in the order in which they were sent across all types and groups, of the same variant and with the same data(), and never panics, whatever was in its buffers. This holds also for messages that cannot be told apart when they lie in one slice. So a gateway that takes MIDI 1.0 messages off pieces of a byte stream, translates them with into_ump and sends them over such a line to one that translates them back with into_bytes gives at every point the bytes of the messages that have come through, and in the end the bytes that went in; there the receiver need not wait for whole packets. The other way round, UMP messages sent as bytes in pieces come out as the same messages in group 0.", "quantifier": "all sequences of messages of all types and lengths, all ways of cutting words and bytes into pieces, all points at which the transport stops, all initial states of the receiver, release and debug builds", "why_tests_cant": "sequences, ways of cutting and stopping points are unbounded, and the result depends on all stages behind each other: where a byte or word stream is cut, what translation makes of a message, how many packets it has, and what the receiver still holds", "anchors": ["midi2/src/message.rs: UmpMessage, BytesMessage", "midi2/src/packet.rs: Packet", "midi2/src/packets.rs: PacketsIterator", "midi2/src/sysex7/packet.rs: Packet, Status", "midi2/src/traits.rs: IntoUmp, IntoBytes", "midi2/src/sysex7.rs: FromBytes, FromUmp"]}
{"id": "C79", "title": "A discovery query reaches the far end with its values", "statement": "Let an application make a DiscoveryQuery with new() and any sequence of setter calls and send its bytes among other MIDI 1.0 messages (any but TimeCode, SongPositionPointer and TuneRequest, see C74), in pieces cut anywhere; let a gateway turn what it reads into UMP with into_ump and send it on packet by packet, again cut anywhere. Then the message in its place at the far end is a Sysex7 whose into_bytes() gives bytes that DiscoveryQuery::try_from of the same version accepts, and every getter returns the value last given to its setter, or the default. The same holds if the far end turns all messages into a byte stream again and that is cut anywhere. Any other discovery query arrives byte by byte as it was sent, too.", "quantifier": "both versions, all sequences of setter calls with all values, all discovery queries of any length, all other messages before and after, all ways of cutting the three streams, all initial states of the receiver, release and debug builds", "why_tests_cant": "histories of calls, neighbouring messages and ways of cutting are unbounded, and the values have to survive seven bit packing, splitting into packets, reassembly and the way back", "anchors": ["midi2_proc/src/generate_ci.rs: new, try_from, properties", "midi2/src/ci/discovery.rs: DiscoveryQuery", "midi2/src/sysex7.rs: FromBytes, FromUmp", "midi2/src/message.rs: UmpMessage, BytesMessage", "midi2/src/packet.rs: Packet"]}
{"id": "C80", "title": "What applications build is what the far side reads", "statement": "Let applications make messages of any types, each with its constructor and any sequence of setter calls (all fixed size types but FunctionBlockDiscovery, whose new() panics; Sysex7 and Sysex8 with every method that changes the payload, called with ranges within it; flex data texts that have no NUL and whose length is no multiple of twelve, of the types the dispatcher knows; stream texts without NUL, for FunctionBlockName with the same number in all packets; MIDI-CI discovery queries turned into UMP), and send them one after the other, packet by packet, over a transport that cuts the words anywhere. After every piece the receiver, whatever was left in its buffers, has without panicking exactly the messages that have arrived completely, in order, each as the UmpMessage variant of the type that was built, and every getter returns the value last given to its setter, or the default. The same holds for several applications on different message types, groups or stream ids whose packets the transport mixes, once all packets have arrived. Messages built over bytes (all but SongPositionPointer) and sent as a byte stream cut anywhere are read with BytesMessage likewise; and behind a gateway that translates them with into_ump and sends them on packet by packet, cut anywhere again, the far side reads the same values, in group 0. Values are those the setter stores faithfully (C09).", "quantifier": "all sequences of messages of all types, all histories of setter calls with all values for each, all ways of cutting the words, all stopping points, all interleavings of senders, all initial states of the receiver, release and debug builds", "why_tests_cant": "sequences of messages, histories of calls, ways of cutting and interleavings are unbounded, and the values have to survive construction, every later setter, splitting into packets, reassembly among other messages and dispatch", "anchors": ["midi2_proc/src/generate_message.rs: new, setters, try_from", "midi2/src/message.rs: UmpMessage", "midi2/src/packets.rs: PacketsIterator", "midi2/src/packet.rs: Packet", "midi2/src/detail/helpers.rs", "midi2/src/sysex7.rs: Sysex7", "midi2/src/sysex8.rs: Sysex8", "midi2/src/flex_data/text.rs", "midi2/src/ump_stream.rs", "midi2/src/ci/discovery.rs: DiscoveryQuery"]}
{"id": "C81", "title": "Packets the library does not know are skipped and nothing else is lost", "statement": "The standard fixes the number of words of a packet for all sixteen message types, those it reserves included. Words of a reserved type are refused by Packet::try_from and UmpMessage::try_from, whatever they are. A reader that takes Packet::try_from of the words that have arrived, goes on by the length of the packet if it is accepted and by the standard's number of words if it is refused, never panics and gets after every piece exactly the packets that are accepted when looked at alone, of those that have arrived completely: refused packets, wherever they are, change nothing, and damage within one packet that leaves its message type changes nothing but that packet. If a receiver reassembles messages behind this reader, then every message of every sender arrives as sent and in order, although the transport gives no sign where packets begin, mixes the senders' packets, cuts the words anywhere and carries packets of unknown types in between, also within a message of several packets. A reader that goes on by one word behind a refused packet can read messages nobody sent.", "quantifier": "all streams of words, all ways of cutting them, all packets of all sixteen message types with any content, all senders and interleavings, all initial states of the receiver", "why_tests_cant": "streams, ways of cutting and interleavings are unbounded, and the packets in question are those of future versions of the standard, whose content is arbitrary", "anchors": ["midi2/src/packet.rs: Packet::try_from", "midi2/src/message.rs: UmpMessage::try_from", "midi2/src/packets.rs: PacketsIterator"]}
{"id": "C82", "title": "A MIDI 1.0 cable with running status and real time messages", "statement": "On a MIDI 1.0 cable the status byte of a channel voice message may be left out if it is that of the message before, real time messages of one byte may stand anywhere, within other messages too, messages may be broken off by the next status byte, and undefined status bytes and stray data bytes occur. An application that puts bytes together accordingly and asks BytesMessage::try_from behind every byte never panics and reads exactly the messages that are complete, each with its status byte, in the order in which they become complete, and is in step again at the next status byte whatever it had before; a gateway that passes them on with into_ump, packet by packet over a line that cuts the words anywhere, delivers them all to the far end. BytesMessage::try_from alone does not do for such a stream: it should refuse a message with a status byte in the place of a data byte.", "quantifier": "all sequences of MIDI 1.0 messages, all choices of leaving status bytes out, all placements of real time, undefined and stray bytes, all points where messages are broken off or the cable is pulled, all initial states of the reader, all ways of cutting the UMP stream", "why_tests_cant": "sequences of messages and interleavings are unbounded, and whether the parser waits for exactly the last byte depends on every proper prefix of every message being refused", "anchors": ["midi2/src/message.rs: BytesMessage::try_from", "midi2/src/channel_voice1.rs", "midi2/src/system_common.rs", "midi2/src/sysex7.rs: try_from over bytes", "midi2/src/detail/schema.rs: BytesSchemaRepr"]}
{"id": "C83", "title": "Moving packets to other groups moves the messages", "statement": "A program between senders and receiver may set the group of every packet with set_group of the packet, one packet at a time, without putting messages together. For every whole message with a group this sends the same words as set_group of the message would: for messages of one packet, for system exclusive and for text of any number of packets. Behind a transport that mixes the packets of several senders, and a map of groups that maps no two groups to one, the receiver gets every message of every sender in turn, of the same variant and with the data that set_group of the message gives, and gets of a message that has not come through whole nothing. The program never panics, whatever comes off the line, drops what is no packet, and leaves packets without a group as they are.", "quantifier": "all messages of all variants, all injective maps of groups, all ways of mixing and cutting short the streams of all senders, all other traffic, all initial states of the receiver", "why_tests_cant": "messages have any number of packets, and interleavings and maps of groups are unbounded; the two setters are written independently for every message type", "anchors": ["midi2/src/packet.rs", "midi2/src/sysex7/packet.rs: set_group", "midi2/src/sysex8/packet.rs: set_group", "midi2/src/flex_data/packet.rs: set_group", "midi2/src/sysex7.rs: set_group, packets", "midi2/src/sysex8.rs: set_group, packets", "midi2/src/flex_data.rs: set_group", "midi2_proc/src/derives.rs: grouped"]}
{"id": "C84", "title": "Channels can be mapped packet by packet", "statement": "A program between senders and receiver may set the channel of every channel voice packet with set_channel of the packet, to any function of the packet's group and channel, one packet at a time. For every whole message this sends the same words as set_channel of the ChannelVoice1 or ChannelVoice2 message would; it changes four bits of a channel voice message and nothing of any other message. Behind a transport that mixes the packets of several senders the receiver gets every message of every sender in turn, of the same variant and with the data that set_channel of the message gives, also when the map merges channels. The program never panics, whatever comes off the line.", "quantifier": "all messages of all variants, all maps of groups and channels to channels, all ways of mixing and cutting short the streams of all senders, all other traffic, all initial states of the receiver", "why_tests_cant": "maps and interleavings are unbounded, and the setters of packets and of the thirty channel voice messages are generated from different code", "anchors": ["midi2/src/packet.rs", "midi2/src/channel_voice1/packet.rs: channel, set_channel", "midi2/src/channel_voice2/packet.rs: channel, set_channel", "midi2/src/channel_voice1.rs", "midi2/src/channel_voice2.rs", "midi2_proc/src/derives.rs: channeled"]}
{"id": "C85", "title": "What is recorded with DeltaClockstamp messages is played at its times", "statement": "A program records messages by writing, before each one, DeltaClockstamp messages for the ticks since the one before: one with the rest of the gap, and one more with time_data 0xFFFFF for every 1048575 ticks. The packets of the recording go over a transport that cuts the words into pieces. A player that takes packets off the pieces, puts messages together, adds up time_data of the DeltaClockstamp messages and gives out the others with the sum gives out every message that was recorded, in order, with the same variant and data, at the sum of the gaps before it. If the recording is cut off anywhere it gives out exactly the messages whose words have come in, at the same times. Nothing panics.", "quantifier": "all lists of whole messages of all variants other than DeltaClockstamp, all gaps of any length, all ways of cutting the words into pieces and of cutting them off, all start times, all initial states of the receiver", "why_tests_cant": "recordings, gaps and cuts are unbounded, and an error in the 20 bits of time_data would add up along the recording", "anchors": ["midi2/src/utility.rs: DeltaClockstamp, time_data, set_time_data", "midi2/src/message.rs", "midi2/src/packet.rs", "midi2/src/packets.rs"]}
{"id": "C86", "title": "Endpoint discovery works", "statement": "One side builds an EndpointDiscovery message with new() and its setters and sends it among other messages; the words come in at a device in any pieces. The device reads the five request flags and answers with EndpointInfo, DeviceIdentity, EndpointName, ProductInstanceId and StreamConfigurationNotification messages, exactly those asked for, built with new() and their setters and sent among other messages. The first side takes packets off the pieces that come in, puts messages together and reads every notification with its getters. It has then been told exactly what it asked for, with every value and both texts as the device set them, and nothing else. Nothing panics.", "quantifier": "all 32 combinations of request flags, all values of all properties of the device, all names and product ids without NUL of any length, all other messages before and after, all ways of cutting the words into pieces, all initial states of both receivers", "why_tests_cant": "values, texts, other traffic and pieces are unbounded, and every step of the dialogue depends on every other", "anchors": ["midi2/src/ump_stream/endpoint_discovery.rs", "midi2/src/ump_stream/endpoint_info.rs", "midi2/src/ump_stream/device_identity.rs", "midi2/src/ump_stream/endpoint_name.rs", "midi2/src/ump_stream/product_instance_id.rs", "midi2/src/ump_stream/stream_configuration_notification.rs", "midi2/src/message.rs", "midi2/src/packets.rs"]}
{"id": "C87", "title": "Function block discovery works", "statement": "One side builds a FunctionBlockDiscovery message over a [u32; 4] with new() and its setters, for one function block or for all (0xFF), and sends it among other messages; the words come in at a device in any pieces. The device reads number and flags and answers with a FunctionBlockInfo and a FunctionBlockName per block asked for, as far as asked for, built with new() and their setters (set_name, then set_function_block) and sent among other messages. The first side takes packets off the pieces that come in, puts messages together and reads them with the getters. It has then been told, in the order of the blocks, all properties and all names of exactly the blocks asked for, each name with the number of its block, and nothing else. Nothing panics. Over a Vec the request cannot be built, as its new() panics.", "quantifier": "all 256 block numbers and 4 combinations of flags, any number of blocks with all values of all properties, all names without NUL of any length, all other messages before and after, all ways of cutting the words into pieces, all initial states of both receivers", "why_tests_cant": "blocks, names, other traffic and pieces are unbounded, and every step of the dialogue depends on every other", "anchors": ["midi2/src/ump_stream/function_block_discovery.rs", "midi2/src/ump_stream/function_block_info.rs", "midi2/src/ump_stream/function_block_name.rs", "midi2/src/message.rs", "midi2/src/packets.rs"]}
{"id": "C88", "title": "Large data can be sent with a message in a small array", "statement": "A program without an allocator keeps one Sysex7 or Sysex8 message in a [u32; n], changes it by fallible calls (try_set_payload, try_append_payload, try_insert_payload, try_splice_payload, set_group, set_payload_byte ...) and sends it again and again, among other messages; the words come in at the far side in any pieces. The calls return BufferOverflow exactly when the payload does not fit, and every message the far side puts together shows the group and payload the calls so far amount to. In particular data of any length, cut into blocks that fit (six bytes for every two words, 13 for every four) and sent with try_set_payload, arrives completely and in order, with one message per block, in debug and release builds; with larger blocks the first call reports BufferOverflow. The same goes for Sysex7 in a [u8; n] and blocks of at most n - 2 bytes on a MIDI 1.0 cable with other messages on it, real time messages within the blocks included. Nothing panics.", "quantifier": "all array sizes that have room for a packet, all rounds of calls with arguments in range and of any length, all data and block sizes, all groups, all other messages in between, all ways of cutting the words into pieces, all initial states of the receiver", "why_tests_cant": "data, histories and pieces are unbounded, and every block is written over what the earlier ones left in the array", "anchors": ["midi2/src/sysex7.rs", "midi2/src/sysex8.rs", "midi2/src/detail/helpers.rs", "midi2/src/message.rs", "midi2/src/packets.rs"]}
