# Formal model of midi2 (bl-midi2-rs) in Lean 4

## What is modelled

The crate `midi2` plus the code generated by its procedural macros
(`midi2_proc`), read as text.  The Lean project lives in `lean/Verif`:

* `Verif/Model/…` – the model: total, computable functions over lists of
  `BitVec 32` (UMP words) and `BitVec 8` (bytes).  `&mut` arguments become
  returned values, `Result` and panics become an explicit three-way outcome
  (`Res`: `ok`, `err`, `panic`).  Every definition cites file and lines.
* `Verif/Lemmas/…` – helper lemmas.
* `Verif/Spec/…` – small specifications that do not use the model's helpers
  (what a packetisation is, what `Vec::splice` is, which bits a mask covers…).
* `Verif/Check/…` – the crate's own tests replayed on the model (tests, not
  proofs; see "Checking the model").
* `Verif/Props/…` – the property theorems (one file per group of properties),
  each followed by an `example` showing that its hypotheses are met.

Part by part:

| model file | code modelled |
|------------|---------------|
| `Basic`, `Chunks` | `Res`, `error.rs`, slice indexing, `chunks`, `chunks_exact`, the buffers of `buffer.rs` (`Vec`, arrays, `&mut [U]`, `&[U]`: `resize`, `try_resize`, `from_buffer`, `try_from_buffer`) |
| `BitOps`, `Codec` | `detail/bit_ops.rs`, `detail/encode_7bit.rs`, the enumerated types (`channel_voice2/attribute.rs`, `controller.rs`, `flex_data/tonic.rs`, `set_key_signature.rs`, `set_chord_name.rs`, `ump_stream/function_block_info.rs`, …) |
| `Fields` | `detail/common_properties.rs`, `detail/schema.rs`, `detail/property.rs` and the property types private to single messages: read, write, validate, default for UMP words and for bytes |
| `Messages` | one entry per message declared with `generate_message` with its fields, minimum sizes and data size: utility, system common, channel voice 1 and 2, flex data and stream messages of one packet |
| `MsgOps` | `midi2_proc/src/generate_message.rs`: `try_from`, `new`, `try_new`, `try_new_with_buffer`, getters, setters, `data`, `rebuffer*`, `from_bytes`, `from_ump` … for those entries |
| `Sysex`, `Splice`, `SysexBytes` | `sysex7.rs` (UMP and bytes), `sysex8.rs`, `detail/helpers.rs`: parsing, `payload`, iterators, `resize`, `set_payload`, `splice`, `append`, `insert`, `compact`, `set_payload_byte`, `group`, `stream_id`, `from_bytes`, `from_ump` |
| `Text` | `flex_data/text.rs` and the 18 text messages of `flex_data.rs`, `ump_stream.rs` text helpers with `endpoint_name.rs`, `product_instance_id.rs`, `function_block_name.rs` |
| `Dispatch`, `Enums` | the enums of `message.rs`, `channel_voice1.rs`, … with `derives.rs`: `try_from`, `data`, `packets`, rebuffering, conversion, group, channel |
| `Packet` | `packet.rs`, `packets.rs` and the `packet.rs` of every module |
| `Ci` | `ci/discovery.rs` (`DiscoveryQuery`), `ci/device_id.rs`, `ci/common_properties.rs`, `generate_ci.rs` |
| `Custom` | constructors and setters over buffer types written by the user (`buffer.rs:1-168`): `resize` and `try_resize` are parameters |
| `Derived` | `Debug` and `PartialEq` of messages, aggregates and packets |
| `BitOpsFull`, `FieldsChecked`, `TextChecked` | the bit accessors with their assertions on the index, and the properties, payload bytes, texts and support bits that use them (`detail/bit_ops.rs`, `detail/schema.rs`, `flex_data/text.rs`, `ump_stream.rs`, `ci/discovery.rs`) |
| `Features` | what changes when cargo features are left out (`Cargo.toml:32-44`, the `cfg` attributes) |
| `Refusal` | `try_from` again, with the texts of `error::InvalidData` |
| `Usize` | the functions that compute with `usize`, with the arithmetic as a parameter: unbounded, checked, wrapping |
| `Wrap` | `From<T<B>>` of messages for the enums (`derives.rs`, `message.rs`) |
| `Lazy` | `detail/helpers.rs` again, with every call of the caller's iterator in its place |
| `Programs` | the fuzz targets `fuzz/fuzz_targets/*.rs` and the example programs `examples/*/src/main.rs` |

## Trusted base

* Lean 4.33.0's kernel.
* Axioms: only Lean's standard `propext`, `Classical.choice`, `Quot.sound`.
  No user axioms, no `sorry`, no `native_decide`, no `bv_decide`.
  `AXIOMS.md` lists the axioms theorem by theorem, as printed by Lean.
* That the hand-written model says what the Rust text says (each definition
  cites the lines it models; simplifications are written at the definition).
* The meaning of the Rust primitives used: slices, `chunks`/`chunks_exact`,
  `try_into().unwrap()`, overflow checks (modelled as panics: debug semantics;
  `debug_assert!` is a parameter of the sysex model where it matters), UTF-8
  validation (`core::str::from_utf8` as Lean's `String.fromUTF8?`-style
  decoding, see `Model/Text.lean`), the `ux` integer crate (`uN::new` panics
  when out of range).

## Checking the model

The second item that is trusted, that the model says what the Rust text says,
is checked in two ways besides the citations.

* The crate's own unit tests are replayed on the model.  `replay/` parses the
  test bodies in `/repo/midi2/src` and translates each to a computation of the
  model; `Verif/Check/*.lean` holds the result, one `example` per test.  Of
  the 636 unit tests in files that belong to the crate, 633 are replayed there, and
  all 633 give the outcome the authors expect.  Two more, `octet` and `set_octet` on `u8`,
  are replayed by hand in `Props/BitOpsFull.lean`.  The last one tests
  the size hint of a test helper, which is not modelled.  34 of the 35 code blocks
  of the documentation that compile are replayed as well; the other one only prints.
* `seeded/LOG.jsonl` records deliberate faults put into the model, and which
  theorems notice them.

The replayed tests are bounded checks over literals.  No claim in
`MANIFEST.json` rests on them.

## Not modelled

* Procedural macro expansion itself (the *result* is modelled, uniformly for
  all messages), `Clone` derives, `Debug` of
  errors and property types, trait plumbing, lifetimes, documentation code.
  Cargo features are modelled for the parsers and packets (C65); everything else is the crate
  with all features.
* Files that are not part of the crate's module tree: `ci/old_mod.rs`,
  `ci/property.rs`, `ump_stream/ump_stream_group.rs`.
* User-written buffers whose `buffer()` and `buffer_mut()` disagree, or whose `resize`
  gives less than the requested size (others are modelled, exact or larger, with any filling: C62).
  The constructors (`Model/CustomAny.lean`) and the text setters are modelled for any `resize`
  whatsoever; `new()` of system exclusive and text messages is described for buffers that grow to the
  requested size, with any contents.
* Sizes are natural numbers in the model.  For system exclusive messages, their iterators and
  packets, `Model/Usize.lean` runs the same functions with machine integers, and C66 says when the
  two agree; `Model/UsizeText.lean` does the same for the text messages.  Elsewhere the only
  arithmetic is on constants and lengths of at most four words.
* Memory allocation failure.

## Plan per property

| id | model | proof |
|----|-------|-------|
| C01–C04 | message table: every fixed-size message as a list of fields (type, schema mask / position, validation, default) | generic theorems over fields: read-after-write per field kind; footprint (set of bits) per field; disjointness of footprints checked for the finite table by kernel evaluation, lifted to all buffers and values |
| C05 | `tryFrom` for every message and the dispatchers with explicit `panic` outcome | case analysis; every index used is below the checked minimum length |
| C06 | accessors with explicit `panic` outcome | generic for fixed-size messages; for the violations a concrete witness by evaluation, and for messages of several packets the exact condition (complete last packet) |
| C07 | `tryFrom` | characterisation `ok ↔` independent spec |
| C08 | constructors | generic: write of defaults then validate; `C08_fixed_ump_exactly` decides for every fixed-size type and every UMP buffer between error, panic, valid message, and message that has its defaults but is not valid; `C08_{flex,stream}_text_try_new_with_buffer_exactly` give the packets and the text a new text message has in any buffer; `C08_array_too_small` says that no constructor makes a message in an array below the minimum size |
| C09 | `List` of setter calls | induction on the history |
| C10–C11 | dispatchers | case analysis over nibble/status, per concrete parser |
| C12 | parse + data | footprint is inside the minimum size; for all types `Spec/Follow.lean` states what is tolerated behind a message, proved necessary and sufficient |
| C13 | conversions | generic per field; in closed form (`Spec/ConvertWords.lean`) by comparing with the word, or the bytes, that hold the same bits |
| C14 | buffers | list lemmas |
| C15–C28, C45, C47 | sysex7/sysex8: resize, write_datum, move_payload_tail, compact, splice, iterators | slot view of buffers: payload index ↔ position; refinement to `List` operations; induction |
| C29–C32 | text messages | packetisation spec + induction; what is read back of a text cut at packet borders and freed of zero octets is computed character by character (`Lemmas/Strings.lean`) |
| C33–C34 | packets | `chunks_exact` lemmas |
| C35–C40, C50 | enum codecs | finite bijections + field theorems |
| C41–C42, C44 | bit ops; for C42 the whole trait with its index assertions (`BitOpsFull`) | bit extensionality; for every type, part and index an accessor is the field or panics (on `u8`, `septet` and `octet` ignore the index when reading). `C42_no_assertion_*`: where the crate computes the index (schemas, alterations, payload bytes of system exclusive packets, their moves, zeroing and compaction, texts, support bits of the discovery query), `Model/FieldsChecked.lean` and `Model/TextChecked.lean` run the code with the assertions, and the result is that of the model without. Elsewhere the index is a literal in the source, and in range by inspection |
| C43 | CI discovery query | field theorems over bytes; what the getters return on any buffer follows from those on seven-bit bytes, since they ignore the top bits or panic |
| C46 | buffers | list lemmas |
| C48 | parse loop | induction on the sequence, with the exact condition of C12 at each step; for bytes the converse as well: the reader succeeds only on concatenations of messages |
| C49 | byte parser | case analysis and witnesses |
| C51 | hand-entered wire layout (`Spec/Layout.lean`), independent of the model's masks | per field kind: the value read is the value of the declared bit fields; table check that the declared bit fields are the layout's |
| C52 | `group/setGroup/channel/setChannel` on the derived enums (`Model/Enums.lean`) | a write through the declared bit field changes those bits only; dispatch looks at other bits |
| C53 | `data()` and `try_from` of every type and of the enums | the packets of a message cut out of the slice are the same packets; acceptance of the cut slice from the acceptance theorems (C07); the `_exactly` theorems (ReparseExact.lean) say for every accepted slice whether the cut slice is accepted |
| C54 | constructors, setters, `data()`, `UmpMessage`, `BytesMessage` and the bytes/UMP conversions composed | the history theorems (C09, C47, C30, C31, C43) give the buffer after any history, the dispatch theorems (C10, C11) what the enum makes of it; in arrays, C77 relates the front of the array to the `Vec`, C47's invariant for fixed buffers gives the system exclusive messages, and C73 the texts |
| C55 | `packets()`, the typed packets and the payload iterators | the fields and octets of packet `j` are those of the slice at its place (chunks of the slice); acceptance and payload of packets from C34, payload of the message from C23 |
| C56 | getters and setters of all fixed-size messages; equality of messages is equality of buffers | a value returned by a getter determines the number in the fields of its layout entry (C51 and codes being unique), hence the bits of the property; so a setter leaves bits that do not depend on the buffer; histories by induction, bit by bit; for a cleared note attribute the theorem says which data stay behind; writing back by comparing the fields before and after |
| C57 | all operations on sysex and text messages; wire formats as octet lists | the history invariants of C30, C31 and C47 fix every octet of `data()`: headers, content and padding; octets determine words; a frame argument over the splice (`SxKeeps`) says what the padding of a first packet holds after any history, `C57_sysex_wire_exactly` |
| C58 | the bodies of the three fuzz targets and of the two examples as functions of their input, random draws as parameters | the history invariants of C47 for UMP, exact hints into zeroed bytes for byte messages (C20, C22), totality of parsing (C05), getters (C06, C51), payload (C23) |
| C59 | the flag `dbg` of the model: with and without `debug_assert!` | a relation "equal unless the first panics", closed under bind, checked for each operation and lifted to histories by induction; for text messages the exact outcome of `set_text` on a target with `w`-bit `usize` (C66) does not depend on the flag |
| C60 | the derived `Debug` (`Model/Derived.lean`): digits as `core::fmt` produces and pads them, the loop over units, the standard derive of the aggregates | equality with a fixed-width text of `Spec/Derived.lean`; injectivity of fixed-width digits, separators and name |
| C61 | the derived `PartialEq`: buffers, and for enums also the variant | a history is completed by writing back the unset properties, which changes nothing in a new message; then C56.  Arrays: the message is in front of zero words, which no setter of a property touches.  For any two accepted messages: every bit belongs to a constant, a property or nothing (C51), and a value that is not `None` determines its bits |
| C62 | `resize` and `try_resize` as parameters of the constructors, the splice, and the text setters | the splice laws for any lawful `resize`; for capacities a variant of the splice proof in which the first refused growth ends the operation; octet by octet for texts; buffers larger than requested (`Roomy`) by the splice laws again, with an invariant about what lies behind the message; discovery queries (C43) over them by showing that `resize` writes the bytes that `try_resize` writes; constructors over buffers whose `resize` does anything (`CustomAny`): they panic if the buffer is then too short and are the constructors of C08 on what it holds otherwise; the text setters likewise (`Props/CustomAnyText.lean`), with the exact condition for a panic; that the getters of a new message return their defaults whatever the buffer holds, by writing the properties one after another (`Props/CustomNew.lean`); what is left of the old contents in new system exclusive and text messages (`Props/CustomNewSysex.lean`), and that setting a text leaves nothing of it (`Props/CustomNewText.lean`) |
| C63 | the state of the text iterators, `next` and `size_hint` | the iterator at a position yields the bytes other than zero from there on; induction on the calls |
| C64 | the layout of the published standard as amendments to `Spec/Layout.lean` (`Spec/Standard.lean`; transcribed from memory, no copy in the sandbox) | C51 for the unamended entries; for the five amended ones the fields of both layouts are compared |
| C65 | the parsers of the enums, of the text messages and of packets with a set of features as parameter (`Model/Features.lean`) | case analysis on the message type or status byte, which names the one feature that matters; with and without `std` compared through C07 and a second specification of the accepted slices that leaves the text out |
| C66 | every function of the sysex messages, their iterators and packets again, with the arithmetic as a parameter: exact, checked at 2^w, wrapping at 2^w (`Model/Usize.lean`) | exact arithmetic gives the main model, by unfolding; "equal unless the first panics" between checked and either other, closed under bind; for small operands, "equal unless the exact one panics", with a bound on the result carried along, and for the splice an invariant of its growth loop; text messages likewise (`Model/UsizeText.lean`), where the one multiplication that can overflow is followed to the end |
| C67 | the enums with both levels of variants, the attributes `Via(…)` of all types (`Model/Wrap.lean`) | the attribute table checked against the hand-entered table of headers; the parser with outer variants refines that of C10 and C11 |
| C68 | every `try_from` again with the text of `InvalidData` (`Model/Refusal.lean`) | a list of rules with texts per type (`Spec/Refusal.lean`), the first broken one to blame; without the texts the parsers are those of C05–C12, C33 and C43 |
| C69 | the splice again, with an iterator that answers each call of `next` with an item, `None` or a panic, and the message as it is at the panic (`Model/Lazy.lean`) | the loop runs as with the list of the items until the iterator is asked once more; there the representation of the splice proofs holds, and a buffer that has it is a complete message that can be spliced |
| C70 | the same, with the calls of `next` counted and the turns of the main loop bounded by a number | simulation with the loop on lists; for endless iterators, a run cut off after so many turns depends on finitely many answers only, so it would be that of every long enough list, but those need different numbers of calls |
| C71 | a record kept beside the message by every operation: sizes asked for, moves of the tail, bytes written (`Spec/Effort.lean`) | invariant of the main loop: the step doubles while items are left, so the estimate after `n` refills is `hint + 2^n - 1`; the record is shown to change nothing; on growable buffers the whole record is computed (`Src.work`), and on buffers of fixed size, with the estimates that are refused (`Src.tryWork`) |
| C72 | steps of a journey and what they amount to (`Spec/Journey.lean`): setters for themselves, a translation for setting the group to 0, everything else for nothing; over words also an account of what is behind the message | a relation between the message on its journey and the one that stayed at home (same readings, both accepted), kept by every step; induction over the steps. Over words for every type: the buffer is the message the setters alone make with the accounted words behind it; C12 says which of them a receiver tolerates. Sysex7 (`Spec/SysexJourney.lean`): the packed form of C47 with no further packet of the type behind it is kept by every step. Both kinds with fallible calls in arrays (`Spec/SysexArrays.lean`): the packed form with no partly filled packet and no stream id anywhere in the buffer is kept by every step. Text messages (`Spec/TextJourney.lean`): the buffer holds the text of the last call with room and zeros behind it, also in the words behind the last whole packet, kept by every leg |
| C73 | calls on a text message in a growable buffer or one of fixed size, what each reports and which have room (`Spec/TextHistory.lean`); the function block numbers of the packets as a function of the calls | an invariant kept by every call: before the first text with room nothing of the text has changed, from then on the buffer holds the last one; exact, also about the last octet of C29 and the numbers of C32 |
| C74 | both directions of a gateway as loops over `readBytes`, `convertVec` and the system exclusive conversions (`Spec/Gateway.lean`); the messages of the MIDI 1.0 standard and their packets | each message by the closed form of its conversion (C13, C25), streams by C48; panics exactly for the messages of C13 and C25, standard streams except for the three types of C49 |
| C75 | the receiver a user writes (`Spec/Reassembly.lean`: `step`, `receive`), the sender as a loop over `packets()`, the transport as an inductive relation `Mixed` that takes the next packet of any sender or foreign words | lanes are independent (induction over the slices); the packets of an accepted message have the statuses complete, or start, continue…, end (C28, C34); induction over the messages of a lane |
| C76 | the two readers a user writes (`Spec/Pieces.lean`: `takePackets`/`readPackets`, waiting or not, `takeMessages`/`readMessages`); the packets and messages of a stream are specified apart from them (`PacketsOf`, unique by C34's acceptance) | every stream splits in one way into whole packets and a rest (induction over its length), and the reader's loop follows that split; the pieces by induction, the words left after a piece being the rest of the split.  For messages the beginning of a message, cut at `n` words, is judged packet by packet (`run_take_seqOk`).  DISAGREEMENT: `Packet::try_from` accepts channel voice 2, flex data and stream packets cut short (C34), so a reader that does not wait takes them as they are, filled with zeros (`C76_violation`); `UmpMessage::try_from` accepts a message cut within its last packet if that is not its first, and `data()` then panics (C06).  `C76_packets_exactly`, `C76_message_prefix_exactly` and `C76_messages_exactly` say exactly when.  Over bytes (`Spec/PiecesBytes.lean`) the property holds for every stream (`C76_bytes`) |
| C77 | the writers a user writes (`Spec/Behind.lean`: `writeAll`; `Spec/BehindBytes.lean`: `ByteJob.writeAll`) around the modelled `try_new_with_buffer`, setters and `data()` | the constructor and the setters of a type commute with appending words behind (`initProps_app`, `runSetters_app`); the writers by induction over the messages.  DISAGREEMENT: the constructor of a stream message writes its status into every fourth word behind it and marks stream packets that follow as its continuation; that of a system exclusive message resets the group of packets of the same type that follow, and with 8 bit system exclusive their first byte, and `set_group` changes their group too; song position pointer over bytes writes the byte behind its `data()`.  `C77_stream_exactly`, `C77_sysex_exactly` and `C77_sysex_set_group_exactly` say exactly what changes.  `try_set_payload` with a right size hint writes nothing behind `data()` (`Lemmas/BehindPayload.lean`, step by step through the splice), with one too large it does (`C77_size_hint_violation`, `C77_sysex_set_payload_exactly` for any hint), and a payload that does not fit is spilled over all packets behind before it is dropped (`C77_sysex_set_payload_overflow_exactly`); what was in the array before can come through in the stream ids and top bits of the new message (`C77_old_stream_id_violation`, `C77_old_top_bit_violation`), and in an array of zeros the writer of all kinds (`Spec/BehindMixed.lean`) gives the exact packets.  DISAGREEMENT: setting the text of a flex data text zeroes three of the four words of every whole packet behind it in the array, and setting a name or id zeroes all of them; the constructors and `set_group`, `set_function_block` of texts reach behind the message too (`C77_*_text_*_exactly` and the violations beside them).  The writer is not harmed by this, as it builds front to back |
| C78 | the readers, the receiver and the gateway of C74, C75 and C76 behind each other (`Spec/Link.lean`: `line`; `Arrived` says which messages have arrived, apart from the receiver) | the receiver's state after all packets of a message is irrelevant for what follows (`receive_split`), so messages of all lanes come out in the order sent (`line_all`, induction over the messages); the beginning of a stream of whole packets has exactly the packets that fit into it (`packetsOf_front`), likewise bytes (`bytesOf_front`).  DISAGREEMENT: a reader that does not wait for whole packets gets wrong messages (`C78_greedy_violation`, as C76), and `TimeCode`, `SongPositionPointer` and `TuneRequest` do not pass the gateway (as C74) |
| C79 | `DiscoveryQuery` of C43 over the line of C78, nothing new | a query with nothing behind it is a MIDI 1.0 message (`query_midi1`), so it comes through as in C78 and C25; its values by the history theorem of C43 |
| C80 | a build of any type as data (`Spec/Built.lean`: `Built`, `make`, `Reads`, `Legal`; `ByteBuilt` over bytes) over the line of C78 and the mixed transport of C75 | every build makes a whole message that reads as built (`Built.made`, from the histories of C54), lists of them by induction, then C78 and C75; over bytes `ByteBuilt.made`, then C76 and the gateway of C78 |
| C81 | a reader that goes on behind refused packets by the standard's table of lengths (`Spec/Skip.lean`: `Frame`, `FramesOf`, `Picked`, `skipRead`), and the receiver of C75 behind it | every stream splits into frames in one way, and the reader follows it (induction over the frames, acceptance of C34 does not look behind a frame); then C75, whose senders' packets are frames |
| C82 | what may stand on a MIDI 1.0 cable as an inductive relation, and the application's reader (`Spec/Cable.lean`: `On`, `read`) over the modelled `BytesMessage::try_from` | an invariant relates the reader's bytes to the message on its way, by induction over the cable; every proper prefix of a message is refused (uniqueness of C76); then C78 for the gateway; the top bits by cases over the byte schemas of the message table |
| C83 | the router as a program over the modelled `Packet::try_from`, `group()` and `set_group` of packets (`Spec/Router.lean`: `route`), beside `set_group` of messages (`withGroup`), on the transport of C75 | both setters change the same words of the same chunks, kind by kind; slices of a lane come out on the lane of the new group, and the receiver's theorem of C75 applies to it |
| C84 | the program over the modelled `channel()` and `set_channel` of packets (`Spec/Mapper.lean`: `mapChannel`), beside `set_channel` of the enums (`rechannel`), on the transport of C75 | a write of the `channel` property and the packet's setter give the same first word, from the bits each may change; the lane of a packet does not depend on its channel, so the theorem of C75 applies |
| C85 | a recorder and a player over the modelled API (`Spec/Recorder.lean`: `stamp`, `record`, `play`), on the line of C78 | each stamp is a whole message that holds its ticks (C54), so the line of C78 brings a prefix of the recording's messages; induction on the recording says which events that prefix holds and that adding up the stamps gives the sum of the gaps |
| C86 | a program that asks and one that answers over the modelled API (`Spec/Discovery.lean`: `ask`, `answer`, `learn`), on the line of C78 both ways | every message built holds what was set (C54), the line of C78 brings all messages, those that are not part of the dialogue are left alone |
| C87 | the same for function blocks (`Spec/Blocks.lean`: `askBlocks`, `answerBlocks`, `learnB`), with the request over `[u32; 4]` | request: full table of the 1024 requests; infos by C54, names by C31; the answers by induction on the blocks; the line of C78; the panic of `new()` over a `Vec` as `C87_blocks_violation` |
| C88 | programs that keep a system exclusive message in an array and send it again and again (`Spec/Dump.lean`: `transmit`, `dump`, `gather`) on the line of C78; the words of a new array have stream id 0 (C19) | the invariant of C47 for fixed buffers from round to round, `data()` is accepted and shows the same, the line of C78, induction on the blocks; over bytes with C20 for exact size hints and the cable of C82 |

## Where the code disagrees with the property

Each line is a behaviour of the unchanged code, proved of the model by the
theorem named.  For the rest of the property there is a `_partial` theorem.

| what the code does | theorem |
|--------------------|---------|
| `Sysex7` takes a message for compact after looking at every second packet only; splicing such a message loses and invents bytes | `C21_sysex7_odd_packet_violation`; what splicing does to every message: `C21_splice_exactly`, `C22_try_splice_exactly`; exactly when it is right: `C21_holds_exactly` |
| with debug assertions, splicing a message panics when partly filled stale packets lie behind the packets its payload needs | `C21_debug_assertion_violation`; exactly when: `C21_debug_exactly`, `C22_debug_exactly` |
| `try_set_payload` over stale packets panics with debug assertions | `C20_debug_assertion_violation`; exactly when: `C20_debug_exactly` |
| sysex, flex text and stream text messages with a cut-off last packet are accepted; `data()` and the payload panic | `C06_sysex_truncated_violation`, `C06_flex_text_truncated_violation`, `C06_stream_text_truncated_violation` |
| `Sysex8::set_stream_id` overwrites the first payload byte of every non-empty packet | `C26_violation`, `C26_set_stream_id_exactly` |
| packets added to a `Sysex8` by growth have stream id 0, on fixed buffers whatever was there | `C19_stream_id_violation`; exactly: `C19_sysex8_stream_ids_exactly`, `C20_stream_ids_exactly`, `C28_fixed_stream_ids_partial`, `C28_stream_ids_exactly`; with a size hint that is too low packets that were there lose their id too: `C28_stream_lost_violation`; exactly, with any hint: `C28_any_hint_exactly` |
| the payload iterators of sysex packets repeat bytes, or panic | `C34_violation`; exactly: `C34_sysex7_payload_exactly`, `C34_sysex8_payload_exactly` |
| sysex7 byte messages with the top bit set in the payload are accepted and cannot be read or converted; a conversion into an array says `BufferOverflow` instead when the bytes before the offending one already do not fit | `C06_sysex7_bytes_violation`, `C25_top_bit_violation`, `C25_bytes_to_ump_array_exactly` |
| `size_hint` of a byte payload is always 0, `len()` panics after `nth` went past the end | `C24_bytes_violation`; exactly: `C24_bytes_iterator_exactly` |
| iterators that under-estimate their length corrupt the payload near the capacity of the buffer | `C22_underestimate_violation`, `C69_underestimate_violation`; exactly when and how: `C22_low_hint_exactly` |
| a stale `F7` behind a byte message makes later writes lose payload or panic | `C22_bytes_stale_terminator_violation`, `C20_bytes_stale_terminator_violation`; exactly when, for setting and appending: `C20_bytes_exactly`, `C22_bytes_append_exactly`; not with exact size hints and calls that write at the end of the payload or lengthen it by one byte at most: `C22_bytes_exact_hint_partial`, `C47_bytes_fixed_history_partial`; splices over bytes, exactly: `C21_bytes_end_exactly` (any size hint, range reaching the end), `C21_bytes_exact_hint_exactly`, `C22_bytes_exact_hint_exactly` (exact hint, range ending earlier); never if no `F7` is in reach of the first guess: `C21_bytes_any_hint_partial` |
| an iterator that does not know its size (such as `payload()` of a byte message) and replaces three bytes or more of a byte message in a fixed buffer can lose payload or panic, whatever the room | `C22_bytes_underestimate_violation`; exactly when, if the range reaches the end of the payload: `C22_bytes_end_exactly` |
| `set_payload_byte(payload_size)` overwrites the terminator of a byte message; larger indices write behind the message or panic | `C45_bytes_terminator_violation`; exactly: `C45_past_end_exactly`, `C45_past_end_panics`, `C45_bytes_past_end_exactly` |
| `nth` past the end of a sysex payload panics | `C24_nth_violation`; exactly when: `C24_iterator_exactly` |
| registered per-note controllers: `EffectDepth(5)` cannot be written, named controllers read back as other variants | `C36_violation` |
| `SongPositionPointer` over bytes has minimum size two: constructor, getter, setter and conversions panic, `data()` drops a byte | `C08_constructor_panics`, `C06_song_position_pointer_violation`, `C02_song_position_pointer_violation`, `C13_song_position_pointer_violation`, `C53_song_position_pointer_violation`, `C49_violation` |
| `TuneRequest` in one byte and `TimeCode` in two are refused | `C49_violation`, `C48_bytes_stream_violation` |
| `text()` of a flex text message drops the twelfth octet of the last packet | `C29_multiple_of_12_violation`, `C29_broken_character_violation`, `C14_flex_text_getter_violation` |
| the flex data dispatcher has statuses `0x0110`–`0x0112` for `0x010A`–`0x010C` | `C10_recording_violation` |
| unknown system common messages are refused as "Unknown midi1 channel voice status", unknown stream messages as "Couldn't interpret flex data status / bank fields" | `C68_speaks_violation`; exactly: `C68_ump_stranger`, `C68_bytes_rest` |
| flex data status and bank are validated over the packets that follow the message | `C12_flex_data_violation` |
| `set_optional_channel` of a flex text changes the first packet only | `C40_flex_text_violation`; exactly: `C40_flex_text_exactly` |
| `Flats(0)` panics | `C38_violation` |
| `FunctionBlockDiscovery` has a minimum size of one word | `C08_constructor_panics`, `C10_short_function_block_discovery_violation`, `C33_function_block_discovery_violation` |
| packets added to a `FunctionBlockName` by growth have number 0 | `C32_number_on_growth_violation`; exactly: `C32_number_exactly` |
| MIDI-CI: channel 15 of the device id is rejected; getters panic on eight-bit bytes; short messages in long slices are read past their end; an unknown version panics; dirty buffers leave bits | `C43_device_id_violation`, `C43_getter_violation`, `C43_length_violation`, `C43_unknown_version_violation`, `C43_dirty_buffer_violation` |
| `array_rebuffer_from` panics for a message longer than the array | `C14_array_rebuffer_violation` |
| `array_rebuffer_from` of a byte SongPositionPointer loses the high part of the position | `C14_song_position_pointer_violation` |
| an accepted flex text message moved to a longer array can make `text()` panic: the octet left out before is then looked at | `C14_flex_text_panic_violation` |
| constructors over a dirty buffer leave the packets behind the message, which then belong to it | `C08_dirty_buffer_violation`, `C08_flex_text_dirty_buffer_violation`, `C08_stream_text_dirty_buffer_violation` |
| two sysex, flex data or stream messages in a row are refused | `C48_ump_stream_violation` |
| a begin and an end packet are accepted as one `StartOfClip` (and the like) | `C53_stream_formats_violation` |
| an empty last packet of an accepted `Sysex8` message has the status `UnexpectedEnd` | `C55_empty_end_violation` |
| setting a note attribute and then clearing it leaves the attribute data in the message, which then differs from one that never had it | `C56_stale_attribute_violation` |
| writing back the channel `None` of a flex data message with a reserved address form changes the message | `C56_write_back_violation` |
| replacing a sysex payload by one that fits in a single packet leaves bytes of the earlier payload in the padding of that packet, on the wire and in comparisons | `C57_sysex7_stale_payload_violation`, `C57_sysex8_stale_payload_violation`, exactly `C57_sysex_wire_exactly` |
| the parser accepts sysex7 data octets with the reserved top bit set, and `set_payload` leaves it set | `C57_reserved_bit_violation` |
| messages with the same text, group and channel differ on the wire if the channel was set after the text | `C57_flex_text_channel_violation` |
| the bank of a program change is written least significant septet first; the two flags of per-note management, and of function block discovery, are in exchanged places | `C64_program_bank_violation`, `C64_per_note_management_violation`, `C64_function_block_discovery_violation`; exactly: `C64_program_bank_exactly`, `C64_flags_exactly` |
| chord type 7 suspended 4th and the bass code "same as tonic" are refused | `C64_chord_codes_violation` |
| text messages that are not UTF-8 are accepted without feature `std` and refused with it | `C65_std_violation`; exactly: `C65_std_exactly` |
| without overflow checks, a splice of a range that ends before it begins doubles the bytes in between, `len()` of the payload of a sysex8 packet without stream id is `usize::MAX`, and `nth(usize::MAX)` on the payload of a byte message goes back one byte | `C66_release_violation` |
| a text of 2^(w-2) octets or more that fills its packets: the size `len * 4 / 12` overflows; a release build sets it in a large enough fixed buffer, reports success, and the message is the first packets only; debug builds panic | `C66_flex_text_exactly`, `C66_flex_text_truncated`, `C66_stream_text_exactly` |
| `size_hint` of the text iterators is computed as 12 (14) octets per word, and overflows in debug builds for buffers of 2^w/12 (2^w/14) words: `text()` and `try_from` panic | `C66_flex_text_reads`, `C66_stream_text_reads` |
| the example `handling_messages` panics when handed a sysex7 slice that ends within a packet | `C58_handle_message_violation` |
| `text()` goes on with the octets of packets behind the message | `C53_flex_text_violation`, `C53_stream_text_violation` |
| messages of one type with the same `data()` and the same properties are unequal, and print differently, if another message follows one of them in its slice; so are messages that differ in a reserved bit only | `C61_trailing_words_violation`, `C61_reserved_bits_violation` |
| over user-written buffers, what growth fills in shows: `new()` does not clear it (over bytes its data bytes can then be status bytes; a new system exclusive message can have a payload, a new text message a text), `Sysex8` packets get another stream id, `Sysex7` bytes keep their top bit, `FunctionBlockName` packets get another number | `C62_new_violation`, `C62_new_bytes_violation`, `C62_new_filled_violation`, `C62_new_text_violation`, `C62_sysex8_stream_id_violation`, `C62_sysex7_top_bit_violation`, `C62_function_block_name_violation` |
| over user-written byte buffers a filling of `F7` loses payload or panics; over ones with a capacity `try_set_payload` panics on a message with one byte (the terminator is erased after the buffer was cut), and so does every call that shortens the payload by one byte, or overflows three or four bytes | `C62_bytes_fill_violation`, `C62_bytes_try_violation`, `C62_bytes_try_exactly` |
| a discovery query made over a user-written buffer that is filled with `FF` has a byte of eight bits in its payload | `C62_discovery_violation` |
| `set_text` of a flex data message over a user-written buffer that grows to less than it is asked for cuts the text without a panic, if its last octet still has a word | `C62_flex_text_short_violation` |
| `new()` over a user-written buffer that grows to less than it is asked for can return a message shorter than its minimum size; `new_with_buffer` panics instead | `C62_new_short_violation` |
| over user-written buffers with a capacity, an iterator without a size hint overflows although its items fit | `C62_no_hint_violation` |
| over user-written buffers that are larger than requested, a call panics in debug builds if what lies behind looks like a packet that is not full; over bytes the `F7` of an earlier payload comes back and an insertion loses a byte | `C62_roomy_debug_violation`, `C62_roomy_bytes_violation` |
| `size_hint` of the text byte iterators counts words as packets: its lower bound exceeds the number of bytes for every message | `C63_flex_size_hint_violation`, `C63_stream_size_hint_violation` |
| `BytesMessage::try_from` takes a status byte in the place of a data byte for data: a clock within a note on is read as its velocity | `C82_violation`; exactly: `C82_top_bits_exactly` |
| behind an application that reads a MIDI 1.0 cable byte by byte, a song position pointer comes out without its last byte, and time code quarter frame and tune request do not come out | `C82_length_violation` |
