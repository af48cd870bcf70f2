import Verif.Model.MsgOps

/-!
# Text messages

The flex data text messages (/repo/midi2/src/flex_data.rs,
/repo/midi2/src/flex_data/text.rs) and the stream text messages
(/repo/midi2/src/ump_stream.rs and ump_stream/{endpoint_name, product_instance_id,
function_block_name}.rs).

A Rust `&str` or `String` is a Lean `String`: both are sequences of Unicode scalar
values held as UTF-8.
-/

namespace Midi2

/-- `str::as_bytes` (std). Used at flex_data/text.rs:20 and ump_stream.rs:201. -/
def strBytes (s : String) : List (BitVec 8) := s.toByteArray.data.toList.map UInt8.toBitVec

/-- `String::from_utf8` (std); the error becomes `InvalidData` at the only use
(text.rs:193-203). -/
def fromUtf8 (bytes : List (BitVec 8)) : Res String :=
  match String.fromUTF8? ⟨(bytes.map UInt8.ofBitVec).toArray⟩ with
  | some s => .ok s
  | none => .err .invalidData

/-- Position of a `TextBytesIterator` (flex text.rs:117-121, ump_stream.rs:252-257); the
buffer and the offset are arguments of the functions. -/
structure TextIt where
  packet : Nat
  byte : Nat
deriving DecidableEq, Repr

/-- A `TextBytesIterator`: `finished`, `value` and the number of bytes per packet.
flex_data/text.rs:117-162, ump_stream.rs:252-298. -/
structure TextSource where
  finished : TextIt → Res Bool
  value : TextIt → Res (BitVec 8)
  /-- `byte_index` which ends the packet in `advance` -/
  cap : Nat

namespace TextSource

/-- `advance` (text.rs:148-155, ump_stream.rs:283-290). -/
def advance (t : TextSource) (it : TextIt) : TextIt :=
  if it.byte + 1 == t.cap then ⟨it.packet + 1, 0⟩ else ⟨it.packet, it.byte + 1⟩

/-- The `while` of `next` (text.rs:126-128, ump_stream.rs:262-264); `fuel` bounds the
number of iterations. -/
def skip (t : TextSource) : Nat → TextIt → Res TextIt
  | 0, it => .ok it
  | fuel + 1, it => do
    if ← t.finished it then return it
    else if (← t.value it) == 0 then t.skip fuel (t.advance it)
    else return it

/-- `next` (text.rs:125-135, ump_stream.rs:261-271). -/
def next (t : TextSource) (fuel : Nat) (it : TextIt) : Res (Option (BitVec 8) × TextIt) := do
  let it ← t.skip fuel it
  if ← t.finished it then return (none, it)
  else return (some (← t.value it), t.advance it)

/-- `collect()` (std): calls `next` until it returns `None`.  `n` bounds the number of
calls, `fuel` the iterations of each. flex_data/text.rs:194, ump_stream.rs:330-333. -/
def collect (t : TextSource) (fuel : Nat) : Nat → TextIt → Res (List (BitVec 8))
  | 0, _ => .ok []
  | n + 1, it => do
    match ← t.next fuel it with
    | (none, _) => return []
    | (some v, it) => return v :: (← t.collect fuel n it)

end TextSource

/-- Number of iterations that suffices for every text in the buffer.
The loop of flex_data/text.rs:126-128 visits every octet of the buffer at most once. -/
def textFuel (b : Buf .ump) : Nat := 4 * b.length + 1

/-! ## Flex data -/

/-- A flex data text message type: the constants given to `BankProperty` and
`StatusProperty`. flex_data.rs:920, 951; the types are listed below. -/
structure FlexText where
  name : String
  bank : BitVec 8
  status : BitVec 8
deriving DecidableEq

namespace FlexText

/-- The flex data text messages with their `BANK` and `STATUS`
(unknown_metadata_text.rs:3, 21-25; flex_data.rs:24-25, 68-69, 112-113, 156-157, 200-201,
244-245, 288-289, 332-333, 376-377, 420-421, 464-465, 508-509, 552-553, 596-597, 640-641,
684-685, 728-729; banks 806-808). -/
def all : List FlexText := [
  ⟨"UnknownMetadataText", 0x1, 0x0⟩,
  ⟨"ProjectName", 0x1, 0x1⟩,
  ⟨"CompositionName", 0x1, 0x2⟩,
  ⟨"MidiClipName", 0x1, 0x3⟩,
  ⟨"CopyrightNotice", 0x1, 0x4⟩,
  ⟨"ComposerName", 0x1, 0x5⟩,
  ⟨"LyricistName", 0x1, 0x6⟩,
  ⟨"ArrangerName", 0x1, 0x7⟩,
  ⟨"PublisherName", 0x1, 0x8⟩,
  ⟨"PrimaryPerformerName", 0x1, 0x9⟩,
  ⟨"AccompanyingPerformerName", 0x1, 0xA⟩,
  ⟨"RecordingDate", 0x1, 0xB⟩,
  ⟨"RecordingLocation", 0x1, 0xC⟩,
  ⟨"UnknownPerformanceText", 0x2, 0x0⟩,
  ⟨"Lyrics", 0x2, 0x1⟩,
  ⟨"LyricsLanguage", 0x2, 0x2⟩,
  ⟨"Ruby", 0x2, 0x3⟩,
  ⟨"RubyLanguage", 0x2, 0x4⟩]

/-- Loop of `TextWriteStrProperty::write` (text.rs:20-31). -/
def writeLoop : List (BitVec 8) → Nat → Nat → Buf .ump → Res (Buf .ump)
  | [], _, _, b => .ok b
  | v :: vs, packet, byte, b => do
    let b ← modifyAt b (packet * 4 + 1 + byte / 4) fun w => U32.setOctet w (byte % 4) v
    if byte == 11 then writeLoop vs (packet + 1) 0 b else writeLoop vs packet (byte + 1) b

/-- `TextWriteStrProperty::write` (text.rs:14-32). -/
def writeText (b : Buf .ump) (s : List (BitVec 8)) : Res (Buf .ump) := writeLoop s 0 0 b

/-- `ump_buffer_size_for_str` (text.rs:64-75). -/
def sizeForStr (n : Nat) : Nat :=
  if n % 12 == 0 then (if n == 0 then 4 else n * 4 / 12) else 4 * (n / 12 + 1)

/-- Body of the loop of `flex_data::clear_payload` (flex_data.rs:1186-1188). -/
def clearPacket (p : Buf .ump) : Buf .ump := p.take 1 ++ [0, 0, 0]

/-- `flex_data::clear_payload` (flex_data.rs:1184-1190). -/
def clearPayload (b : Buf .ump) : Buf .ump := onChunksExact 4 b (List.map clearPacket)

/-- `optional_channel_from_slice` on the first word (flex_data.rs:1052-1058). -/
def channelOf (w : BitVec 32) : Option (BitVec 4) :=
  if U32.crumb w 5 == 0 then some (U32.nibble w 3) else none

/-- `optional_channel_to_slice` on the first word (flex_data.rs:1038-1050). -/
def putChannel (c : Option (BitVec 4)) (w : BitVec 32) : BitVec 32 :=
  match c with
  | some c => U32.setNibble (U32.setCrumb w 5 0) 3 c
  | none => U32.setNibble (U32.setCrumb w 5 1) 3 0

/-- Format written to packet `i` of `n` by `grow_buffer` (text.rs:96-106). -/
def growFormat (n i : Nat) : BitVec 2 :=
  if i == 0 then (if n == 1 then 0 else 1) else if i == n - 1 then 3 else 2

/-- Header written to packet `i` of `n` by `grow_buffer` (text.rs:95-113). -/
def growWord (n i : Nat) (group : BitVec 4) (channel : Option (BitVec 4))
    (bank status : BitVec 8) (w : BitVec 32) : BitVec 32 :=
  let w := U32.setCrumb w 4 (growFormat n i)
  let w := U32.setNibble w 0 0xD
  let w := U32.setNibble w 1 group
  let w := putChannel channel w
  let w := U32.setOctet w 3 status
  U32.setOctet w 2 bank

/-- `grow_buffer` (text.rs:77-115), with its debug assertions. -/
def growBuffer (b : Buf .ump) (size : Nat) : Res (Buf .ump) := do
  Res.assert (size % 4 == 0)
  Res.assert (size != 0)
  let w ← at' b 0
  let n := size / 4
  return onChunksExact 4 b fun cs => cs.zipIdx.map fun (p, i) =>
    if i < n then
      modifyHead0 (growWord n i (U32.nibble w 1) (channelOf w) (U32.octet w 2) (U32.octet w 3)) p
    else p

/-- `set_text` over a resizable buffer (text.rs:42-50, generate_message.rs:185-188). -/
def setText (b : Buf .ump) (s : String) : Res (Buf .ump) := do
  let size := sizeForStr (strBytes s).length
  let b := vecResize b size
  let b ← growBuffer (clearPayload b) size
  writeText b (strBytes s)

/-- `try_set_text` over an array or mutable slice (text.rs:52-61,
generate_message.rs:191-196). -/
def trySetText (b : Buf .ump) (s : String) : Res (Buf .ump) := do
  let size := sizeForStr (strBytes s).length
  let b ← fixedTryResize b size
  let b ← growBuffer (clearPayload b) size
  writeText b (strBytes s)

/-- The `TextBytesIterator` over a buffer (text.rs:144-162).  `finished` subtracts one
from the number of packets: a panic for buffers of less than four words. -/
def source (b : Buf .ump) : TextSource where
  finished it :=
    if b.length / 4 = 0 then .panic
    else .ok (it.packet == b.length / 4 - 1 && it.byte == 11)
  value it := do
    return U32.octet (← at' b (it.packet * 4 + 1 + it.byte / 4)) (it.byte % 4)
  cap := 12

/-- `text_bytes().collect()` (text.rs:170-177). -/
def textBytes (b : Buf .ump) : Res (List (BitVec 8)) :=
  (source b).collect (textFuel b) (textFuel b) ⟨0, 0⟩

/-- `TextReadStringProperty::validate` (text.rs:197-203). -/
def validateText (b : Buf .ump) : Res Unit := do
  let _ ← fromUtf8 (← textBytes b)
  return ()

/-- `text()` (text.rs:193-196). -/
def text (b : Buf .ump) : Res String := do
  (fromUtf8 (← textBytes b)).unwrap

/-- `size_hint` of a new `text_bytes()` iterator (text.rs:137-139). -/
def sizeHint (b : Buf .ump) : Res (Nat × Nat) :=
  if b.length = 0 then .panic else .ok ((b.length - 1) * 12, b.length * 12)

/-- `group()` (flex_data.rs:1128-1130). -/
def group (b : Buf .ump) : Res (BitVec 4) := do return U32.nibble (← at' b 0) 1

/-- `set_group(g)` (flex_data.rs:1138-1146). -/
def setGroup (b : Buf .ump) (g : BitVec 4) : Buf .ump :=
  onChunksExact 4 b fun cs =>
    (cs.takeWhile (fun p => U32.nibble (head0 p) 0 == 0xD#4)).map
      (modifyHead0 fun w => U32.setNibble w 1 g) ++
      cs.dropWhile (fun p => U32.nibble (head0 p) 0 == 0xD#4)

/-- `optional_channel()` (flex_data.rs:1016-1018). -/
def channel (b : Buf .ump) : Res (Option (BitVec 4)) := do return channelOf (← at' b 0)

/-- `set_optional_channel(c)` (flex_data.rs:1025-1029). -/
def setChannel (b : Buf .ump) (c : Option (BitVec 4)) : Res (Buf .ump) :=
  modifyAt b 0 (putChannel c)

/-- `ConsistentFormatsProperty::validate` (flex_data.rs:1106-1118). -/
def validateFormats (b : Buf .ump) : Res Unit :=
  validateStatuses
    (fun p => U32.crumb (head0 p) 4 == 0#2) (fun p => U32.crumb (head0 p) 4 == 1#2)
    (fun p => U32.crumb (head0 p) 4 == 2#2) (fun p => U32.crumb (head0 p) 4 == 3#2)
    4 0xD#4 b

/-- `flex_data_dyn_size` (flex_data.rs:1155-1166). -/
def size (b : Buf .ump) : Res Nat :=
  match (chunksExact 4 b).findIdx? fun p =>
      U32.crumb (head0 p) 4 == 0#2 || U32.crumb (head0 p) 4 == 3#2 with
  | some i => .ok (i * 4 + 4)
  | none => .panic

/-- `data()` (generate_message.rs:328-337). -/
def data (b : Buf .ump) : Res (Buf .ump) := do sliceTo b (← size b)

/-- `packets()` (generate_message.rs:339-350), as the list of yielded slices. -/
def packets (b : Buf .ump) : Res (List (Buf .ump)) := do
  return chunksExact 4 (← data b)

/-- `try_from` (generate_message.rs:352-388): the length and every property which is not
write-only, in order. -/
def tryFrom (t : FlexText) (b : Buf .ump) : Res (Buf .ump) :=
  if b.length < 4 then .err .invalidData
  else do
    (Fld.umpType 0xD).validate32 b
    consistentGroups 4 0xD#4 b
    Fld.flexOptionalChannel.validate32 b
    (Fld.flexBank t.bank).validate32 b
    (Fld.flexStatus t.status).validate32 b
    validateFormats b
    validateText b
    return b

/-- Generated `initialise_property_statements` (generate_message.rs:125-143): defaults of
all properties which are not read-only, in order; the text is `""`. -/
def init (t : FlexText) (b : Buf .ump) : Res (Buf .ump) := do
  let b ← (Fld.umpType 0xD).write32 b ()
  let b := setGroup b 0
  let b ← setChannel b none
  let b ← (Fld.flexBank t.bank).write32 b ()
  let b ← (Fld.flexStatus t.status).write32 b ()
  writeText b []

/-- `new()` on a resizable buffer (generate_message.rs:470-495). -/
def newVec (t : FlexText) : Res (Buf .ump) := t.init (vecResize [] 4)

/-- `new_with_buffer(buffer)` (generate_message.rs:497-525). -/
def newWithBuffer (t : FlexText) (b : Buf .ump) : Res (Buf .ump) :=
  t.init (zeroPrefix (vecResize b 4) 4)

/-- `try_new_with_buffer(buffer)` (generate_message.rs:527-555). -/
def tryNewWithBuffer (t : FlexText) (b : Buf .ump) : Res (Buf .ump) := do
  t.init (zeroPrefix (← fixedTryResize b 4) 4)

/-- Array `new()` (generate_message.rs:557-590); a too small array is a compile error,
represented by `panic`. -/
def newArray (t : FlexText) (n : Nat) : Res (Buf .ump) :=
  if n < 4 then .panic else t.init (List.replicate n 0)

/-- `try_new()` over an array (generate_message.rs:592-617). -/
def tryNew (t : FlexText) (n : Nat) : Res (Buf .ump) := do
  t.init (← fixedTryResize (List.replicate n (0 : BitVec 32)) 4)

end FlexText

/-! ## UMP stream -/

/-- A stream text message type: the constants given to `StatusProperty` and
`TextWriteStrProperty`. ump_stream.rs:117, 186; the types are given below. -/
structure StreamText where
  name : String
  status : BitVec 16
  /-- `OFFSET`: 1 if the function block number sits in front of the text -/
  offset : Nat
deriving DecidableEq

namespace StreamText

/-- `EndpointName` (ump_stream/endpoint_name.rs:3-25). -/
def endpointName : StreamText := ⟨"EndpointName", 0x3, 0⟩

/-- `ProductInstanceId` (ump_stream/product_instance_id.rs:3-25). -/
def productInstanceId : StreamText := ⟨"ProductInstanceId", 0x4, 0⟩

/-- `FunctionBlockName` (ump_stream/function_block_name.rs:8-30). -/
def functionBlockName : StreamText := ⟨"FunctionBlockName", 0x12, 1⟩

/-- The stream text messages.
ump_stream/endpoint_name.rs, ump_stream/product_instance_id.rs,
ump_stream/function_block_name.rs. -/
def all : List StreamText := [endpointName, productInstanceId, functionBlockName]

/-- Loop of `TextWriteStrProperty::write` (ump_stream.rs:201-212). -/
def writeLoop (offset : Nat) : List (BitVec 8) → Nat → Nat → Buf .ump → Res (Buf .ump)
  | [], _, _, b => .ok b
  | v :: vs, packet, byte, b => do
    let b ← modifyAt b (packet * 4 + (byte + 2 + offset) / 4) fun w =>
      U32.setOctet w ((byte + 2 + offset) % 4) v
    if byte == 13 - offset then writeLoop offset vs (packet + 1) 0 b
    else writeLoop offset vs packet (byte + 1) b

/-- `TextWriteStrProperty::write` (ump_stream.rs:195-213). -/
def writeText (offset : Nat) (b : Buf .ump) (s : List (BitVec 8)) : Res (Buf .ump) :=
  writeLoop offset s 0 0 b

/-- `required_buffer_size_for_str` (ump_stream.rs:387-399). -/
def sizeForStr (offset n : Nat) : Nat :=
  let cap := 14 - offset
  if n % cap == 0 then (if n == 0 then 4 else n * 4 / cap) else 4 * (n / cap + 1)

/-- Body of the loop of `clear_payload` (ump_stream.rs:374-383). -/
def clearPacket (offset : Nat) (p : Buf .ump) : Buf .ump :=
  (p.take 1).map (fun w =>
    let w := if offset < 1 then U32.setOctet w 2 0 else w
    if offset < 2 then U32.setOctet w 3 0 else w) ++ [0, 0, 0]

/-- `clear_payload` (ump_stream.rs:371-385), with its debug assertion. -/
def clearPayload (offset : Nat) (b : Buf .ump) : Res (Buf .ump) := do
  Res.assert (decide (offset < 2))
  return onChunksExact 4 b (List.map (clearPacket offset))

/-- `write_message_header_data` (ump_stream.rs:401-416). -/
def writeHeader (b : Buf .ump) (size : Nat) : Res (Buf .ump) := do
  let w ← at' b 0
  let status := streamStatusOf w
  let front ← sliceTo b size
  let front := onChunksExact 4 front
    (List.map (modifyHead0 fun w => setStreamStatus status (U32.setNibble w 0 0xF)))
  let back := onChunksExact 4 (b.drop size) (List.map (modifyHead0 fun _ => 0))
  return front ++ back

/-- `set_name` / `set_id` over a resizable buffer (ump_stream.rs:225-235,
generate_message.rs:185-188). -/
def setText (t : StreamText) (b : Buf .ump) (s : String) : Res (Buf .ump) := do
  let size := sizeForStr t.offset (strBytes s).length
  let b := vecResize b size
  let b ← clearPayload t.offset b
  let b ← writeHeader b size
  let b ← setFormatFields b
  writeText t.offset b (strBytes s)

/-- `try_set_name` / `try_set_id` over an array or mutable slice (ump_stream.rs:237-249,
generate_message.rs:191-196). -/
def trySetText (t : StreamText) (b : Buf .ump) (s : String) : Res (Buf .ump) := do
  let size := sizeForStr t.offset (strBytes s).length
  let b ← fixedTryResize b size
  let b ← clearPayload t.offset b
  let b ← writeHeader b size
  let b ← setFormatFields b
  writeText t.offset b (strBytes s)

/-- The `TextBytesIterator` over a buffer (ump_stream.rs:280-297). -/
def source (offset : Nat) (b : Buf .ump) : TextSource where
  finished it := .ok (decide (b.length / 4 ≤ it.packet))
  value it := do
    return U32.octet (← at' b (it.packet * 4 + (it.byte + 2 + offset) / 4))
      ((it.byte + 2 + offset) % 4)
  cap := 14 - offset

/-- `name_bytes().collect()` / `id_bytes().collect()` (ump_stream.rs:306-318,
function_block_name.rs:90-97). -/
def textBytes (t : StreamText) (b : Buf .ump) : Res (List (BitVec 8)) :=
  (source t.offset b).collect (textFuel b) (textFuel b) ⟨0, 0⟩

/-- `TextReadStringProperty::validate` (ump_stream.rs:334-340,
function_block_name.rs:117-123). -/
def validateText (t : StreamText) (b : Buf .ump) : Res Unit := do
  let _ ← fromUtf8 (← t.textBytes b)
  return ()

/-- `name()` / `id()` (ump_stream.rs:330-333, function_block_name.rs:113-116). -/
def text (t : StreamText) (b : Buf .ump) : Res String := do
  (fromUtf8 (← t.textBytes b)).unwrap

/-- `size_hint` of a new iterator (ump_stream.rs:273-275). -/
def sizeHint (b : Buf .ump) : Res (Nat × Nat) :=
  if b.length = 0 then .panic else .ok ((b.length - 1) * 14, b.length * 14)

/-- `function_block()` (function_block_name.rs:62-65). -/
def block (b : Buf .ump) : Res (BitVec 8) := do return U32.octet (← at' b 0) 2

/-- `set_function_block(n)` (function_block_name.rs:75-80). -/
def setBlock (b : Buf .ump) (n : BitVec 8) : Buf .ump :=
  onChunksExact 4 b (List.map (modifyHead0 fun w => U32.setOctet w 2 n))

/-- `FunctionBlockProperty::validate` (function_block_name.rs:46-61). -/
def validateBlock (b : Buf .ump) : Res Unit := do
  let w ← at' b 0
  Res.check ((chunksExact 4 b).all fun p => U32.octet (head0 p) 2 == U32.octet w 2)

/-- Validation of the function block, for the message which has one
(function_block_name.rs:16-21). -/
def checkBlock (t : StreamText) (b : Buf .ump) : Res Unit :=
  if t.offset = 1 then validateBlock b else .ok ()

/-- `message_size` (ump_stream.rs:418-431). -/
def size (b : Buf .ump) : Res Nat :=
  match (chunksExact 4 b).findIdx? fun p =>
      U32.crumb (head0 p) 2 == 0#2 || U32.crumb (head0 p) 2 == 3#2 with
  | some i => .ok (i * 4 + 4)
  | none => .panic

/-- `data()` (generate_message.rs:328-337). -/
def data (b : Buf .ump) : Res (Buf .ump) := do sliceTo b (← size b)

/-- `packets()` (generate_message.rs:339-350), as the list of yielded slices. -/
def packets (b : Buf .ump) : Res (List (Buf .ump)) := do
  return chunksExact 4 (← data b)

/-- `try_from` (generate_message.rs:352-388): the length and every property which is not
write-only, in order. -/
def tryFrom (t : StreamText) (b : Buf .ump) : Res (Buf .ump) :=
  if b.length < 4 then .err .invalidData
  else do
    (Fld.umpType 0xF).validate32 b
    (Fld.streamStatus t.status).validate32 b
    Fld.streamFormats.validate32 b
    t.checkBlock b
    t.validateText b
    return b

/-- Generated `initialise_property_statements` (generate_message.rs:125-143): defaults of
all properties which are not read-only, in order; the text is `""`. -/
def init (t : StreamText) (b : Buf .ump) : Res (Buf .ump) := do
  let b ← (Fld.umpType 0xF).write32 b ()
  let b ← (Fld.streamStatus t.status).write32 b ()
  let b ← Fld.streamFormats.write32 b ()
  let b := if t.offset = 1 then setBlock b 0 else b
  writeText t.offset b []

/-- `new()` on a resizable buffer (generate_message.rs:470-495). -/
def newVec (t : StreamText) : Res (Buf .ump) := t.init (vecResize [] 4)

/-- `new_with_buffer(buffer)` (generate_message.rs:497-525). -/
def newWithBuffer (t : StreamText) (b : Buf .ump) : Res (Buf .ump) :=
  t.init (zeroPrefix (vecResize b 4) 4)

/-- `try_new_with_buffer(buffer)` (generate_message.rs:527-555). -/
def tryNewWithBuffer (t : StreamText) (b : Buf .ump) : Res (Buf .ump) := do
  t.init (zeroPrefix (← fixedTryResize b 4) 4)

/-- Array `new()` (generate_message.rs:557-590); a too small array is a compile error,
represented by `panic`. -/
def newArray (t : StreamText) (n : Nat) : Res (Buf .ump) :=
  if n < 4 then .panic else t.init (List.replicate n 0)

/-- `try_new()` over an array (generate_message.rs:592-617). -/
def tryNew (t : StreamText) (n : Nat) : Res (Buf .ump) := do
  t.init (← fixedTryResize (List.replicate n (0 : BitVec 32)) 4)

end StreamText

end Midi2
