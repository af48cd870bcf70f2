import Verif.Model.Usize
import Verif.Model.Text

/-!
# Text messages with machine integers

The functions of `Model/Text` which compute with `usize`, with the arithmetic as a parameter as
in `Model/Usize`, and with the debug assertions as another (`dbg`).

Simplifications: `number_of_packets - 1` (text.rs:102) is computed only for packets after the
first one of several and `13 - OFFSET`, `14 - OFFSET` (ump_stream.rs:205, 286, 389) have the
constants 0 and 1 as `OFFSET`, so they cannot go below zero and are those of `Nat`.
-/

namespace Midi2

/-- A `TextBytesIterator` (text.rs:117-162, ump_stream.rs:252-298). -/
structure TextSourceU where
  finished : TextIt → Res Bool
  value : TextIt → Res (BitVec 8)
  advance : TextIt → Res TextIt
  /-- `size_hint` -/
  hint : Res (Nat × Nat)

namespace TextSourceU

/-- The `while` of `next` (text.rs:126-128, ump_stream.rs:262-264). -/
def skip (t : TextSourceU) : Nat → TextIt → Res TextIt
  | 0, it => .ok it
  | fuel + 1, it => do
    if ← t.finished it then return it
    else if (← t.value it) == 0 then t.skip fuel (← t.advance it)
    else return it

/-- `next` (text.rs:125-135, ump_stream.rs:261-271). -/
def next (t : TextSourceU) (fuel : Nat) (it : TextIt) : Res (Option (BitVec 8) × TextIt) := do
  let it ← t.skip fuel it
  if ← t.finished it then return (none, it)
  else return (some (← t.value it), ← t.advance it)

/-- Repeated `next` until `None`.
(std over `next`, flex_data/text.rs:125-135, ump_stream.rs:261-271.) -/
def collect (t : TextSourceU) (fuel : Nat) : Nat → TextIt → Res (List (BitVec 8))
  | 0, _ => .ok []
  | n + 1, it => do
    match ← t.next fuel it with
    | (none, _) => return []
    | (some v, it) => return v :: (← t.collect fuel n it)

/-- `collect()` to a `Vec` (std, `SpecFromIterNested::from_iter`): `next`, then `size_hint` for
the capacity, then the rest.  The allocation is not modelled.
Used at flex_data/text.rs:194, ump_stream.rs:330-333. -/
def collectVec (t : TextSourceU) (fuel n : Nat) (it : TextIt) : Res (List (BitVec 8)) := do
  match ← t.next fuel it with
  | (none, _) => return []
  | (some v, it) => do
    let _ ← t.hint
    return v :: (← t.collect fuel n it)

end TextSourceU

namespace FlexText

/-- Loop of `TextWriteStrProperty::write` (text.rs:20-31). -/
def writeLoopU (A : Arith) : List (BitVec 8) → Nat → Nat → Buf .ump → Res (Buf .ump)
  | [], _, _, b => .ok b
  | v :: vs, packet, byte, b => do
    let i ← A.add (← A.add (← A.mul packet 4) 1) (byte / 4)
    let b ← modifyAt b i fun w => U32.setOctet w (byte % 4) v
    if byte == 11 then writeLoopU A vs (← A.add packet 1) 0 b
    else writeLoopU A vs packet (← A.add byte 1) b

/-- `ump_buffer_size_for_str` (text.rs:64-75). -/
def sizeForStrU (A : Arith) (n : Nat) : Res Nat :=
  if n % 12 == 0 then
    (if n == 0 then .ok 4 else do return (← A.mul n 4) / 12)
  else do A.mul 4 (← A.add (n / 12) 1)

/-- `grow_buffer` (text.rs:77-115). -/
def growBufferU (dbg : Bool) (b : Buf .ump) (size : Nat) : Res (Buf .ump) := do
  Res.assert (!dbg || size % 4 == 0)
  Res.assert (!dbg || size != 0)
  let w ← at' b 0
  let n := size / 4
  return onChunksExact 4 b fun cs => cs.zipIdx.map fun (p, i) =>
    if i < n then
      modifyHead0 (growWord n i (U32.nibble w 1) (channelOf w) (U32.octet w 2) (U32.octet w 3)) p
    else p

/-- `set_text` over a resizable buffer (text.rs:42-50, generate_message.rs:185-188). -/
def setTextU (A : Arith) (dbg : Bool) (b : Buf .ump) (s : String) : Res (Buf .ump) := do
  let size ← sizeForStrU A (strBytes s).length
  let b := vecResize b size
  let b ← growBufferU dbg (clearPayload b) size
  writeLoopU A (strBytes s) 0 0 b

/-- `try_set_text` over an array or mutable slice (text.rs:52-61,
generate_message.rs:191-196). -/
def trySetTextU (A : Arith) (dbg : Bool) (b : Buf .ump) (s : String) : Res (Buf .ump) := do
  let size ← sizeForStrU A (strBytes s).length
  let b ← fixedTryResize b size
  let b ← growBufferU dbg (clearPayload b) size
  writeLoopU A (strBytes s) 0 0 b

/-- The `TextBytesIterator` over a buffer (text.rs:137-161). -/
def sourceU (A : Arith) (b : Buf .ump) : TextSourceU where
  finished it := do
    let last ← A.sub (b.length / 4) 1
    return it.packet == last && it.byte == 11
  value it := do
    let i ← A.add (← A.add (← A.mul it.packet 4) 1) (it.byte / 4)
    return U32.octet (← at' b i) (it.byte % 4)
  advance it := do
    let j ← A.add it.byte 1
    if j == 12 then return ⟨← A.add it.packet 1, 0⟩ else return ⟨it.packet, j⟩
  hint := do
    let lower ← A.mul (← A.sub b.length 1) 12
    return (lower, ← A.mul b.length 12)

/-- `text_bytes().collect()` (text.rs:170-177). -/
def textBytesU (A : Arith) (b : Buf .ump) : Res (List (BitVec 8)) :=
  (sourceU A b).collectVec (textFuel b) (4 * b.length) ⟨0, 0⟩

/-- `text()` (text.rs:193-196). -/
def textU (A : Arith) (b : Buf .ump) : Res String := do
  (fromUtf8 (← textBytesU A b)).unwrap

/-- `try_from` (generate_message.rs:352-388, text.rs:197-203). -/
def tryFromU (A : Arith) (t : FlexText) (b : Buf .ump) : Res (Buf .ump) :=
  if b.length < 4 then .err .invalidData
  else do
    (Fld.umpType 0xD).validate32 b
    consistentGroups 4 0xD#4 b
    Fld.flexOptionalChannel.validate32 b
    (Fld.flexBank t.bank).validate32 b
    (Fld.flexStatus t.status).validate32 b
    validateFormats b
    let _ ← fromUtf8 (← textBytesU A b)
    return b

/-- `flex_data_dyn_size` (flex_data.rs:1155-1166). -/
def sizeU (A : Arith) (b : Buf .ump) : Res Nat :=
  match (chunksExact 4 b).findIdx? fun p =>
      U32.crumb (head0 p) 4 == 0#2 || U32.crumb (head0 p) 4 == 3#2 with
  | some i => do A.add (← A.mul i 4) 4
  | none => .panic

/-- `data()` (generate_message.rs:328-337). -/
def dataU (A : Arith) (b : Buf .ump) : Res (Buf .ump) := do sliceTo b (← sizeU A b)

end FlexText

namespace StreamText

/-- Loop of `TextWriteStrProperty::write` (ump_stream.rs:201-212). -/
def writeLoopU (A : Arith) (offset : Nat) :
    List (BitVec 8) → Nat → Nat → Buf .ump → Res (Buf .ump)
  | [], _, _, b => .ok b
  | v :: vs, packet, byte, b => do
    let j ← A.add (← A.add byte 2) offset
    let i ← A.add (← A.mul packet 4) (j / 4)
    let b ← modifyAt b i fun w => U32.setOctet w (j % 4) v
    if byte == 13 - offset then writeLoopU A offset vs (← A.add packet 1) 0 b
    else writeLoopU A offset vs packet (← A.add byte 1) b

/-- `required_buffer_size_for_str` (ump_stream.rs:387-399). -/
def sizeForStrU (A : Arith) (offset n : Nat) : Res Nat :=
  let cap := 14 - offset
  if n % cap == 0 then
    (if n == 0 then .ok 4 else do return (← A.mul n 4) / cap)
  else do A.mul 4 (← A.add (n / cap) 1)

/-- `clear_payload` (ump_stream.rs:371-385). -/
def clearPayloadU (dbg : Bool) (offset : Nat) (b : Buf .ump) : Res (Buf .ump) := do
  Res.assert (!dbg || decide (offset < 2))
  return onChunksExact 4 b (List.map (clearPacket offset))

/-- `set_name` / `set_id` over a resizable buffer (ump_stream.rs:225-235,
generate_message.rs:185-188). -/
def setTextU (A : Arith) (dbg : Bool) (t : StreamText) (b : Buf .ump) (s : String) :
    Res (Buf .ump) := do
  let size ← sizeForStrU A t.offset (strBytes s).length
  let b := vecResize b size
  let b ← clearPayloadU dbg t.offset b
  let b ← writeHeader b size
  let b ← setFormatFields b
  writeLoopU A t.offset (strBytes s) 0 0 b

/-- `try_set_name` / `try_set_id` over an array or mutable slice (ump_stream.rs:237-249,
generate_message.rs:191-196). -/
def trySetTextU (A : Arith) (dbg : Bool) (t : StreamText) (b : Buf .ump) (s : String) :
    Res (Buf .ump) := do
  let size ← sizeForStrU A t.offset (strBytes s).length
  let b ← fixedTryResize b size
  let b ← clearPayloadU dbg t.offset b
  let b ← writeHeader b size
  let b ← setFormatFields b
  writeLoopU A t.offset (strBytes s) 0 0 b

/-- The `TextBytesIterator` over a buffer (ump_stream.rs:273-297). -/
def sourceU (A : Arith) (offset : Nat) (b : Buf .ump) : TextSourceU where
  finished it := .ok (decide (b.length / 4 ≤ it.packet))
  value it := do
    let j ← A.add (← A.add it.byte 2) offset
    let i ← A.add (← A.mul it.packet 4) (j / 4)
    return U32.octet (← at' b i) (j % 4)
  advance it := do
    let j ← A.add it.byte 1
    if j == 14 - offset then return ⟨← A.add it.packet 1, 0⟩ else return ⟨it.packet, j⟩
  hint := do
    let lower ← A.mul (← A.sub b.length 1) 14
    return (lower, ← A.mul b.length 14)

/-- `name_bytes().collect()` / `id_bytes().collect()` (ump_stream.rs:306-318,
function_block_name.rs:92-104). -/
def textBytesU (A : Arith) (t : StreamText) (b : Buf .ump) : Res (List (BitVec 8)) :=
  (sourceU A t.offset b).collectVec (textFuel b) (4 * b.length) ⟨0, 0⟩

/-- `name()` / `id()` (ump_stream.rs:330-333, function_block_name.rs:113-116). -/
def textU (A : Arith) (t : StreamText) (b : Buf .ump) : Res String := do
  (fromUtf8 (← textBytesU A t b)).unwrap

/-- `try_from` (generate_message.rs:352-388, ump_stream.rs:334-340,
function_block_name.rs:120-126). -/
def tryFromU (A : Arith) (t : StreamText) (b : Buf .ump) : Res (Buf .ump) :=
  if b.length < 4 then .err .invalidData
  else do
    (Fld.umpType 0xF).validate32 b
    (Fld.streamStatus t.status).validate32 b
    Fld.streamFormats.validate32 b
    t.checkBlock b
    let _ ← fromUtf8 (← textBytesU A t b)
    return b

/-- `message_size` (ump_stream.rs:418-431). -/
def sizeU (A : Arith) (b : Buf .ump) : Res Nat :=
  match (chunksExact 4 b).findIdx? fun p =>
      U32.crumb (head0 p) 2 == 0#2 || U32.crumb (head0 p) 2 == 3#2 with
  | some i => do A.add (← A.mul i 4) 4
  | none => .panic

/-- `data()` (generate_message.rs:328-337). -/
def dataU (A : Arith) (b : Buf .ump) : Res (Buf .ump) := do sliceTo b (← sizeU A b)

end StreamText

end Midi2
