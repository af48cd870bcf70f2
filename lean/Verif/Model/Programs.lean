import Verif.Model.Enums
import Verif.Model.SysexBytes

/-!
# The fuzz targets and the example programs of the repository

`/repo/fuzz/fuzz_targets/*.rs` and `/repo/examples/*/src/main.rs`.  Each is a function of its
input; a failed `assert_eq!`, `unwrap` or `expect` is `panic`.
-/

namespace Midi2

/-! ## Fuzz targets -/

namespace Fuzz

/-- `to_u7` (fuzz_targets/sysex7_payload_roundtrip.rs:7) and `IntoByte::byte`
(generic_sysex_splicing_payloads.rs:46-60). -/
def byte : (k : Sx) → BitVec 8 → k.Byte
  | .s7, b => (b &&& 0x7F).setWidth 7
  | .s8, b => b

/-- `data.iter().map(byte)`: an iterator over a slice knows its length.
(sysex7_payload_roundtrip.rs:6-22, sysex8_payload_roundtrip.rs:6-18.) -/
def src (k : Sx) (data : List (BitVec 8)) : Src k.Byte :=
  ⟨data.map (byte k), data.length, some data.length⟩

/-- The body of `sysex7_payload_roundtrip.rs:6-22` and `sysex8_payload_roundtrip.rs:6-18`. -/
def payloadRoundtrip (k : Sx) (dbg : Bool) (data : List (BitVec 8)) : Res Unit := do
  let message ← k.newVec
  let message ← (k.ops dbg .vec).setPayload message (src k data)
  let payload ← k.payloadList message
  Res.assert (payload == data.map (byte k))
  let buffer ← k.data message
  let _ ← (k.tryFrom buffer).unwrap
  return ()

/-- `Vec::splice(lo..hi, insert)` on the initial data
(generic_sysex_splicing_payloads.rs:89-93); `splice` panics unless `lo ≤ hi ≤ len`. -/
def vecSplice (data insert : List (BitVec 8)) (lo hi : Nat) : Res (List (BitVec 8)) := do
  Res.assert (decide (lo ≤ hi) && decide (hi ≤ data.length))
  return data.take lo ++ insert ++ data.drop hi

/-- The end of `test_case`: the second `let Ok(()) = … else` and the last assertion
(generic_sysex_splicing_payloads.rs:82-94). -/
def spliceCase {S : Type} (k : Sx) (ops : SxOps S k.Byte) (payloadList : S → Res (List k.Byte))
    (message : S) (initial insert : List (BitVec 8)) (lo hi : Nat) : Res Unit := do
  match ← ops.trySplice message (src k insert) (.included lo) (.excluded hi) with
  | (_, some _) => return ()
  | (message, none) => do
    let actual ← payloadList message
    let expected ← vecSplice initial insert lo hi
    Res.assert (actual == expected.map (byte k))

/-- `test_case` (generic_sysex_splicing_payloads.rs:62-95), for a message given by its
operations. -/
def testCase {S : Type} (k : Sx) (ops : SxOps S k.Byte) (payloadList : S → Res (List k.Byte))
    (message : S) (initial insert : List (BitVec 8)) (lo hi : Nat) : Res Unit := do
  match ← ops.trySetPayload message (src k initial) with
  | (_, some _) => return ()
  | (message, none) => do
    let payload ← payloadList message
    Res.assert (payload == initial.map (byte k))
    spliceCase k ops payloadList message initial insert lo hi

/-- The body of `generic_sysex_splicing_payloads.rs:97-137`.  The numbers drawn from the
random generator (`fized_size_buffer_size`, `range`) are parameters.  `FixedSizeBuffer`
(lines 7-35) is a buffer of fixed size filled with zeros, like an array. -/
def splicing (dbg : Bool) (size lo hi : Nat) (initial insert : List (BitVec 8)) : Res Unit := do
  let message ← (Sx.s8.tryNewWithBuffer (List.replicate size 0)).unwrap
  testCase .s8 (Sx.s8.ops dbg .fixed) Sx.s8.payloadList message initial insert lo hi
  let message ← (Sx.s7.tryNewWithBuffer (List.replicate size 0)).unwrap
  testCase .s7 (Sx.s7.ops dbg .fixed) Sx.s7.payloadList message initial insert lo hi
  let message ← (Sxb.tryNewWithBuffer (List.replicate size 0)).unwrap
  testCase .s7 (Sxb.ops .fixed) Sxb.payloadList message initial insert lo hi

end Fuzz

/-! ## Examples -/

namespace Generator

/-- Property `pressure` of `channel_voice1::ChannelPressure`, `note_number` of `NoteOn` and
`control` of `ControlChange` (channel_voice1/channel_pressure.rs:26-31, note_on.rs:26-31,
control_change.rs:26-31). -/
abbrev first : Fld := .hybrid .u7 ⟨0, 0x7F, 0⟩ ⟨0x00007F00, 0, 0, 0⟩

/-- Property `velocity` of `NoteOn` and `control_data` of `ControlChange` (note_on.rs:32-37,
control_change.rs:32-37). -/
abbrev second : Fld := .hybrid .u7 ⟨0, 0, 0x7F⟩ ⟨0x0000007F, 0, 0, 0⟩

/-- The sysex at the end of `generate`, in its 22 bytes
(examples/no_std_dynamic_message_generator/src/main.rs:98-104). -/
def sysex (b : Buf .bytes) : Res (Buf .bytes) := do
  let m ← Sxb.tryNewWithBuffer b
  match ← (Sxb.ops .fixed).trySetPayload m
      ⟨(List.range 20).map (BitVec.ofNat 7), 20, some 20⟩ with
  | (_, some e) => .err e
  | (m, none) => return m

/-- `Generator::generate` (examples/no_std_dynamic_message_generator/src/main.rs:70-110) as a
function of the bytes in the generator's buffer: the messages of the returned iterator, in
order.  `split_at_mut` cuts the buffer into disjoint parts, so each message keeps its own
bytes; the `Buffer` type of the example (lines 7-32) is a view of them, and `rebuffer_from`
does not change them. -/
def generate (b : Buf .bytes) : Res (List (BytesKind × Buf .bytes)) := do
  let cp ← Msg.cv1ChannelPressure.tryNewWithBuffer .bytes (b.take 2)
  let cp ← first.write .bytes cp (0x50 : BitVec 7)
  let note ← Msg.cv1NoteOn.tryNewWithBuffer .bytes ((b.drop 2).take 3)
  let note ← first.write .bytes note (0x38 : BitVec 7)
  let note ← second.write .bytes note (0x20 : BitVec 7)
  let cc ← Msg.cv1ControlChange.tryNewWithBuffer .bytes ((b.drop 5).take 3)
  let cc ← first.write .bytes cc (0x34 : BitVec 7)
  let cc ← second.write .bytes cc (0x2A : BitVec 7)
  let sx ← sysex ((b.drop 8).take 22)
  return [(.fixed Msg.cv1ChannelPressure, cp), (.fixed Msg.cv1NoteOn, note),
    (.fixed Msg.cv1ControlChange, cc), (.sysex7, sx)]

end Generator

namespace Handler

/-- A line printed by `handle_message`. /repo/examples/handling_messages/src/main.rs:3-37. -/
inductive Line where
  | channel (c : BitVec 4)
  | noteOn (note : BitVec 7) (velocity : BitVec 16)
  | noteOff (note : BitVec 7) (velocity : BitVec 16)
  | sysex (payload : List (BitVec 7))
  | error
deriving DecidableEq, Repr

/-- `UmpMessage::try_from` (/repo/midi2/src/message.rs:33-75) with the features of the
example (examples/handling_messages/Cargo.toml): only the channel voice 2 and sysex7 arms are
compiled. -/
def tryFrom (b : Buf .ump) : Res (UmpKind × Buf .ump) :=
  if b.isEmpty then .err .invalidData
  else do
    let t := (U32.nibble (← at' b 0) 0).toNat
    if t = 0x4 ∨ t = 0x3 then UmpMessage.ofType t b else .err .invalidData

/-- Property `note_number` of `channel_voice2::NoteOn` and `NoteOff`
(channel_voice2/note_on.rs:25-26, note_off.rs:25-26). -/
abbrev note : Fld := .schema .u7 ⟨0x00007F00, 0, 0, 0⟩

/-- Property `velocity` of the same (note_on.rs:27-28, note_off.rs:27-28). -/
abbrev velocity : Fld := .schema .u16 ⟨0, 0xFFFF0000, 0, 0⟩

/-- The inner `match` (examples/handling_messages/src/main.rs:7-23). -/
def notes (d : MsgDesc) (b : Buf .ump) : Res (List Line) :=
  if d = Msg.cv2NoteOn then do
    return [.noteOn (← note.read .ump b) (← velocity.read .ump b)]
  else if d = Msg.cv2NoteOff then do
    return [.noteOff (← note.read .ump b) (← velocity.read .ump b)]
  else return []

/-- `handle_message` (examples/handling_messages/src/main.rs:3-36): the lines it prints. -/
def handle (b : Buf .ump) : Res (List Line) :=
  match tryFrom b with
  | .panic => .panic
  | .err _ => .ok [.error]
  | .ok (.fixed d, m) => do
    let c ← ChannelVoice2.channel (d, m)
    return .channel c :: (← notes d m)
  | .ok (.sysex .s7, m) => do return [.sysex (← Sx.s7.payloadList m)]
  | .ok _ => .ok []

end Handler

end Midi2
