import Verif.Model.Text
import Verif.Model.SysexBytes

/-!
# The message enums

The enums over groups of message types (/repo/midi2/src/{utility, system_common,
channel_voice1, channel_voice2, flex_data, ump_stream, message}.rs) and the methods
derived for them (/repo/midi2_proc/src/derives.rs).  A value of an enum is the variant and
the buffer of the message.  Of the nested variants of `UmpMessage` and `BytesMessage`
(`UmpMessage::ChannelVoice2(ChannelVoice2::NoteOn(m))`) only the innermost is represented: it
determines the outer ones.
-/

namespace Midi2

/-- A message type over UMP. The types inside `UmpMessage`, /repo/midi2/src/message.rs:14-31. -/
inductive UmpKind where
  | fixed (d : MsgDesc)
  | sysex (k : Sx)
  | flexText (t : FlexText)
  | streamText (t : StreamText)
deriving DecidableEq

/-- A message type over bytes.
The types inside `BytesMessage`, /repo/midi2/src/message.rs:94-101. -/
inductive BytesKind where
  | fixed (d : MsgDesc)
  | sysex7
deriving DecidableEq

/-- `packets()` of sysex messages (generate_message.rs:339-350), as the list of yielded
slices. -/
def Sx.dataPackets (k : Sx) (b : Buf .ump) : Res (List (Buf .ump)) := do
  return chunksExact k.stride (← k.data b)

namespace UmpKind

/-- `T::try_from`. generate_message.rs:352-388 for every type. -/
def tryFrom : UmpKind → Buf .ump → Res (Buf .ump)
  | fixed d, b => d.tryFrom .ump b
  | sysex k, b => k.tryFrom b
  | flexText t, b => t.tryFrom b
  | streamText t, b => t.tryFrom b

/-- `data()`. generate_message.rs:328-337 for every type. -/
def data : UmpKind → Buf .ump → Res (Buf .ump)
  | fixed d, b => d.data .ump b
  | sysex k, b => k.data b
  | flexText _, b => FlexText.data b
  | streamText _, b => StreamText.data b

/-- `packets()`. generate_message.rs:339-350 for every type. -/
def packets : UmpKind → Buf .ump → Res (List (Buf .ump))
  | fixed d, b => d.packets b
  | sysex k, b => k.dataPackets b
  | flexText _, b => FlexText.packets b
  | streamText _, b => StreamText.packets b

end UmpKind

namespace BytesKind

/-- `T::try_from`. generate_message.rs:352-388 for both kinds. -/
def tryFrom : BytesKind → Buf .bytes → Res (Buf .bytes)
  | fixed d, b => d.tryFrom .bytes b
  | sysex7, b => Sxb.tryFrom b

/-- `data()`. generate_message.rs:328-337 for both kinds. -/
def data : BytesKind → Buf .bytes → Res (Buf .bytes)
  | fixed d, b => d.data .bytes b
  | sysex7, b => Sxb.data b

end BytesKind

/-- `match code { C => T::try_from(buffer)?.into(), …, _ => Err(..)? }`.
The shape of message.rs:43-73, message.rs:116-128 and of the `try_from` of each group of
messages, e.g. channel_voice2.rs:76-130. -/
def dispatch {m : Fmt} {κ : Type} (parse : κ → Buf m → Res (Buf m)) (arms : List (Nat × κ))
    (code : Nat) (b : Buf m) : Res (κ × Buf m) :=
  match arms.lookup code with
  | some k => do return (k, ← parse k b)
  | none => .err .invalidData

/-- `utility::Utility` (utility.rs:227-235). -/
def Utility.arms : List (Nat × MsgDesc) := [
  (0x0, Msg.utilNoOp), (0x1, Msg.utilClock), (0x2, Msg.utilTimestamp),
  (0x4, Msg.utilDeltaClockstamp), (0x3, Msg.utilDeltaClockstampTpq)]

/-- `Utility::try_from` (utility.rs:219-238, 240-252). -/
def Utility.tryFrom (b : Buf .ump) : Res (MsgDesc × Buf .ump) :=
  if b.isEmpty then .err .invalidData
  else do
    dispatch (MsgDesc.tryFrom · .ump) Utility.arms (U32.nibble (← at' b 0) 2).toNat b

/-- `system_common::status` (system_common.rs:296-307). -/
def SystemCommon.status : (m : Fmt) → Buf m → Res Nat
  | .ump, b => do return (U32.octet (← at' b 0) 1).toNat
  | .bytes, b => do return (← at' b 0).toNat

/-- `system_common::SystemCommon` (system_common.rs:230-241). -/
def SystemCommon.arms : List (Nat × MsgDesc) := [
  (0xFE, Msg.sysActiveSensing), (0xFB, Msg.sysContinue), (0xFF, Msg.sysReset),
  (0xF2, Msg.sysSongPositionPointer), (0xF3, Msg.sysSongSelect), (0xFA, Msg.sysStart),
  (0xFC, Msg.sysStop), (0xF1, Msg.sysTimeCode), (0xF8, Msg.sysTimingClock),
  (0xF6, Msg.sysTuneRequest)]

/-- `SystemCommon::try_from` (system_common.rs:223-248). -/
def SystemCommon.tryFrom (m : Fmt) (b : Buf m) : Res (MsgDesc × Buf m) :=
  if b.isEmpty then .err .invalidData
  else do dispatch (MsgDesc.tryFrom · m) SystemCommon.arms (← SystemCommon.status m b) b

/-- `channel_voice1::status` (channel_voice1.rs:77-88). -/
def ChannelVoice1.status : (m : Fmt) → Buf m → Res Nat
  | .ump, b => do return (U32.nibble (← at' b 0) 2).toNat
  | .bytes, b => do return (U8.nibble (← at' b 0) 0).toNat

/-- `channel_voice1::ChannelVoice1` (channel_voice1.rs:62-69). -/
def ChannelVoice1.arms : List (Nat × MsgDesc) := [
  (0xD, Msg.cv1ChannelPressure), (0xB, Msg.cv1ControlChange), (0xA, Msg.cv1KeyPressure),
  (0x8, Msg.cv1NoteOff), (0x9, Msg.cv1NoteOn), (0xE, Msg.cv1PitchBend),
  (0xC, Msg.cv1ProgramChange)]

/-- `ChannelVoice1::try_from` (channel_voice1.rs:54-75). -/
def ChannelVoice1.tryFrom (m : Fmt) (b : Buf m) : Res (MsgDesc × Buf m) :=
  if b.isEmpty then .err .invalidData
  else do dispatch (MsgDesc.tryFrom · m) ChannelVoice1.arms (← ChannelVoice1.status m b) b

/-- `channel_voice2::ChannelVoice2` (channel_voice2.rs:87-132). -/
def ChannelVoice2.arms : List (Nat × MsgDesc) := [
  (0x3, Msg.cv2AssignableController), (0x1, Msg.cv2AssignablePerNoteController),
  (0xE, Msg.cv2ChannelPitchBend), (0xD, Msg.cv2ChannelPressure), (0xB, Msg.cv2ControlChange),
  (0xA, Msg.cv2KeyPressure), (0x8, Msg.cv2NoteOff), (0x9, Msg.cv2NoteOn),
  (0xF, Msg.cv2PerNoteManagement), (0x6, Msg.cv2PerNotePitchBend), (0xC, Msg.cv2ProgramChange),
  (0x2, Msg.cv2RegisteredController), (0x0, Msg.cv2RegisteredPerNoteController),
  (0x5, Msg.cv2RelativeAssignableController), (0x4, Msg.cv2RelativeRegisteredController)]

/-- `ChannelVoice2::try_from` (channel_voice2.rs:76-130). -/
def ChannelVoice2.tryFrom (b : Buf .ump) : Res (MsgDesc × Buf .ump) :=
  if b.isEmpty then .err .invalidData
  else do
    dispatch (MsgDesc.tryFrom · .ump) ChannelVoice2.arms (U32.nibble (← at' b 0) 2).toNat b

/-- `flex_data::FlexData` (flex_data.rs:857-890), with the codes written there. -/
def FlexData.arms : List (Nat × UmpKind) := [
  (0x0000, .fixed Msg.flexSetTempo), (0x0001, .fixed Msg.flexSetTimeSignature),
  (0x0002, .fixed Msg.flexSetMetronome), (0x0005, .fixed Msg.flexSetKeySignature),
  (0x0006, .fixed Msg.flexSetChordName),
  (0x0100, .flexText ⟨"UnknownMetadataText", 0x1, 0x0⟩),
  (0x0101, .flexText ⟨"ProjectName", 0x1, 0x1⟩),
  (0x0102, .flexText ⟨"CompositionName", 0x1, 0x2⟩),
  (0x0103, .flexText ⟨"MidiClipName", 0x1, 0x3⟩),
  (0x0104, .flexText ⟨"CopyrightNotice", 0x1, 0x4⟩),
  (0x0105, .flexText ⟨"ComposerName", 0x1, 0x5⟩),
  (0x0106, .flexText ⟨"LyricistName", 0x1, 0x6⟩),
  (0x0107, .flexText ⟨"ArrangerName", 0x1, 0x7⟩),
  (0x0108, .flexText ⟨"PublisherName", 0x1, 0x8⟩),
  (0x0109, .flexText ⟨"PrimaryPerformerName", 0x1, 0x9⟩),
  (0x0110, .flexText ⟨"AccompanyingPerformerName", 0x1, 0xA⟩),
  (0x0111, .flexText ⟨"RecordingDate", 0x1, 0xB⟩),
  (0x0112, .flexText ⟨"RecordingLocation", 0x1, 0xC⟩),
  (0x0200, .flexText ⟨"UnknownPerformanceText", 0x2, 0x0⟩),
  (0x0201, .flexText ⟨"Lyrics", 0x2, 0x1⟩),
  (0x0202, .flexText ⟨"LyricsLanguage", 0x2, 0x2⟩),
  (0x0203, .flexText ⟨"Ruby", 0x2, 0x3⟩),
  (0x0204, .flexText ⟨"RubyLanguage", 0x2, 0x4⟩)]

/-- `FlexData::try_from` (flex_data.rs:848-894). -/
def FlexData.tryFrom (b : Buf .ump) : Res (UmpKind × Buf .ump) :=
  if b.isEmpty then .err .invalidData
  else do dispatch UmpKind.tryFrom FlexData.arms (U32.word (← at' b 0) 1).toNat b

/-- `ump_stream::UmpStream` (ump_stream.rs:79-109). -/
def UmpStream.arms : List (Nat × UmpKind) := [
  (0x2, .fixed Msg.streamDeviceIdentity), (0x21, .fixed Msg.streamEndOfClip),
  (0x0, .fixed Msg.streamEndpointDiscovery), (0x1, .fixed Msg.streamEndpointInfo),
  (0x3, .streamText .endpointName), (0x10, .fixed Msg.streamFunctionBlockDiscovery),
  (0x11, .fixed Msg.streamFunctionBlockInfo), (0x12, .streamText .functionBlockName),
  (0x4, .streamText .productInstanceId), (0x20, .fixed Msg.streamStartOfClip),
  (0x6, .fixed Msg.streamStreamConfigurationNotification),
  (0x5, .fixed Msg.streamStreamConfigurationRequest)]

/-- `UmpStream::try_from` (ump_stream.rs:70-115). -/
def UmpStream.tryFrom (b : Buf .ump) : Res (UmpKind × Buf .ump) :=
  if b.isEmpty then .err .invalidData
  else do dispatch UmpKind.tryFrom UmpStream.arms (streamStatusOf (← at' b 0)).toNat b

/-- A value of an enum over fixed-size messages as a value of `UmpMessage`.
The `into()` at message.rs:43-73. -/
def asUmp (x : MsgDesc × Buf .ump) : UmpKind × Buf .ump := (.fixed x.1, x.2)

/-- A value of an enum over fixed-size messages as a value of `BytesMessage`.
The `into()` at message.rs:116-128. -/
def asBytes (x : MsgDesc × Buf .bytes) : BytesKind × Buf .bytes := (.fixed x.1, x.2)

/-- The body of `UmpMessage::try_from` behind the test for the empty slice
(message.rs:43-73). -/
def UmpMessage.ofType (t : Nat) (b : Buf .ump) : Res (UmpKind × Buf .ump) :=
  match t with
  | 0xD => FlexData.tryFrom b
  | 0x2 => do return asUmp (← ChannelVoice1.tryFrom .ump b)
  | 0x4 => do return asUmp (← ChannelVoice2.tryFrom b)
  | 0x3 => do return (.sysex .s7, ← Sx.s7.tryFrom b)
  | 0x5 => do return (.sysex .s8, ← Sx.s8.tryFrom b)
  | 0x1 => do return asUmp (← SystemCommon.tryFrom .ump b)
  | 0xF => UmpStream.tryFrom b
  | 0x0 => do return asUmp (← Utility.tryFrom b)
  | _ => .err .invalidData

/-- `UmpMessage::try_from` (message.rs:33-75). -/
def UmpMessage.tryFrom (b : Buf .ump) : Res (UmpKind × Buf .ump) :=
  if b.isEmpty then .err .invalidData
  else do UmpMessage.ofType (U32.nibble (← at' b 0) 0).toNat b

/-- The body of `BytesMessage::try_from` behind the test for the empty slice
(message.rs:116-128). -/
def BytesMessage.ofStatus (s : Nat) (b : Buf .bytes) : Res (BytesKind × Buf .bytes) :=
  if 0x80 ≤ s ∧ s ≤ 0xEF then do return asBytes (← ChannelVoice1.tryFrom .bytes b)
  else if s = 0xF0 then do return (.sysex7, ← Sxb.tryFrom b)
  else if (0xF1 ≤ s ∧ s ≤ 0xF6) ∨ (0xF8 ≤ s ∧ s ≤ 0xFF) then do
    return asBytes (← SystemCommon.tryFrom .bytes b)
  else .err .invalidData

/-- `BytesMessage::try_from` (message.rs:108-130). -/
def BytesMessage.tryFrom (b : Buf .bytes) : Res (BytesKind × Buf .bytes) :=
  if b.isEmpty then .err .invalidData
  else do BytesMessage.ofStatus (← at' b 0).toNat b

/-! ## Derived methods -/

/-- `data()` (derives.rs:7-32). -/
def UmpMessage.data (x : UmpKind × Buf .ump) : Res (Buf .ump) := x.1.data x.2

/-- `packets()` (derives.rs:34-55). -/
def UmpMessage.packets (x : UmpKind × Buf .ump) : Res (List (Buf .ump)) := x.1.packets x.2

/-- `data()` (derives.rs:7-32). -/
def BytesMessage.data (x : BytesKind × Buf .bytes) : Res (Buf .bytes) := x.1.data x.2

/-- Conversions of `ChannelVoice1` and `SystemCommon` to the other representation, into a
resizable buffer (derives.rs:57-85, 117-145). -/
def HybridEnum.convertVec (src dst : Fmt) (x : MsgDesc × Buf src) : Res (MsgDesc × Buf dst) := do
  return (x.1, ← x.1.convertVec src dst x.2)

/-- The same into an array (derives.rs:87-115, 147-175). -/
def HybridEnum.tryConvertArray (src dst : Fmt) (size : Nat) (x : MsgDesc × Buf src) :
    Res (MsgDesc × Buf dst) := do
  return (x.1, ← x.1.tryConvertArray src dst size x.2)

/-- `group()` of `ChannelVoice1`, `ChannelVoice2` and `SystemCommon` (derives.rs:329-363,
generate_message.rs:619-644): the property of the variant. -/
def FixedEnum.read (m : Fmt) (n : String) (f : Fld) (x : MsgDesc × Buf m) : Res f.Ty :=
  if (n, f) ∈ x.1.props then f.read m x.2 else .panic

/-- `set_group()` / `set_channel()` of the same enums (derives.rs:329-363, 365-403). -/
def FixedEnum.write (m : Fmt) (n : String) (f : Fld) (v : f.Ty) (x : MsgDesc × Buf m) :
    Res (MsgDesc × Buf m) := do
  if (n, f) ∈ x.1.props then return (x.1, ← f.write m x.2 v) else .panic

/-- `FlexDataMessage::bank` (flex_data.rs:905-913); the `Bank` is represented by its code. -/
def UmpKind.flexBank (k : UmpKind) (b : Buf .ump) : Res Nat := do
  let w ← at' (← k.data b) 0
  let x := ((w &&& 0x0000FF00#32) >>> 8).toNat
  if x ≤ 2 then return x else .panic

/-- `FlexDataMessage::status` (flex_data.rs:914-916). -/
def UmpKind.flexStatus (k : UmpKind) (b : Buf .ump) : Res (BitVec 8) := do
  return U32.octet (← at' (← k.data b) 0) 3

end Midi2
