import Verif.Model.Dispatch
import Verif.Spec.Text

/-!
# Which header belongs to which message type

The tables of the UMP and MIDI 1.0 specifications, entered by hand.
-/

namespace Midi2

/-- Message type, and position, width and value of the status field in the first word. -/
structure Header where
  type : Nat
  pos : Nat
  width : Nat
  code : Nat
deriving DecidableEq

/-- The slice begins with the header. -/
def Header.Of (h : Header) (b : List (BitVec 32)) : Prop :=
  fieldAt b 0 0 4 = some h.type ∧ fieldAt b 0 h.pos h.width = some h.code

/-- M2-104-UM appendix F.1: every message type with its message type and status (bank and
status of flex data). -/
def umpTable : List (UmpKind × Header) := [
  (.fixed Msg.utilNoOp, ⟨0, 8, 4, 0⟩),
  (.fixed Msg.utilClock, ⟨0, 8, 4, 1⟩),
  (.fixed Msg.utilTimestamp, ⟨0, 8, 4, 2⟩),
  (.fixed Msg.utilDeltaClockstampTpq, ⟨0, 8, 4, 3⟩),
  (.fixed Msg.utilDeltaClockstamp, ⟨0, 8, 4, 4⟩),
  (.fixed Msg.sysTimeCode, ⟨1, 8, 8, 0xF1⟩),
  (.fixed Msg.sysSongPositionPointer, ⟨1, 8, 8, 0xF2⟩),
  (.fixed Msg.sysSongSelect, ⟨1, 8, 8, 0xF3⟩),
  (.fixed Msg.sysTuneRequest, ⟨1, 8, 8, 0xF6⟩),
  (.fixed Msg.sysTimingClock, ⟨1, 8, 8, 0xF8⟩),
  (.fixed Msg.sysStart, ⟨1, 8, 8, 0xFA⟩),
  (.fixed Msg.sysContinue, ⟨1, 8, 8, 0xFB⟩),
  (.fixed Msg.sysStop, ⟨1, 8, 8, 0xFC⟩),
  (.fixed Msg.sysActiveSensing, ⟨1, 8, 8, 0xFE⟩),
  (.fixed Msg.sysReset, ⟨1, 8, 8, 0xFF⟩),
  (.fixed Msg.cv1NoteOff, ⟨2, 8, 4, 8⟩),
  (.fixed Msg.cv1NoteOn, ⟨2, 8, 4, 9⟩),
  (.fixed Msg.cv1KeyPressure, ⟨2, 8, 4, 10⟩),
  (.fixed Msg.cv1ControlChange, ⟨2, 8, 4, 11⟩),
  (.fixed Msg.cv1ProgramChange, ⟨2, 8, 4, 12⟩),
  (.fixed Msg.cv1ChannelPressure, ⟨2, 8, 4, 13⟩),
  (.fixed Msg.cv1PitchBend, ⟨2, 8, 4, 14⟩),
  (.sysex .s7, ⟨3, 8, 0, 0⟩),
  (.fixed Msg.cv2RegisteredPerNoteController, ⟨4, 8, 4, 0⟩),
  (.fixed Msg.cv2AssignablePerNoteController, ⟨4, 8, 4, 1⟩),
  (.fixed Msg.cv2RegisteredController, ⟨4, 8, 4, 2⟩),
  (.fixed Msg.cv2AssignableController, ⟨4, 8, 4, 3⟩),
  (.fixed Msg.cv2RelativeRegisteredController, ⟨4, 8, 4, 4⟩),
  (.fixed Msg.cv2RelativeAssignableController, ⟨4, 8, 4, 5⟩),
  (.fixed Msg.cv2PerNotePitchBend, ⟨4, 8, 4, 6⟩),
  (.fixed Msg.cv2NoteOff, ⟨4, 8, 4, 8⟩),
  (.fixed Msg.cv2NoteOn, ⟨4, 8, 4, 9⟩),
  (.fixed Msg.cv2KeyPressure, ⟨4, 8, 4, 10⟩),
  (.fixed Msg.cv2ControlChange, ⟨4, 8, 4, 11⟩),
  (.fixed Msg.cv2ProgramChange, ⟨4, 8, 4, 12⟩),
  (.fixed Msg.cv2ChannelPressure, ⟨4, 8, 4, 13⟩),
  (.fixed Msg.cv2ChannelPitchBend, ⟨4, 8, 4, 14⟩),
  (.fixed Msg.cv2PerNoteManagement, ⟨4, 8, 4, 15⟩),
  (.sysex .s8, ⟨5, 8, 0, 0⟩),
  (.fixed Msg.flexSetTempo, ⟨13, 16, 16, 0x0000⟩),
  (.fixed Msg.flexSetTimeSignature, ⟨13, 16, 16, 0x0001⟩),
  (.fixed Msg.flexSetMetronome, ⟨13, 16, 16, 0x0002⟩),
  (.fixed Msg.flexSetKeySignature, ⟨13, 16, 16, 0x0005⟩),
  (.fixed Msg.flexSetChordName, ⟨13, 16, 16, 0x0006⟩),
  (.flexText ⟨"UnknownMetadataText", 1, 0⟩, ⟨13, 16, 16, 0x0100⟩),
  (.flexText ⟨"ProjectName", 1, 1⟩, ⟨13, 16, 16, 0x0101⟩),
  (.flexText ⟨"CompositionName", 1, 2⟩, ⟨13, 16, 16, 0x0102⟩),
  (.flexText ⟨"MidiClipName", 1, 3⟩, ⟨13, 16, 16, 0x0103⟩),
  (.flexText ⟨"CopyrightNotice", 1, 4⟩, ⟨13, 16, 16, 0x0104⟩),
  (.flexText ⟨"ComposerName", 1, 5⟩, ⟨13, 16, 16, 0x0105⟩),
  (.flexText ⟨"LyricistName", 1, 6⟩, ⟨13, 16, 16, 0x0106⟩),
  (.flexText ⟨"ArrangerName", 1, 7⟩, ⟨13, 16, 16, 0x0107⟩),
  (.flexText ⟨"PublisherName", 1, 8⟩, ⟨13, 16, 16, 0x0108⟩),
  (.flexText ⟨"PrimaryPerformerName", 1, 9⟩, ⟨13, 16, 16, 0x0109⟩),
  (.flexText ⟨"AccompanyingPerformerName", 1, 10⟩, ⟨13, 16, 16, 0x010A⟩),
  (.flexText ⟨"RecordingDate", 1, 11⟩, ⟨13, 16, 16, 0x010B⟩),
  (.flexText ⟨"RecordingLocation", 1, 12⟩, ⟨13, 16, 16, 0x010C⟩),
  (.flexText ⟨"UnknownPerformanceText", 2, 0⟩, ⟨13, 16, 16, 0x0200⟩),
  (.flexText ⟨"Lyrics", 2, 1⟩, ⟨13, 16, 16, 0x0201⟩),
  (.flexText ⟨"LyricsLanguage", 2, 2⟩, ⟨13, 16, 16, 0x0202⟩),
  (.flexText ⟨"Ruby", 2, 3⟩, ⟨13, 16, 16, 0x0203⟩),
  (.flexText ⟨"RubyLanguage", 2, 4⟩, ⟨13, 16, 16, 0x0204⟩),
  (.fixed Msg.streamEndpointDiscovery, ⟨15, 6, 10, 0x000⟩),
  (.fixed Msg.streamEndpointInfo, ⟨15, 6, 10, 0x001⟩),
  (.fixed Msg.streamDeviceIdentity, ⟨15, 6, 10, 0x002⟩),
  (.streamText .endpointName, ⟨15, 6, 10, 0x003⟩),
  (.streamText .productInstanceId, ⟨15, 6, 10, 0x004⟩),
  (.fixed Msg.streamStreamConfigurationRequest, ⟨15, 6, 10, 0x005⟩),
  (.fixed Msg.streamStreamConfigurationNotification, ⟨15, 6, 10, 0x006⟩),
  (.fixed Msg.streamFunctionBlockDiscovery, ⟨15, 6, 10, 0x010⟩),
  (.fixed Msg.streamFunctionBlockInfo, ⟨15, 6, 10, 0x011⟩),
  (.streamText .functionBlockName, ⟨15, 6, 10, 0x012⟩),
  (.fixed Msg.streamStartOfClip, ⟨15, 6, 10, 0x020⟩),
  (.fixed Msg.streamEndOfClip, ⟨15, 6, 10, 0x021⟩)]

/-- The types of the flex data text messages `AccompanyingPerformerName`, `RecordingDate` and
`RecordingLocation`, whose codes the dispatch of `FlexData` gets wrong. -/
def misfiled : List UmpKind := [
  .flexText ⟨"AccompanyingPerformerName", 1, 10⟩, .flexText ⟨"RecordingDate", 1, 11⟩,
  .flexText ⟨"RecordingLocation", 1, 12⟩]

/-- MIDI 1.0 specification: first status byte and one past the last of every message type
over bytes. -/
def bytesTable : List (BytesKind × Nat × Nat) := [
  (.fixed Msg.cv1NoteOff, 0x80, 0x90),
  (.fixed Msg.cv1NoteOn, 0x90, 0xA0),
  (.fixed Msg.cv1KeyPressure, 0xA0, 0xB0),
  (.fixed Msg.cv1ControlChange, 0xB0, 0xC0),
  (.fixed Msg.cv1ProgramChange, 0xC0, 0xD0),
  (.fixed Msg.cv1ChannelPressure, 0xD0, 0xE0),
  (.fixed Msg.cv1PitchBend, 0xE0, 0xF0),
  (.sysex7, 0xF0, 0xF1),
  (.fixed Msg.sysTimeCode, 0xF1, 0xF2),
  (.fixed Msg.sysSongPositionPointer, 0xF2, 0xF3),
  (.fixed Msg.sysSongSelect, 0xF3, 0xF4),
  (.fixed Msg.sysTuneRequest, 0xF6, 0xF7),
  (.fixed Msg.sysTimingClock, 0xF8, 0xF9),
  (.fixed Msg.sysStart, 0xFA, 0xFB),
  (.fixed Msg.sysContinue, 0xFB, 0xFC),
  (.fixed Msg.sysStop, 0xFC, 0xFD),
  (.fixed Msg.sysActiveSensing, 0xFE, 0xFF),
  (.fixed Msg.sysReset, 0xFF, 0x100)]

/-- Bytes of the channel voice and system messages, status byte included, in the MIDI 1.0
specification. -/
def midi1Length : List (Nat × Nat × Nat) := [
  (0x80, 0xC0, 3), (0xC0, 0xE0, 2), (0xE0, 0xF0, 3), (0xF1, 0xF2, 2), (0xF2, 0xF3, 3),
  (0xF3, 0xF4, 2), (0xF6, 0xF7, 1), (0xF8, 0xF9, 1), (0xFA, 0xFD, 1), (0xFE, 0x100, 1)]

/-- The last packet of the message at the front of the slice is there in full.  (Only messages
of several packets can lack a part of it.) -/
def UmpKind.Complete : UmpKind → List (BitVec 32) → Prop
  | .fixed _, _ => True
  | .sysex k, b => k.layout.Untruncated b
  | .flexText _, b => 4 * (FlexText.run b).length ≤ b.length
  | .streamText _, b => 4 * (StreamText.run b).length ≤ b.length

/-- Words in a packet. -/
def UmpKind.packetWords : UmpKind → Nat
  | .fixed d => d.umpSize
  | .sysex k => k.layout.words
  | .flexText _ | .streamText _ => 4

/-- Messages which the parsers recognise by themselves alone. -/
def localKinds : List MsgDesc := Msg.cv1All ++ Msg.cv2All ++ Msg.sysAll ++ Msg.utilAll

/-- A reader of a stream: parse a message at the front, advance by the length of `data()`.
`fuel` bounds the number of messages. -/
def readUmp : (fuel : Nat) → List (BitVec 32) → Res (List (UmpKind × List (BitVec 32)))
  | 0, _ => .ok []
  | n + 1, b =>
    if b.isEmpty then .ok []
    else do
      let x ← UmpMessage.tryFrom b
      let d ← UmpMessage.data x
      let rest ← readUmp n (b.drop d.length)
      return (x.1, d) :: rest

/-- The same over bytes. -/
def readBytes : (fuel : Nat) → List (BitVec 8) → Res (List (BytesKind × List (BitVec 8)))
  | 0, _ => .ok []
  | n + 1, b =>
    if b.isEmpty then .ok []
    else do
      let x ← BytesMessage.tryFrom b
      let d ← BytesMessage.data x
      let rest ← readBytes n (b.drop d.length)
      return (x.1, d) :: rest

end Midi2
