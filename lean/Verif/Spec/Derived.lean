import Verif.Model.MsgOps

/-!
# What the `Debug` output of a message looks like
-/

namespace Midi2

/-- The hexadecimal digits. -/
def hexAlphabet : List Char :=
  ['0', '1', '2', '3', '4', '5', '6', '7', '8', '9', 'A', 'B', 'C', 'D', 'E', 'F']

/-- Number `x` in exactly `k` hexadecimal digits, most significant first. -/
def hexFixed : (k : Nat) → Nat → List Char
  | 0, _ => []
  | k + 1, x => hexFixed k (x / 16) ++ [hexAlphabet[x % 16]?.getD '?']

/-- How many hexadecimal digits a unit has. -/
def Fmt.hexWidth : Fmt → Nat
  | .ump => 8
  | .bytes => 2

/-- A list of texts with `", "` in between. -/
def commaSeparated : List (List Char) → List Char
  | [] => []
  | [t] => t
  | t :: u :: rest => t ++ [',', ' '] ++ commaSeparated (u :: rest)

/-- A name and, in parentheses, what it holds. -/
def parenthesised (name inner : List Char) : List Char := name ++ "(".toList ++ inner ++ ")".toList

/-- A name and all units of a buffer in hexadecimal. -/
def unitsText (name : List Char) (m : Fmt) (b : Buf m) : List Char :=
  parenthesised name ("[".toList ++
    commaSeparated (b.map fun v => "0x".toList ++ hexFixed m.hexWidth v.toNat) ++ "]".toList)

/-- The variant of `UmpMessage` and of `Packet` for each message type of the UMP standard. -/
def umpGroupName : Nat → List Char
  | 0 => "Utility".toList
  | 1 => "SystemCommon".toList
  | 2 => "ChannelVoice1".toList
  | 3 => "Sysex7".toList
  | 4 => "ChannelVoice2".toList
  | 5 => "Sysex8".toList
  | 0xD => "FlexData".toList
  | 0xF => "UmpStream".toList
  | _ => []

/-- The names of the messages by their message type and the status, or status and bank, that
distinguishes them within it. -/
def umpTypeNames : List (Nat × Nat × String) :=
  [(0, 0, "NoOp"), (0, 1, "Clock"), (0, 2, "Timestamp"), (0, 3, "DeltaClockstampTpq"),
   (0, 4, "DeltaClockstamp"), (1, 0xF1, "TimeCode"), (1, 0xF2, "SongPositionPointer"),
   (1, 0xF3, "SongSelect"), (1, 0xF6, "TuneRequest"), (1, 0xF8, "TimingClock"), (1, 0xFA, "Start"),
   (1, 0xFB, "Continue"), (1, 0xFC, "Stop"), (1, 0xFE, "ActiveSensing"), (1, 0xFF, "Reset"),
   (2, 8, "NoteOff"), (2, 9, "NoteOn"), (2, 0xA, "KeyPressure"), (2, 0xB, "ControlChange"),
   (2, 0xC, "ProgramChange"), (2, 0xD, "ChannelPressure"), (2, 0xE, "PitchBend"), (3, 0, "Sysex7"),
   (4, 0, "RegisteredPerNoteController"), (4, 1, "AssignablePerNoteController"),
   (4, 2, "RegisteredController"), (4, 3, "AssignableController"),
   (4, 4, "RelativeRegisteredController"), (4, 5, "RelativeAssignableController"),
   (4, 6, "PerNotePitchBend"), (4, 8, "NoteOff"), (4, 9, "NoteOn"), (4, 0xA, "KeyPressure"),
   (4, 0xB, "ControlChange"), (4, 0xC, "ProgramChange"), (4, 0xD, "ChannelPressure"),
   (4, 0xE, "ChannelPitchBend"), (4, 0xF, "PerNoteManagement"), (5, 0, "Sysex8"),
   (0xD, 0, "SetTempo"), (0xD, 1, "SetTimeSignature"), (0xD, 2, "SetMetronome"),
   (0xD, 5, "SetKeySignature"), (0xD, 6, "SetChordName"), (0xD, 0x100, "UnknownMetadataText"),
   (0xD, 0x101, "ProjectName"), (0xD, 0x102, "CompositionName"), (0xD, 0x103, "MidiClipName"),
   (0xD, 0x104, "CopyrightNotice"), (0xD, 0x105, "ComposerName"), (0xD, 0x106, "LyricistName"),
   (0xD, 0x107, "ArrangerName"), (0xD, 0x108, "PublisherName"),
   (0xD, 0x109, "PrimaryPerformerName"), (0xD, 0x10A, "AccompanyingPerformerName"),
   (0xD, 0x10B, "RecordingDate"), (0xD, 0x10C, "RecordingLocation"),
   (0xD, 0x200, "UnknownPerformanceText"), (0xD, 0x201, "Lyrics"), (0xD, 0x202, "LyricsLanguage"),
   (0xD, 0x203, "Ruby"), (0xD, 0x204, "RubyLanguage"), (0xF, 0, "EndpointDiscovery"),
   (0xF, 1, "EndpointInfo"), (0xF, 2, "DeviceIdentity"), (0xF, 3, "EndpointName"),
   (0xF, 4, "ProductInstanceId"), (0xF, 5, "StreamConfigurationRequest"),
   (0xF, 6, "StreamConfigurationNotification"), (0xF, 0x10, "FunctionBlockDiscovery"),
   (0xF, 0x11, "FunctionBlockInfo"), (0xF, 0x12, "FunctionBlockName"), (0xF, 0x20, "StartOfClip"),
   (0xF, 0x21, "EndOfClip")]

/-- The name of the messages over bytes with the least status byte `s`. -/
def bytesTypeName : Nat → List Char
  | 0x80 => "NoteOff".toList
  | 0x90 => "NoteOn".toList
  | 0xA0 => "KeyPressure".toList
  | 0xB0 => "ControlChange".toList
  | 0xC0 => "ProgramChange".toList
  | 0xD0 => "ChannelPressure".toList
  | 0xE0 => "PitchBend".toList
  | 0xF1 => "TimeCode".toList
  | 0xF2 => "SongPositionPointer".toList
  | 0xF3 => "SongSelect".toList
  | 0xF6 => "TuneRequest".toList
  | 0xF8 => "TimingClock".toList
  | 0xFA => "Start".toList
  | 0xFB => "Continue".toList
  | 0xFC => "Stop".toList
  | 0xFE => "ActiveSensing".toList
  | 0xFF => "Reset".toList
  | _ => []

end Midi2
