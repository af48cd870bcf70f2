import Verif.Model.Fields

/-!
# The fixed-size messages

One descriptor for each `#[midi2_proc::generate_message(.., FixedSize, ..)]` struct:
its declared minimum sizes and its properties in declaration order.  None of these
structs uses `#[readonly]`, `#[writeonly]` or `#[resize]` properties.  `GroupProperty` and
`ChannelProperty` are the aliases of
/repo/midi2/src/detail/common_properties.rs:95-100 and are expanded.
-/

namespace Midi2

/-- A fixed-size message type: arguments and properties given to the
`generate_message` macro (/repo/midi2_proc/src/generate_message.rs:100-123,
290-309). -/
structure MsgDesc where
  name : String
  /-- `MinSizeUmp(n)` -/
  umpSize : Nat
  /-- `MinSizeBytes(n)`; absent for messages which only exist as UMP -/
  bytesSize : Option Nat
  props : List (String × Fld)
deriving DecidableEq

namespace Msg

/-- `channel_voice1::ChannelPressure`: /repo/midi2/src/channel_voice1/channel_pressure.rs:11-32. -/
def cv1ChannelPressure : MsgDesc where
  name := "channel_voice1::ChannelPressure"
  umpSize := 1
  bytesSize := some 2
  props := [
    ("ump_type", .umpType 0x2),
    ("status", .cvStatus 0xD),
    ("channel", .hybrid .u4 ⟨0x0F, 0, 0⟩ ⟨0x000F0000, 0, 0, 0⟩),
    ("group", .schema .u4 ⟨0x0F000000, 0, 0, 0⟩),
    ("pressure", .hybrid .u7 ⟨0, 0x7F, 0⟩ ⟨0x00007F00, 0, 0, 0⟩)]

/-- `channel_voice1::ControlChange`: /repo/midi2/src/channel_voice1/control_change.rs:11-38. -/
def cv1ControlChange : MsgDesc where
  name := "channel_voice1::ControlChange"
  umpSize := 1
  bytesSize := some 3
  props := [
    ("ump_type", .umpType 0x2),
    ("status", .cvStatus 0xB),
    ("channel", .hybrid .u4 ⟨0x0F, 0, 0⟩ ⟨0x000F0000, 0, 0, 0⟩),
    ("group", .schema .u4 ⟨0x0F000000, 0, 0, 0⟩),
    ("control", .hybrid .u7 ⟨0, 0x7F, 0⟩ ⟨0x00007F00, 0, 0, 0⟩),
    ("control_data", .hybrid .u7 ⟨0, 0, 0x7F⟩ ⟨0x0000007F, 0, 0, 0⟩)]

/-- `channel_voice1::KeyPressure`: /repo/midi2/src/channel_voice1/key_pressure.rs:11-38. -/
def cv1KeyPressure : MsgDesc where
  name := "channel_voice1::KeyPressure"
  umpSize := 1
  bytesSize := some 3
  props := [
    ("ump_type", .umpType 0x2),
    ("status", .cvStatus 0xA),
    ("channel", .hybrid .u4 ⟨0x0F, 0, 0⟩ ⟨0x000F0000, 0, 0, 0⟩),
    ("group", .schema .u4 ⟨0x0F000000, 0, 0, 0⟩),
    ("note_number", .hybrid .u7 ⟨0, 0x7F, 0⟩ ⟨0x00007F00, 0, 0, 0⟩),
    ("pressure", .hybrid .u7 ⟨0, 0, 0x7F⟩ ⟨0x0000007F, 0, 0, 0⟩)]

/-- `channel_voice1::NoteOff`: /repo/midi2/src/channel_voice1/note_off.rs:11-38. -/
def cv1NoteOff : MsgDesc where
  name := "channel_voice1::NoteOff"
  umpSize := 1
  bytesSize := some 3
  props := [
    ("ump_type", .umpType 0x2),
    ("status", .cvStatus 0x8),
    ("channel", .hybrid .u4 ⟨0x0F, 0, 0⟩ ⟨0x000F0000, 0, 0, 0⟩),
    ("group", .schema .u4 ⟨0x0F000000, 0, 0, 0⟩),
    ("note_number", .hybrid .u7 ⟨0, 0x7F, 0⟩ ⟨0x00007F00, 0, 0, 0⟩),
    ("velocity", .hybrid .u7 ⟨0, 0, 0x7F⟩ ⟨0x0000007F, 0, 0, 0⟩)]

/-- `channel_voice1::NoteOn`: /repo/midi2/src/channel_voice1/note_on.rs:11-38. -/
def cv1NoteOn : MsgDesc where
  name := "channel_voice1::NoteOn"
  umpSize := 1
  bytesSize := some 3
  props := [
    ("ump_type", .umpType 0x2),
    ("status", .cvStatus 0x9),
    ("channel", .hybrid .u4 ⟨0x0F, 0, 0⟩ ⟨0x000F0000, 0, 0, 0⟩),
    ("group", .schema .u4 ⟨0x0F000000, 0, 0, 0⟩),
    ("note_number", .hybrid .u7 ⟨0, 0x7F, 0⟩ ⟨0x00007F00, 0, 0, 0⟩),
    ("velocity", .hybrid .u7 ⟨0, 0, 0x7F⟩ ⟨0x0000007F, 0, 0, 0⟩)]

/-- `channel_voice1::PitchBend`: /repo/midi2/src/channel_voice1/pitch_bend.rs:11-32. -/
def cv1PitchBend : MsgDesc where
  name := "channel_voice1::PitchBend"
  umpSize := 1
  bytesSize := some 3
  props := [
    ("ump_type", .umpType 0x2),
    ("status", .cvStatus 0xE),
    ("channel", .hybrid .u4 ⟨0x0F, 0, 0⟩ ⟨0x000F0000, 0, 0, 0⟩),
    ("group", .schema .u4 ⟨0x0F000000, 0, 0, 0⟩),
    ("bend", .hybrid .u14 ⟨0, 0x7F, 0x7F⟩ ⟨0x00007F7F, 0, 0, 0⟩)]

/-- `channel_voice1::ProgramChange`: /repo/midi2/src/channel_voice1/program_change.rs:11-32. -/
def cv1ProgramChange : MsgDesc where
  name := "channel_voice1::ProgramChange"
  umpSize := 1
  bytesSize := some 2
  props := [
    ("ump_type", .umpType 0x2),
    ("status", .cvStatus 0xC),
    ("channel", .hybrid .u4 ⟨0x0F, 0, 0⟩ ⟨0x000F0000, 0, 0, 0⟩),
    ("group", .schema .u4 ⟨0x0F000000, 0, 0, 0⟩),
    ("program", .hybrid .u7 ⟨0, 0x7F, 0⟩ ⟨0x00007F00, 0, 0, 0⟩)]

/-- `channel_voice2::AssignableController`: /repo/midi2/src/channel_voice2/assignable_controller.rs:12-28. -/
def cv2AssignableController : MsgDesc where
  name := "channel_voice2::AssignableController"
  umpSize := 2
  bytesSize := none
  props := [
    ("ump_type", .umpType 0x4),
    ("status", .cvStatus 0x3),
    ("channel", .schema .u4 ⟨0x000F0000, 0, 0, 0⟩),
    ("group", .schema .u4 ⟨0x0F000000, 0, 0, 0⟩),
    ("bank", .schema .u7 ⟨0x00007F00, 0, 0, 0⟩),
    ("index", .schema .u7 ⟨0x0000007F, 0, 0, 0⟩),
    ("controller_data", .schema .u32 ⟨0, 0xFFFFFFFF, 0, 0⟩)]

/-- `channel_voice2::AssignablePerNoteController`: /repo/midi2/src/channel_voice2/assignable_per_note_controller.rs:12-28. -/
def cv2AssignablePerNoteController : MsgDesc where
  name := "channel_voice2::AssignablePerNoteController"
  umpSize := 2
  bytesSize := none
  props := [
    ("ump_type", .umpType 0x4),
    ("status", .cvStatus 0x1),
    ("channel", .schema .u4 ⟨0x000F0000, 0, 0, 0⟩),
    ("group", .schema .u4 ⟨0x0F000000, 0, 0, 0⟩),
    ("note_number", .schema .u7 ⟨0x00007F00, 0, 0, 0⟩),
    ("index", .schema .u8 ⟨0x000000FF, 0, 0, 0⟩),
    ("controller_data", .schema .u32 ⟨0, 0xFFFFFFFF, 0, 0⟩)]

/-- `channel_voice2::ChannelPitchBend`: /repo/midi2/src/channel_voice2/channel_pitch_bend.rs:12-24. -/
def cv2ChannelPitchBend : MsgDesc where
  name := "channel_voice2::ChannelPitchBend"
  umpSize := 2
  bytesSize := none
  props := [
    ("ump_type", .umpType 0x4),
    ("status", .cvStatus 0xE),
    ("channel", .schema .u4 ⟨0x000F0000, 0, 0, 0⟩),
    ("group", .schema .u4 ⟨0x0F000000, 0, 0, 0⟩),
    ("pitch_bend_data", .schema .u32 ⟨0, 0xFFFFFFFF, 0, 0⟩)]

/-- `channel_voice2::ChannelPressure`: /repo/midi2/src/channel_voice2/channel_pressure.rs:12-28. -/
def cv2ChannelPressure : MsgDesc where
  name := "channel_voice2::ChannelPressure"
  umpSize := 2
  bytesSize := none
  props := [
    ("ump_type", .umpType 0x4),
    ("status", .cvStatus 0xD),
    ("channel", .schema .u4 ⟨0x000F0000, 0, 0, 0⟩),
    ("group", .schema .u4 ⟨0x0F000000, 0, 0, 0⟩),
    ("bank", .schema .u7 ⟨0x00007F00, 0, 0, 0⟩),
    ("index", .schema .u7 ⟨0x0000007F, 0, 0, 0⟩),
    ("channel_pressure_data", .schema .u32 ⟨0, 0xFFFFFFFF, 0, 0⟩)]

/-- `channel_voice2::ControlChange`: /repo/midi2/src/channel_voice2/control_change.rs:12-26. -/
def cv2ControlChange : MsgDesc where
  name := "channel_voice2::ControlChange"
  umpSize := 2
  bytesSize := none
  props := [
    ("ump_type", .umpType 0x4),
    ("status", .cvStatus 0xB),
    ("channel", .schema .u4 ⟨0x000F0000, 0, 0, 0⟩),
    ("group", .schema .u4 ⟨0x0F000000, 0, 0, 0⟩),
    ("control", .schema .u7 ⟨0x00007F00, 0, 0, 0⟩),
    ("control_change_data", .schema .u32 ⟨0, 0xFFFFFFFF, 0, 0⟩)]

/-- `channel_voice2::KeyPressure`: /repo/midi2/src/channel_voice2/key_pressure.rs:12-26. -/
def cv2KeyPressure : MsgDesc where
  name := "channel_voice2::KeyPressure"
  umpSize := 2
  bytesSize := none
  props := [
    ("ump_type", .umpType 0x4),
    ("status", .cvStatus 0xA),
    ("channel", .schema .u4 ⟨0x000F0000, 0, 0, 0⟩),
    ("group", .schema .u4 ⟨0x0F000000, 0, 0, 0⟩),
    ("note_number", .schema .u7 ⟨0x00007F00, 0, 0, 0⟩),
    ("key_pressure_data", .schema .u32 ⟨0, 0xFFFFFFFF, 0, 0⟩)]

/-- `channel_voice2::NoteOff`: /repo/midi2/src/channel_voice2/note_off.rs:15-31. -/
def cv2NoteOff : MsgDesc where
  name := "channel_voice2::NoteOff"
  umpSize := 2
  bytesSize := none
  props := [
    ("ump_type", .umpType 0x4),
    ("status", .cvStatus 0x8),
    ("channel", .schema .u4 ⟨0x000F0000, 0, 0, 0⟩),
    ("group", .schema .u4 ⟨0x0F000000, 0, 0, 0⟩),
    ("note_number", .schema .u7 ⟨0x00007F00, 0, 0, 0⟩),
    ("velocity", .schema .u16 ⟨0, 0xFFFF0000, 0, 0⟩),
    ("attribute", .noteAttribute)]

/-- `channel_voice2::NoteOn`: /repo/midi2/src/channel_voice2/note_on.rs:15-31. -/
def cv2NoteOn : MsgDesc where
  name := "channel_voice2::NoteOn"
  umpSize := 2
  bytesSize := none
  props := [
    ("ump_type", .umpType 0x4),
    ("status", .cvStatus 0x9),
    ("channel", .schema .u4 ⟨0x000F0000, 0, 0, 0⟩),
    ("group", .schema .u4 ⟨0x0F000000, 0, 0, 0⟩),
    ("note_number", .schema .u7 ⟨0x00007F00, 0, 0, 0⟩),
    ("velocity", .schema .u16 ⟨0, 0xFFFF0000, 0, 0⟩),
    ("attribute", .noteAttribute)]

/-- `channel_voice2::PerNoteManagement`: /repo/midi2/src/channel_voice2/per_note_management.rs:12-28. -/
def cv2PerNoteManagement : MsgDesc where
  name := "channel_voice2::PerNoteManagement"
  umpSize := 2
  bytesSize := none
  props := [
    ("ump_type", .umpType 0x4),
    ("status", .cvStatus 0xF),
    ("channel", .schema .u4 ⟨0x000F0000, 0, 0, 0⟩),
    ("group", .schema .u4 ⟨0x0F000000, 0, 0, 0⟩),
    ("note_number", .schema .u7 ⟨0x00007F00, 0, 0, 0⟩),
    ("detach", .schema .bool ⟨0x00000001, 0, 0, 0⟩),
    ("reset", .schema .bool ⟨0x00000002, 0, 0, 0⟩)]

/-- `channel_voice2::PerNotePitchBend`: /repo/midi2/src/channel_voice2/per_note_pitch_bend.rs:12-26. -/
def cv2PerNotePitchBend : MsgDesc where
  name := "channel_voice2::PerNotePitchBend"
  umpSize := 2
  bytesSize := none
  props := [
    ("ump_type", .umpType 0x4),
    ("status", .cvStatus 0x6),
    ("channel", .schema .u4 ⟨0x000F0000, 0, 0, 0⟩),
    ("group", .schema .u4 ⟨0x0F000000, 0, 0, 0⟩),
    ("note_number", .schema .u7 ⟨0x00007F00, 0, 0, 0⟩),
    ("pitch_bend_data", .schema .u32 ⟨0, 0xFFFFFFFF, 0, 0⟩)]

/-- `channel_voice2::ProgramChange`: /repo/midi2/src/channel_voice2/program_change.rs:12-26. -/
def cv2ProgramChange : MsgDesc where
  name := "channel_voice2::ProgramChange"
  umpSize := 2
  bytesSize := none
  props := [
    ("ump_type", .umpType 0x4),
    ("status", .cvStatus 0xC),
    ("channel", .schema .u4 ⟨0x000F0000, 0, 0, 0⟩),
    ("group", .schema .u4 ⟨0x0F000000, 0, 0, 0⟩),
    ("program", .schema .u7 ⟨0, 0x7F000000, 0, 0⟩),
    ("bank", .programBank)]

/-- `channel_voice2::RegisteredController`: /repo/midi2/src/channel_voice2/registered_controller.rs:12-28. -/
def cv2RegisteredController : MsgDesc where
  name := "channel_voice2::RegisteredController"
  umpSize := 2
  bytesSize := none
  props := [
    ("ump_type", .umpType 0x4),
    ("status", .cvStatus 0x2),
    ("channel", .schema .u4 ⟨0x000F0000, 0, 0, 0⟩),
    ("group", .schema .u4 ⟨0x0F000000, 0, 0, 0⟩),
    ("bank", .schema .u7 ⟨0x00007F00, 0, 0, 0⟩),
    ("index", .schema .u7 ⟨0x0000007F, 0, 0, 0⟩),
    ("controller_data", .schema .u32 ⟨0, 0xFFFFFFFF, 0, 0⟩)]

/-- `channel_voice2::RegisteredPerNoteController`: /repo/midi2/src/channel_voice2/registered_per_note_controller.rs:12-26. -/
def cv2RegisteredPerNoteController : MsgDesc where
  name := "channel_voice2::RegisteredPerNoteController"
  umpSize := 2
  bytesSize := none
  props := [
    ("ump_type", .umpType 0x4),
    ("status", .cvStatus 0x0),
    ("channel", .schema .u4 ⟨0x000F0000, 0, 0, 0⟩),
    ("group", .schema .u4 ⟨0x0F000000, 0, 0, 0⟩),
    ("note_number", .schema .u7 ⟨0x00007F00, 0, 0, 0⟩),
    ("controller", .controller)]

/-- `channel_voice2::RelativeAssignableController`: /repo/midi2/src/channel_voice2/relative_assignable_controller.rs:12-28. -/
def cv2RelativeAssignableController : MsgDesc where
  name := "channel_voice2::RelativeAssignableController"
  umpSize := 2
  bytesSize := none
  props := [
    ("ump_type", .umpType 0x4),
    ("status", .cvStatus 0x5),
    ("channel", .schema .u4 ⟨0x000F0000, 0, 0, 0⟩),
    ("group", .schema .u4 ⟨0x0F000000, 0, 0, 0⟩),
    ("bank", .schema .u7 ⟨0x00007F00, 0, 0, 0⟩),
    ("index", .schema .u7 ⟨0x0000007F, 0, 0, 0⟩),
    ("controller_data", .schema .u32 ⟨0, 0xFFFFFFFF, 0, 0⟩)]

/-- `channel_voice2::RelativeRegisteredController`: /repo/midi2/src/channel_voice2/relative_registered_controller.rs:12-28. -/
def cv2RelativeRegisteredController : MsgDesc where
  name := "channel_voice2::RelativeRegisteredController"
  umpSize := 2
  bytesSize := none
  props := [
    ("ump_type", .umpType 0x4),
    ("status", .cvStatus 0x4),
    ("channel", .schema .u4 ⟨0x000F0000, 0, 0, 0⟩),
    ("group", .schema .u4 ⟨0x0F000000, 0, 0, 0⟩),
    ("bank", .schema .u7 ⟨0x00007F00, 0, 0, 0⟩),
    ("index", .schema .u7 ⟨0x0000007F, 0, 0, 0⟩),
    ("controller_data", .schema .u32 ⟨0, 0xFFFFFFFF, 0, 0⟩)]

/-- `flex_data::SetChordName`: /repo/midi2/src/flex_data/set_chord_name.rs:12-50. -/
def flexSetChordName : MsgDesc where
  name := "flex_data::SetChordName"
  umpSize := 4
  bytesSize := none
  props := [
    ("ump_type", .umpType 0xD),
    ("group", .schema .u4 ⟨0x0F000000, 0, 0, 0⟩),
    ("optional_channel", .flexOptionalChannel),
    ("format", .flexFormat 0),
    ("bank", .flexBank 0),
    ("status", .flexStatus 0x6),
    ("tonic_sharps_flats", .chordSharpsFlats ⟨0, 0xF0000000, 0, 0⟩),
    ("tonic", .tonic ⟨0, 0x0F000000, 0, 0⟩),
    ("chord_type", .chordType ⟨0, 0x00FF0000, 0, 0⟩),
    ("chord_alteration1", .alteration ⟨0, 0x0000FF00, 0, 0⟩),
    ("chord_alteration2", .alteration ⟨0, 0x000000FF, 0, 0⟩),
    ("chord_alteration3", .alteration ⟨0, 0, 0xFF000000, 0⟩),
    ("chord_alteration4", .alteration ⟨0, 0, 0x00FF0000, 0⟩),
    ("bass_sharps_flats", .chordSharpsFlats ⟨0, 0, 0, 0xF0000000⟩),
    ("bass_note", .tonic ⟨0, 0, 0, 0x0F000000⟩),
    ("bass_chord_type", .chordType ⟨0, 0, 0, 0x00FF0000⟩),
    ("bass_alteration1", .alteration ⟨0, 0, 0, 0x0000FF00⟩),
    ("bass_alteration2", .alteration ⟨0, 0, 0, 0x000000FF⟩)]

/-- `flex_data::SetKeySignature`: /repo/midi2/src/flex_data/set_key_signature.rs:12-30. -/
def flexSetKeySignature : MsgDesc where
  name := "flex_data::SetKeySignature"
  umpSize := 4
  bytesSize := none
  props := [
    ("ump_type", .umpType 0xD),
    ("group", .schema .u4 ⟨0x0F000000, 0, 0, 0⟩),
    ("optional_channel", .flexOptionalChannel),
    ("format", .flexFormat 0),
    ("bank", .flexBank 0),
    ("status", .flexStatus 0x5),
    ("tonic", .tonic ⟨0, 0x0F000000, 0, 0⟩),
    ("sharps_flats", .keySharpsFlats)]

/-- `flex_data::SetMetronome`: /repo/midi2/src/flex_data/set_metronome.rs:11-55. -/
def flexSetMetronome : MsgDesc where
  name := "flex_data::SetMetronome"
  umpSize := 4
  bytesSize := none
  props := [
    ("ump_type", .umpType 0xD),
    ("group", .schema .u4 ⟨0x0F000000, 0, 0, 0⟩),
    ("format", .flexFormat 0),
    ("bank", .flexBank 0),
    ("status", .flexStatus 0x2),
    ("no_channel", .flexNoChannel),
    ("number_of_clocks_per_primary_click", .schema .u8 ⟨0, 0xFF000000, 0, 0⟩),
    ("bar_accent1", .schema .u8 ⟨0, 0x00FF0000, 0, 0⟩),
    ("bar_accent2", .schema .u8 ⟨0, 0x0000FF00, 0, 0⟩),
    ("bar_accent3", .schema .u8 ⟨0, 0x000000FF, 0, 0⟩),
    ("number_of_subdivision_clicks1", .schema .u8 ⟨0, 0, 0xFF000000, 0⟩),
    ("number_of_subdivision_clicks2", .schema .u8 ⟨0, 0, 0x00FF0000, 0⟩)]

/-- `flex_data::SetTempo`: /repo/midi2/src/flex_data/set_tempo.rs:11-30. -/
def flexSetTempo : MsgDesc where
  name := "flex_data::SetTempo"
  umpSize := 4
  bytesSize := none
  props := [
    ("ump_type", .umpType 0xD),
    ("group", .schema .u4 ⟨0x0F000000, 0, 0, 0⟩),
    ("format", .flexFormat 0),
    ("bank", .flexBank 0),
    ("status", .flexStatus 0x0),
    ("no_channel", .flexNoChannel),
    ("number_of_10_nanosecond_units_per_quarter_note", .schema .u32 ⟨0, 0xFFFFFFFF, 0, 0⟩)]

/-- `flex_data::SetTimeSignature`: /repo/midi2/src/flex_data/set_time_signature.rs:11-40. -/
def flexSetTimeSignature : MsgDesc where
  name := "flex_data::SetTimeSignature"
  umpSize := 4
  bytesSize := none
  props := [
    ("ump_type", .umpType 0xD),
    ("group", .schema .u4 ⟨0x0F000000, 0, 0, 0⟩),
    ("format", .flexFormat 0),
    ("bank", .flexBank 0),
    ("status", .flexStatus 0x1),
    ("no_channel", .flexNoChannel),
    ("numerator", .schema .u8 ⟨0, 0xFF000000, 0, 0⟩),
    ("denominator", .schema .u8 ⟨0, 0x00FF0000, 0, 0⟩),
    ("number_of_32nd_notes", .schema .u8 ⟨0, 0x0000FF00, 0, 0⟩)]

/-- `system_common::TuneRequest`: /repo/midi2/src/system_common.rs:19-32. -/
def sysTuneRequest : MsgDesc where
  name := "system_common::TuneRequest"
  umpSize := 1
  bytesSize := some 2
  props := [
    ("ump_type", .umpType 0x1),
    ("status", .sysStatus 0xF6),
    ("group", .schema .u4 ⟨0x0F000000, 0, 0, 0⟩)]

/-- `system_common::TimingClock`: /repo/midi2/src/system_common.rs:43-56. -/
def sysTimingClock : MsgDesc where
  name := "system_common::TimingClock"
  umpSize := 1
  bytesSize := some 1
  props := [
    ("ump_type", .umpType 0x1),
    ("status", .sysStatus 0xF8),
    ("group", .schema .u4 ⟨0x0F000000, 0, 0, 0⟩)]

/-- `system_common::Start`: /repo/midi2/src/system_common.rs:67-80. -/
def sysStart : MsgDesc where
  name := "system_common::Start"
  umpSize := 1
  bytesSize := some 1
  props := [
    ("ump_type", .umpType 0x1),
    ("status", .sysStatus 0xFA),
    ("group", .schema .u4 ⟨0x0F000000, 0, 0, 0⟩)]

/-- `system_common::Continue`: /repo/midi2/src/system_common.rs:91-104. -/
def sysContinue : MsgDesc where
  name := "system_common::Continue"
  umpSize := 1
  bytesSize := some 1
  props := [
    ("ump_type", .umpType 0x1),
    ("status", .sysStatus 0xFB),
    ("group", .schema .u4 ⟨0x0F000000, 0, 0, 0⟩)]

/-- `system_common::Stop`: /repo/midi2/src/system_common.rs:115-128. -/
def sysStop : MsgDesc where
  name := "system_common::Stop"
  umpSize := 1
  bytesSize := some 1
  props := [
    ("ump_type", .umpType 0x1),
    ("status", .sysStatus 0xFC),
    ("group", .schema .u4 ⟨0x0F000000, 0, 0, 0⟩)]

/-- `system_common::ActiveSensing`: /repo/midi2/src/system_common.rs:139-152. -/
def sysActiveSensing : MsgDesc where
  name := "system_common::ActiveSensing"
  umpSize := 1
  bytesSize := some 1
  props := [
    ("ump_type", .umpType 0x1),
    ("status", .sysStatus 0xFE),
    ("group", .schema .u4 ⟨0x0F000000, 0, 0, 0⟩)]

/-- `system_common::Reset`: /repo/midi2/src/system_common.rs:163-176. -/
def sysReset : MsgDesc where
  name := "system_common::Reset"
  umpSize := 1
  bytesSize := some 1
  props := [
    ("ump_type", .umpType 0x1),
    ("status", .sysStatus 0xFF),
    ("group", .schema .u4 ⟨0x0F000000, 0, 0, 0⟩)]

/-- `system_common::SongPositionPointer`: /repo/midi2/src/system_common/song_position_pointer.rs:11-30. -/
def sysSongPositionPointer : MsgDesc where
  name := "system_common::SongPositionPointer"
  umpSize := 1
  bytesSize := some 2
  props := [
    ("ump_type", .umpType 0x1),
    ("status", .sysStatus 0xF2),
    ("group", .schema .u4 ⟨0x0F000000, 0, 0, 0⟩),
    ("position", .hybrid .u14 ⟨0, 0x7F, 0x7F⟩ ⟨0x00007F7F, 0, 0, 0⟩)]

/-- `system_common::SongSelect`: /repo/midi2/src/system_common/song_select.rs:11-30. -/
def sysSongSelect : MsgDesc where
  name := "system_common::SongSelect"
  umpSize := 1
  bytesSize := some 2
  props := [
    ("ump_type", .umpType 0x1),
    ("status", .sysStatus 0xF3),
    ("group", .schema .u4 ⟨0x0F000000, 0, 0, 0⟩),
    ("song", .hybrid .u7 ⟨0, 0x7F, 0⟩ ⟨0x00007F00, 0, 0, 0⟩)]

/-- `system_common::TimeCode`: /repo/midi2/src/system_common/time_code.rs:11-30. -/
def sysTimeCode : MsgDesc where
  name := "system_common::TimeCode"
  umpSize := 1
  bytesSize := some 3
  props := [
    ("ump_type", .umpType 0x1),
    ("status", .sysStatus 0xF1),
    ("group", .schema .u4 ⟨0x0F000000, 0, 0, 0⟩),
    ("time_code", .hybrid .u7 ⟨0, 0x7F, 0⟩ ⟨0x00007F00, 0, 0, 0⟩)]

/-- `ump_stream::DeviceIdentity`: /repo/midi2/src/ump_stream/device_identity.rs:10-26. -/
def streamDeviceIdentity : MsgDesc where
  name := "ump_stream::DeviceIdentity"
  umpSize := 4
  bytesSize := none
  props := [
    ("ump_type", .umpType 0xF),
    ("status", .streamStatus 0x2),
    ("consistent_formats", .streamFormats),
    ("device_manufacturer", .schema .u7x3 ⟨0, 0x007F7F7F, 0, 0⟩),
    ("device_family", .schema .u14 ⟨0, 0, 0x7F7F0000, 0⟩),
    ("device_family_model_number", .schema .u14 ⟨0, 0, 0x00007F7F, 0⟩),
    ("software_version", .schema .u7x4 ⟨0, 0, 0, 0x7F7F7F7F⟩)]

/-- `ump_stream::EndOfClip`: /repo/midi2/src/ump_stream/end_of_clip.rs:5-13. -/
def streamEndOfClip : MsgDesc where
  name := "ump_stream::EndOfClip"
  umpSize := 4
  bytesSize := none
  props := [
    ("ump_type", .umpType 0xF),
    ("status", .streamStatus 0x21),
    ("consistent_formats", .streamFormats)]

/-- `ump_stream::EndpointDiscovery`: /repo/midi2/src/ump_stream/endpoint_discovery.rs:9-31. -/
def streamEndpointDiscovery : MsgDesc where
  name := "ump_stream::EndpointDiscovery"
  umpSize := 4
  bytesSize := none
  props := [
    ("ump_type", .umpType 0xF),
    ("status", .streamStatus 0x0),
    ("consistent_formats", .streamFormats),
    ("ump_version_major", .schema .u8 ⟨0x0000FF00, 0, 0, 0⟩),
    ("ump_version_minor", .schema .u8 ⟨0x000000FF, 0, 0, 0⟩),
    ("request_endpoint_info", .schema .bool ⟨0, 0x00000001, 0, 0⟩),
    ("request_device_identity", .schema .bool ⟨0, 0x00000002, 0, 0⟩),
    ("request_endpoint_name", .schema .bool ⟨0, 0x00000004, 0, 0⟩),
    ("request_product_instance_id", .schema .bool ⟨0, 0x00000008, 0, 0⟩),
    ("request_stream_configuration", .schema .bool ⟨0, 0x00000010, 0, 0⟩)]

/-- `ump_stream::EndpointInfo`: /repo/midi2/src/ump_stream/endpoint_info.rs:10-34. -/
def streamEndpointInfo : MsgDesc where
  name := "ump_stream::EndpointInfo"
  umpSize := 4
  bytesSize := none
  props := [
    ("ump_type", .umpType 0xF),
    ("status", .streamStatus 0x1),
    ("consistent_formats", .streamFormats),
    ("ump_version_major", .schema .u8 ⟨0x0000FF00, 0, 0, 0⟩),
    ("ump_version_minor", .schema .u8 ⟨0x000000FF, 0, 0, 0⟩),
    ("static_function_blocks", .schema .bool ⟨0, 0x80000000, 0, 0⟩),
    ("supports_midi2_protocol", .schema .bool ⟨0, 0x00000200, 0, 0⟩),
    ("supports_midi1_protocol", .schema .bool ⟨0, 0x00000100, 0, 0⟩),
    ("supports_receiving_jr_timestamps", .schema .bool ⟨0, 0x00000002, 0, 0⟩),
    ("supports_sending_jr_timestamps", .schema .bool ⟨0, 0x00000001, 0, 0⟩),
    ("number_of_function_blocks", .schema .u7 ⟨0, 0x7F000000, 0, 0⟩)]

/-- `ump_stream::FunctionBlockDiscovery`: /repo/midi2/src/ump_stream/function_block_discovery.rs:9-24. -/
def streamFunctionBlockDiscovery : MsgDesc where
  name := "ump_stream::FunctionBlockDiscovery"
  umpSize := 1
  bytesSize := none
  props := [
    ("ump_type", .umpType 0xF),
    ("status", .streamStatus 0x10),
    ("consistent_formats", .streamFormats),
    ("function_block_number", .schema .u8 ⟨0x0000FF00, 0, 0, 0⟩),
    ("requesting_function_block_info", .schema .bool ⟨0x00000002, 0, 0, 0⟩),
    ("requesting_function_block_name", .schema .bool ⟨0x00000001, 0, 0, 0⟩)]

/-- `ump_stream::FunctionBlockInfo`: /repo/midi2/src/ump_stream/function_block_info.rs:10-36. -/
def streamFunctionBlockInfo : MsgDesc where
  name := "ump_stream::FunctionBlockInfo"
  umpSize := 4
  bytesSize := none
  props := [
    ("ump_type", .umpType 0xF),
    ("status", .streamStatus 0x11),
    ("consistent_formats", .streamFormats),
    ("active", .schema .bool ⟨0x00008000, 0, 0, 0⟩),
    ("function_block_number", .schema .u7 ⟨0x00007F00, 0, 0, 0⟩),
    ("first_group", .schema .u4 ⟨0, 0x0F000000, 0, 0⟩),
    ("number_of_groups_spanned", .schema .u8 ⟨0, 0x00FF0000, 0, 0⟩),
    ("midi_ci_version", .schema .u8 ⟨0, 0x0000FF00, 0, 0⟩),
    ("max_number_of_midi_ci_streams", .schema .u8 ⟨0, 0x000000FF, 0, 0⟩),
    ("ui_hint", .uiHint),
    ("midi1_port", .midi1Port),
    ("direction", .direction)]

/-- `ump_stream::StartOfClip`: /repo/midi2/src/ump_stream/start_of_clip.rs:5-13. -/
def streamStartOfClip : MsgDesc where
  name := "ump_stream::StartOfClip"
  umpSize := 4
  bytesSize := none
  props := [
    ("ump_type", .umpType 0xF),
    ("status", .streamStatus 0x20),
    ("consistent_formats", .streamFormats)]

/-- `ump_stream::StreamConfigurationNotification`: /repo/midi2/src/ump_stream/stream_configuration_notification.rs:9-23. -/
def streamStreamConfigurationNotification : MsgDesc where
  name := "ump_stream::StreamConfigurationNotification"
  umpSize := 4
  bytesSize := none
  props := [
    ("ump_type", .umpType 0xF),
    ("status", .streamStatus 0x6),
    ("consistent_formats", .streamFormats),
    ("protocol", .schema .u8 ⟨0x0000FF00, 0, 0, 0⟩),
    ("receive_jr_timestamps", .schema .bool ⟨0x00000002, 0, 0, 0⟩),
    ("send_jr_timestamps", .schema .bool ⟨0x00000001, 0, 0, 0⟩)]

/-- `ump_stream::StreamConfigurationRequest`: /repo/midi2/src/ump_stream/stream_configuration_request.rs:9-23. -/
def streamStreamConfigurationRequest : MsgDesc where
  name := "ump_stream::StreamConfigurationRequest"
  umpSize := 4
  bytesSize := none
  props := [
    ("ump_type", .umpType 0xF),
    ("status", .streamStatus 0x5),
    ("consistent_formats", .streamFormats),
    ("protocol", .schema .u8 ⟨0x0000FF00, 0, 0, 0⟩),
    ("receive_jr_timestamps", .schema .bool ⟨0x00000002, 0, 0, 0⟩),
    ("send_jr_timestamps", .schema .bool ⟨0x00000001, 0, 0, 0⟩)]

/-- `utility::NoOp`: /repo/midi2/src/utility.rs:5-13. -/
def utilNoOp : MsgDesc where
  name := "utility::NoOp"
  umpSize := 1
  bytesSize := none
  props := [
    ("ump_type", .umpType 0x0),
    ("status", .cvStatus 0x0),
    ("time_data", .utilData)]

/-- `utility::Clock`: /repo/midi2/src/utility.rs:19-27. -/
def utilClock : MsgDesc where
  name := "utility::Clock"
  umpSize := 1
  bytesSize := none
  props := [
    ("ump_type", .umpType 0x0),
    ("status", .cvStatus 0x1),
    ("time_data", .utilData)]

/-- `utility::Timestamp`: /repo/midi2/src/utility.rs:33-41. -/
def utilTimestamp : MsgDesc where
  name := "utility::Timestamp"
  umpSize := 1
  bytesSize := none
  props := [
    ("ump_type", .umpType 0x0),
    ("status", .cvStatus 0x2),
    ("time_data", .utilData)]

/-- `utility::DeltaClockstamp`: /repo/midi2/src/utility.rs:102-110. -/
def utilDeltaClockstamp : MsgDesc where
  name := "utility::DeltaClockstamp"
  umpSize := 1
  bytesSize := none
  props := [
    ("ump_type", .umpType 0x0),
    ("status", .cvStatus 0x4),
    ("time_data", .u20Data)]

/-- `utility::DeltaClockstampTpq`: /repo/midi2/src/utility.rs:146-154. -/
def utilDeltaClockstampTpq : MsgDesc where
  name := "utility::DeltaClockstampTpq"
  umpSize := 1
  bytesSize := none
  props := [
    ("ump_type", .umpType 0x0),
    ("status", .cvStatus 0x3),
    ("time_data", .utilData)]

/-- Channel voice 1 messages (see the definitions above for the lines).
The variants of `ChannelVoice1`, /repo/midi2/src/channel_voice1.rs. -/
def cv1All : List MsgDesc :=
  [cv1ChannelPressure, cv1ControlChange, cv1KeyPressure, cv1NoteOff, cv1NoteOn, cv1PitchBend,
   cv1ProgramChange]

/-- Channel voice 2 messages (see the definitions above for the lines).
The variants of `ChannelVoice2`, /repo/midi2/src/channel_voice2.rs. -/
def cv2All : List MsgDesc :=
  [cv2AssignableController, cv2AssignablePerNoteController, cv2ChannelPitchBend,
   cv2ChannelPressure, cv2ControlChange, cv2KeyPressure, cv2NoteOff, cv2NoteOn,
   cv2PerNoteManagement, cv2PerNotePitchBend, cv2ProgramChange, cv2RegisteredController,
   cv2RegisteredPerNoteController, cv2RelativeAssignableController,
   cv2RelativeRegisteredController]

/-- Fixed-size flex data messages (see the definitions above for the lines).
The fixed-size variants of `FlexData`, /repo/midi2/src/flex_data.rs. -/
def flexAll : List MsgDesc :=
  [flexSetChordName, flexSetKeySignature, flexSetMetronome, flexSetTempo,
   flexSetTimeSignature]

/-- System common messages (see the definitions above for the lines).
The variants of `SystemCommon`, /repo/midi2/src/system_common.rs. -/
def sysAll : List MsgDesc :=
  [sysTuneRequest, sysTimingClock, sysStart, sysContinue, sysStop, sysActiveSensing, sysReset,
   sysSongPositionPointer, sysSongSelect, sysTimeCode]

/-- Fixed-size UMP stream messages (see the definitions above for the lines).
The fixed-size variants of `UmpStream`, /repo/midi2/src/ump_stream.rs. -/
def streamAll : List MsgDesc :=
  [streamDeviceIdentity, streamEndOfClip, streamEndpointDiscovery, streamEndpointInfo,
   streamFunctionBlockDiscovery, streamFunctionBlockInfo, streamStartOfClip,
   streamStreamConfigurationNotification, streamStreamConfigurationRequest]

/-- Utility messages (see the definitions above for the lines).
The variants of `Utility`, /repo/midi2/src/utility.rs. -/
def utilAll : List MsgDesc :=
  [utilNoOp, utilClock, utilTimestamp, utilDeltaClockstamp, utilDeltaClockstampTpq]

/-- Every fixed-size message type of the crate. (/repo/midi2/src/message.rs:14-31.) -/
def all : List MsgDesc := cv1All ++ cv2All ++ flexAll ++ sysAll ++ streamAll ++ utilAll

/-- The messages existing in both representations.
(/repo/midi2/src/message.rs:94-101, without `Sysex7`.) -/
def hybridAll : List MsgDesc := cv1All ++ sysAll

end Msg

end Midi2
