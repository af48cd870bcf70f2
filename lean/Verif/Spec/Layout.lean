import Verif.Spec.Legal

/-!
# Wire layout of the fixed-size messages

For every message: its length, the constant fields that identify it and the place of
every property, as (unit, first bit counted from the most significant, number of bits),
most significant piece first.  Entered by hand from the UMP format tables, not derived
from the code's schema masks.  In three messages it follows the crate's own unit tests
where, to our knowledge, the UMP specification differs: see `Verif/Spec/Standard.lean`.
-/

namespace Midi2

/-- Layout of one message type in one representation. -/
structure Layout where
  name : String
  /-- length in units (32-bit words or bytes) -/
  words : Nat
  /-- (unit, position, width, value) -/
  consts : List (Nat × Nat × Nat × Nat)
  props : List (String × List (Nat × Nat × Nat))

/-- The number formed by several fields, most significant first. -/
def valueOf (b : List (BitVec 32)) : List (Nat × Nat × Nat) → Nat → Option Nat
  | [], acc => some acc
  | (w, p, n) :: ps, acc => do
    let x ← fieldAt b w p n
    valueOf b ps (acc * 2 ^ n + x)

/-- Field of a byte buffer. -/
def fieldAt8 (b : List (BitVec 8)) (i pos width : Nat) : Option Nat :=
  (b[i]?).map fun x => x.toNat / 2 ^ (8 - pos - width) % 2 ^ width

/-- The number formed by several fields of a byte buffer, most significant first. -/
def valueOf8 (b : List (BitVec 8)) : List (Nat × Nat × Nat) → Nat → Option Nat
  | [], acc => some acc
  | (w, p, n) :: ps, acc => do
    let x ← fieldAt8 b w p n
    valueOf8 b ps (acc * 2 ^ n + x)

/-- Index of a registered per-note controller. -/
def Codes.controllerIndex : Controller → Nat
  | .modulation _ => 1 | .breath _ => 2 | .pitch7_25 _ => 3 | .volume _ => 7 | .balance _ => 8
  | .pan _ => 10 | .expression _ => 11
  | .soundVariation _ => 70 | .timbre _ => 71 | .releaseTime _ => 72 | .attackTime _ => 73
  | .brightness _ => 74 | .decayTime _ => 75 | .vebratoRate _ => 76 | .vebratoDepth _ => 77
  | .vebratoDelay _ => 78 | .undefined _ => 79
  | .reverbSendLevel _ => 91 | .chorusSendLevel _ => 93
  | .soundController i _ => 69 + i.toNat
  | .effectDepth i _ => 90 + i.toNat

/-- Data word of a registered per-note controller. -/
def Codes.controllerData : Controller → Nat
  | .modulation d | .breath d | .pitch7_25 d | .volume d | .balance d | .pan d | .expression d
  | .soundVariation d | .timbre d | .releaseTime d | .attackTime d | .brightness d
  | .decayTime d | .vebratoRate d | .vebratoDepth d | .vebratoDelay d | .undefined d
  | .reverbSendLevel d | .chorusSendLevel d | .soundController _ d | .effectDepth _ d => d.toNat

/-- The number `k` on the wire denotes the value `v` of a numeric property. -/
def Rep.Denotes : (r : Rep) → Nat → r.Ty → Prop
  | .bool, k, v => v = decide (k = 1) ∧ k ≤ 1
  | .u4, k, v => k = v.toNat
  | .u7, k, v => k = v.toNat
  | .u8, k, v => k = v.toNat
  | .u14, k, v => k = v.toNat
  | .u16, k, v => k = v.toNat
  | .u32, k, v => k = v.toNat
  | .u7x3, k, (x, y, z) => k = (x.toNat * 128 + y.toNat) * 128 + z.toNat
  | .u7x4, k, (x, y, z, t) => k = ((x.toNat * 128 + y.toNat) * 128 + z.toNat) * 128 + t.toNat

/-- The number `k` on the wire denotes the value `v` of the property. -/
def Fld.Denotes : (f : Fld) → Nat → f.Ty → Prop
  | .hybrid r _ _, k, v => r.Denotes k v
  | .schema r _, k, v => r.Denotes k v
  | .utilData, k, v => k = v.toNat
  | .u20Data, k, v => k = v.toNat
  | .noteAttribute, k, none => k / 65536 = 0
  | .noteAttribute, k, some (.manufacturerSpecific d) => k = 1 * 65536 + d.toNat
  | .noteAttribute, k, some (.profileSpecific d) => k = 2 * 65536 + d.toNat
  | .noteAttribute, k, some (.pitch7_9 d) => k = 3 * 65536 + d.toNat
  | .controller, k, v =>
    k = Codes.controllerIndex v * 4294967296 + Codes.controllerData v
  | .programBank, k, none => k / 16384 = 0
  | .programBank, k, some v => k = 16384 + v.toNat
  | .flexOptionalChannel, k, none => k / 16 ≠ 0
  | .flexOptionalChannel, k, some c => k = c.toNat
  | .tonic _, k, v => (v, k) ∈ Codes.tonic
  | .keySharpsFlats, k, v =>
    Codes.keySharpsFlats v = if k < 8 then (k : Int) else (k : Int) - 16
  | .chordSharpsFlats _, k, v => (v, k) ∈ Codes.chordSharpsFlats
  | .chordType _, k, v => (v, k) ∈ Codes.chordType
  | .alteration _, k, none => k < 16
  | .alteration _, k, some a => k = Codes.alteration a
  | .uiHint, k, v => (v, k) ∈ Codes.uiHint
  | .midi1Port, k, v => (v, k) ∈ Codes.midi1Port
  | .direction, k, v => (v, k) ∈ Codes.direction
  | _, _, _ => True

/-- UMP layouts. -/
def Layout.ump : List Layout := [
  { name := "channel_voice1::ChannelPressure", words := 1,
    consts := [(0, 0, 4, 0x2), (0, 8, 4, 0xD)],
    props := [("channel", [(0, 12, 4)]),
     ("group", [(0, 4, 4)]),
     ("pressure", [(0, 17, 7)])] },
  { name := "channel_voice1::ControlChange", words := 1,
    consts := [(0, 0, 4, 0x2), (0, 8, 4, 0xB)],
    props := [("channel", [(0, 12, 4)]),
     ("group", [(0, 4, 4)]),
     ("control", [(0, 17, 7)]),
     ("control_data", [(0, 25, 7)])] },
  { name := "channel_voice1::KeyPressure", words := 1,
    consts := [(0, 0, 4, 0x2), (0, 8, 4, 0xA)],
    props := [("channel", [(0, 12, 4)]),
     ("group", [(0, 4, 4)]),
     ("note_number", [(0, 17, 7)]),
     ("pressure", [(0, 25, 7)])] },
  { name := "channel_voice1::NoteOff", words := 1,
    consts := [(0, 0, 4, 0x2), (0, 8, 4, 0x8)],
    props := [("channel", [(0, 12, 4)]),
     ("group", [(0, 4, 4)]),
     ("note_number", [(0, 17, 7)]),
     ("velocity", [(0, 25, 7)])] },
  { name := "channel_voice1::NoteOn", words := 1,
    consts := [(0, 0, 4, 0x2), (0, 8, 4, 0x9)],
    props := [("channel", [(0, 12, 4)]),
     ("group", [(0, 4, 4)]),
     ("note_number", [(0, 17, 7)]),
     ("velocity", [(0, 25, 7)])] },
  { name := "channel_voice1::PitchBend", words := 1,
    consts := [(0, 0, 4, 0x2), (0, 8, 4, 0xE)],
    props := [("channel", [(0, 12, 4)]),
     ("group", [(0, 4, 4)]),
     ("bend", [(0, 25, 7), (0, 17, 7)])] },
  { name := "channel_voice1::ProgramChange", words := 1,
    consts := [(0, 0, 4, 0x2), (0, 8, 4, 0xC)],
    props := [("channel", [(0, 12, 4)]),
     ("group", [(0, 4, 4)]),
     ("program", [(0, 17, 7)])] },
  { name := "channel_voice2::AssignableController", words := 2,
    consts := [(0, 0, 4, 0x4), (0, 8, 4, 0x3)],
    props := [("channel", [(0, 12, 4)]),
     ("group", [(0, 4, 4)]),
     ("bank", [(0, 17, 7)]),
     ("index", [(0, 25, 7)]),
     ("controller_data", [(1, 0, 32)])] },
  { name := "channel_voice2::AssignablePerNoteController", words := 2,
    consts := [(0, 0, 4, 0x4), (0, 8, 4, 0x1)],
    props := [("channel", [(0, 12, 4)]),
     ("group", [(0, 4, 4)]),
     ("note_number", [(0, 17, 7)]),
     ("index", [(0, 24, 8)]),
     ("controller_data", [(1, 0, 32)])] },
  { name := "channel_voice2::ChannelPitchBend", words := 2,
    consts := [(0, 0, 4, 0x4), (0, 8, 4, 0xE)],
    props := [("channel", [(0, 12, 4)]),
     ("group", [(0, 4, 4)]),
     ("pitch_bend_data", [(1, 0, 32)])] },
  { name := "channel_voice2::ChannelPressure", words := 2,
    consts := [(0, 0, 4, 0x4), (0, 8, 4, 0xD)],
    props := [("channel", [(0, 12, 4)]),
     ("group", [(0, 4, 4)]),
     ("bank", [(0, 17, 7)]),
     ("index", [(0, 25, 7)]),
     ("channel_pressure_data", [(1, 0, 32)])] },
  { name := "channel_voice2::ControlChange", words := 2,
    consts := [(0, 0, 4, 0x4), (0, 8, 4, 0xB)],
    props := [("channel", [(0, 12, 4)]),
     ("group", [(0, 4, 4)]),
     ("control", [(0, 17, 7)]),
     ("control_change_data", [(1, 0, 32)])] },
  { name := "channel_voice2::KeyPressure", words := 2,
    consts := [(0, 0, 4, 0x4), (0, 8, 4, 0xA)],
    props := [("channel", [(0, 12, 4)]),
     ("group", [(0, 4, 4)]),
     ("note_number", [(0, 17, 7)]),
     ("key_pressure_data", [(1, 0, 32)])] },
  { name := "channel_voice2::NoteOff", words := 2,
    consts := [(0, 0, 4, 0x4), (0, 8, 4, 0x8)],
    props := [("channel", [(0, 12, 4)]),
     ("group", [(0, 4, 4)]),
     ("note_number", [(0, 17, 7)]),
     ("velocity", [(1, 0, 16)]),
     ("attribute", [(0, 24, 8), (1, 16, 16)])] },
  { name := "channel_voice2::NoteOn", words := 2,
    consts := [(0, 0, 4, 0x4), (0, 8, 4, 0x9)],
    props := [("channel", [(0, 12, 4)]),
     ("group", [(0, 4, 4)]),
     ("note_number", [(0, 17, 7)]),
     ("velocity", [(1, 0, 16)]),
     ("attribute", [(0, 24, 8), (1, 16, 16)])] },
  { name := "channel_voice2::PerNoteManagement", words := 2,
    consts := [(0, 0, 4, 0x4), (0, 8, 4, 0xF)],
    props := [("channel", [(0, 12, 4)]),
     ("group", [(0, 4, 4)]),
     ("note_number", [(0, 17, 7)]),
     ("detach", [(0, 31, 1)]),
     ("reset", [(0, 30, 1)])] },
  { name := "channel_voice2::PerNotePitchBend", words := 2,
    consts := [(0, 0, 4, 0x4), (0, 8, 4, 0x6)],
    props := [("channel", [(0, 12, 4)]),
     ("group", [(0, 4, 4)]),
     ("note_number", [(0, 17, 7)]),
     ("pitch_bend_data", [(1, 0, 32)])] },
  { name := "channel_voice2::ProgramChange", words := 2,
    consts := [(0, 0, 4, 0x4), (0, 8, 4, 0xC)],
    props := [("channel", [(0, 12, 4)]),
     ("group", [(0, 4, 4)]),
     ("program", [(1, 1, 7)]),
     ("bank", [(0, 31, 1), (1, 25, 7), (1, 17, 7)])] },
  { name := "channel_voice2::RegisteredController", words := 2,
    consts := [(0, 0, 4, 0x4), (0, 8, 4, 0x2)],
    props := [("channel", [(0, 12, 4)]),
     ("group", [(0, 4, 4)]),
     ("bank", [(0, 17, 7)]),
     ("index", [(0, 25, 7)]),
     ("controller_data", [(1, 0, 32)])] },
  { name := "channel_voice2::RegisteredPerNoteController", words := 2,
    consts := [(0, 0, 4, 0x4), (0, 8, 4, 0x0)],
    props := [("channel", [(0, 12, 4)]),
     ("group", [(0, 4, 4)]),
     ("note_number", [(0, 17, 7)]),
     ("controller", [(0, 24, 8), (1, 0, 32)])] },
  { name := "channel_voice2::RelativeAssignableController", words := 2,
    consts := [(0, 0, 4, 0x4), (0, 8, 4, 0x5)],
    props := [("channel", [(0, 12, 4)]),
     ("group", [(0, 4, 4)]),
     ("bank", [(0, 17, 7)]),
     ("index", [(0, 25, 7)]),
     ("controller_data", [(1, 0, 32)])] },
  { name := "channel_voice2::RelativeRegisteredController", words := 2,
    consts := [(0, 0, 4, 0x4), (0, 8, 4, 0x4)],
    props := [("channel", [(0, 12, 4)]),
     ("group", [(0, 4, 4)]),
     ("bank", [(0, 17, 7)]),
     ("index", [(0, 25, 7)]),
     ("controller_data", [(1, 0, 32)])] },
  { name := "flex_data::SetChordName", words := 4,
    consts := [(0, 0, 4, 0xD), (0, 8, 2, 0x0), (0, 16, 8, 0x0), (0, 24, 8, 0x6)],
    props := [("group", [(0, 4, 4)]),
     ("optional_channel", [(0, 10, 2), (0, 12, 4)]),
     ("tonic_sharps_flats", [(1, 0, 4)]),
     ("tonic", [(1, 4, 4)]),
     ("chord_type", [(1, 8, 8)]),
     ("chord_alteration1", [(1, 16, 8)]),
     ("chord_alteration2", [(1, 24, 8)]),
     ("chord_alteration3", [(2, 0, 8)]),
     ("chord_alteration4", [(2, 8, 8)]),
     ("bass_sharps_flats", [(3, 0, 4)]),
     ("bass_note", [(3, 4, 4)]),
     ("bass_chord_type", [(3, 8, 8)]),
     ("bass_alteration1", [(3, 16, 8)]),
     ("bass_alteration2", [(3, 24, 8)])] },
  { name := "flex_data::SetKeySignature", words := 4,
    consts := [(0, 0, 4, 0xD), (0, 8, 2, 0x0), (0, 16, 8, 0x0), (0, 24, 8, 0x5)],
    props := [("group", [(0, 4, 4)]),
     ("optional_channel", [(0, 10, 2), (0, 12, 4)]),
     ("tonic", [(1, 4, 4)]),
     ("sharps_flats", [(1, 0, 4)])] },
  { name := "flex_data::SetMetronome", words := 4,
    consts := [(0, 0, 4, 0xD), (0, 8, 2, 0x0), (0, 16, 8, 0x0), (0, 24, 8, 0x2)],
    props := [("group", [(0, 4, 4)]),
     ("number_of_clocks_per_primary_click", [(1, 0, 8)]),
     ("bar_accent1", [(1, 8, 8)]),
     ("bar_accent2", [(1, 16, 8)]),
     ("bar_accent3", [(1, 24, 8)]),
     ("number_of_subdivision_clicks1", [(2, 0, 8)]),
     ("number_of_subdivision_clicks2", [(2, 8, 8)])] },
  { name := "flex_data::SetTempo", words := 4,
    consts := [(0, 0, 4, 0xD), (0, 8, 2, 0x0), (0, 16, 8, 0x0), (0, 24, 8, 0x0)],
    props := [("group", [(0, 4, 4)]),
     ("number_of_10_nanosecond_units_per_quarter_note", [(1, 0, 32)])] },
  { name := "flex_data::SetTimeSignature", words := 4,
    consts := [(0, 0, 4, 0xD), (0, 8, 2, 0x0), (0, 16, 8, 0x0), (0, 24, 8, 0x1)],
    props := [("group", [(0, 4, 4)]),
     ("numerator", [(1, 0, 8)]),
     ("denominator", [(1, 8, 8)]),
     ("number_of_32nd_notes", [(1, 16, 8)])] },
  { name := "system_common::TuneRequest", words := 1,
    consts := [(0, 0, 4, 0x1), (0, 8, 8, 0xF6)],
    props := [("group", [(0, 4, 4)])] },
  { name := "system_common::TimingClock", words := 1,
    consts := [(0, 0, 4, 0x1), (0, 8, 8, 0xF8)],
    props := [("group", [(0, 4, 4)])] },
  { name := "system_common::Start", words := 1,
    consts := [(0, 0, 4, 0x1), (0, 8, 8, 0xFA)],
    props := [("group", [(0, 4, 4)])] },
  { name := "system_common::Continue", words := 1,
    consts := [(0, 0, 4, 0x1), (0, 8, 8, 0xFB)],
    props := [("group", [(0, 4, 4)])] },
  { name := "system_common::Stop", words := 1,
    consts := [(0, 0, 4, 0x1), (0, 8, 8, 0xFC)],
    props := [("group", [(0, 4, 4)])] },
  { name := "system_common::ActiveSensing", words := 1,
    consts := [(0, 0, 4, 0x1), (0, 8, 8, 0xFE)],
    props := [("group", [(0, 4, 4)])] },
  { name := "system_common::Reset", words := 1,
    consts := [(0, 0, 4, 0x1), (0, 8, 8, 0xFF)],
    props := [("group", [(0, 4, 4)])] },
  { name := "system_common::SongPositionPointer", words := 1,
    consts := [(0, 0, 4, 0x1), (0, 8, 8, 0xF2)],
    props := [("group", [(0, 4, 4)]),
     ("position", [(0, 25, 7), (0, 17, 7)])] },
  { name := "system_common::SongSelect", words := 1,
    consts := [(0, 0, 4, 0x1), (0, 8, 8, 0xF3)],
    props := [("group", [(0, 4, 4)]),
     ("song", [(0, 17, 7)])] },
  { name := "system_common::TimeCode", words := 1,
    consts := [(0, 0, 4, 0x1), (0, 8, 8, 0xF1)],
    props := [("group", [(0, 4, 4)]),
     ("time_code", [(0, 17, 7)])] },
  { name := "ump_stream::DeviceIdentity", words := 4,
    consts := [(0, 0, 4, 0xF), (0, 6, 10, 0x2)],
    props := [("device_manufacturer", [(1, 9, 7), (1, 17, 7), (1, 25, 7)]),
     ("device_family", [(2, 9, 7), (2, 1, 7)]),
     ("device_family_model_number", [(2, 25, 7), (2, 17, 7)]),
     ("software_version", [(3, 1, 7), (3, 9, 7), (3, 17, 7), (3, 25, 7)])] },
  { name := "ump_stream::EndOfClip", words := 4,
    consts := [(0, 0, 4, 0xF), (0, 6, 10, 0x21)],
    props := [] },
  { name := "ump_stream::EndpointDiscovery", words := 4,
    consts := [(0, 0, 4, 0xF), (0, 6, 10, 0x0)],
    props := [("ump_version_major", [(0, 16, 8)]),
     ("ump_version_minor", [(0, 24, 8)]),
     ("request_endpoint_info", [(1, 31, 1)]),
     ("request_device_identity", [(1, 30, 1)]),
     ("request_endpoint_name", [(1, 29, 1)]),
     ("request_product_instance_id", [(1, 28, 1)]),
     ("request_stream_configuration", [(1, 27, 1)])] },
  { name := "ump_stream::EndpointInfo", words := 4,
    consts := [(0, 0, 4, 0xF), (0, 6, 10, 0x1)],
    props := [("ump_version_major", [(0, 16, 8)]),
     ("ump_version_minor", [(0, 24, 8)]),
     ("static_function_blocks", [(1, 0, 1)]),
     ("supports_midi2_protocol", [(1, 22, 1)]),
     ("supports_midi1_protocol", [(1, 23, 1)]),
     ("supports_receiving_jr_timestamps", [(1, 30, 1)]),
     ("supports_sending_jr_timestamps", [(1, 31, 1)]),
     ("number_of_function_blocks", [(1, 1, 7)])] },
  { name := "ump_stream::FunctionBlockDiscovery", words := 4,
    consts := [(0, 0, 4, 0xF), (0, 6, 10, 0x10)],
    props := [("function_block_number", [(0, 16, 8)]),
     ("requesting_function_block_info", [(0, 30, 1)]),
     ("requesting_function_block_name", [(0, 31, 1)])] },
  { name := "ump_stream::FunctionBlockInfo", words := 4,
    consts := [(0, 0, 4, 0xF), (0, 6, 10, 0x11)],
    props := [("active", [(0, 16, 1)]),
     ("function_block_number", [(0, 17, 7)]),
     ("first_group", [(1, 4, 4)]),
     ("number_of_groups_spanned", [(1, 8, 8)]),
     ("midi_ci_version", [(1, 16, 8)]),
     ("max_number_of_midi_ci_streams", [(1, 24, 8)]),
     ("ui_hint", [(0, 26, 2)]),
     ("midi1_port", [(0, 28, 2)]),
     ("direction", [(0, 30, 2)])] },
  { name := "ump_stream::StartOfClip", words := 4,
    consts := [(0, 0, 4, 0xF), (0, 6, 10, 0x20)],
    props := [] },
  { name := "ump_stream::StreamConfigurationNotification", words := 4,
    consts := [(0, 0, 4, 0xF), (0, 6, 10, 0x6)],
    props := [("protocol", [(0, 16, 8)]),
     ("receive_jr_timestamps", [(0, 30, 1)]),
     ("send_jr_timestamps", [(0, 31, 1)])] },
  { name := "ump_stream::StreamConfigurationRequest", words := 4,
    consts := [(0, 0, 4, 0xF), (0, 6, 10, 0x5)],
    props := [("protocol", [(0, 16, 8)]),
     ("receive_jr_timestamps", [(0, 30, 1)]),
     ("send_jr_timestamps", [(0, 31, 1)])] },
  { name := "utility::NoOp", words := 1,
    consts := [(0, 0, 4, 0x0), (0, 8, 4, 0x0)],
    props := [("time_data", [(0, 16, 16)])] },
  { name := "utility::Clock", words := 1,
    consts := [(0, 0, 4, 0x0), (0, 8, 4, 0x1)],
    props := [("time_data", [(0, 16, 16)])] },
  { name := "utility::Timestamp", words := 1,
    consts := [(0, 0, 4, 0x0), (0, 8, 4, 0x2)],
    props := [("time_data", [(0, 16, 16)])] },
  { name := "utility::DeltaClockstamp", words := 1,
    consts := [(0, 0, 4, 0x0), (0, 8, 4, 0x4)],
    props := [("time_data", [(0, 12, 20)])] },
  { name := "utility::DeltaClockstampTpq", words := 1,
    consts := [(0, 0, 4, 0x0), (0, 8, 4, 0x3)],
    props := [("time_data", [(0, 16, 16)])] }]

/-- Byte-stream layouts. -/
def Layout.bytes : List Layout := [
  { name := "channel_voice1::ChannelPressure", words := 2,
    consts := [(0, 0, 4, 0xD)],
    props := [("channel", [(0, 4, 4)]),
     ("pressure", [(1, 1, 7)])] },
  { name := "channel_voice1::ControlChange", words := 3,
    consts := [(0, 0, 4, 0xB)],
    props := [("channel", [(0, 4, 4)]),
     ("control", [(1, 1, 7)]),
     ("control_data", [(2, 1, 7)])] },
  { name := "channel_voice1::KeyPressure", words := 3,
    consts := [(0, 0, 4, 0xA)],
    props := [("channel", [(0, 4, 4)]),
     ("note_number", [(1, 1, 7)]),
     ("pressure", [(2, 1, 7)])] },
  { name := "channel_voice1::NoteOff", words := 3,
    consts := [(0, 0, 4, 0x8)],
    props := [("channel", [(0, 4, 4)]),
     ("note_number", [(1, 1, 7)]),
     ("velocity", [(2, 1, 7)])] },
  { name := "channel_voice1::NoteOn", words := 3,
    consts := [(0, 0, 4, 0x9)],
    props := [("channel", [(0, 4, 4)]),
     ("note_number", [(1, 1, 7)]),
     ("velocity", [(2, 1, 7)])] },
  { name := "channel_voice1::PitchBend", words := 3,
    consts := [(0, 0, 4, 0xE)],
    props := [("channel", [(0, 4, 4)]),
     ("bend", [(2, 1, 7), (1, 1, 7)])] },
  { name := "channel_voice1::ProgramChange", words := 2,
    consts := [(0, 0, 4, 0xC)],
    props := [("channel", [(0, 4, 4)]),
     ("program", [(1, 1, 7)])] },
  { name := "system_common::TuneRequest", words := 1,
    consts := [(0, 0, 8, 0xF6)],
    props := [] },
  { name := "system_common::TimingClock", words := 1,
    consts := [(0, 0, 8, 0xF8)],
    props := [] },
  { name := "system_common::Start", words := 1,
    consts := [(0, 0, 8, 0xFA)],
    props := [] },
  { name := "system_common::Continue", words := 1,
    consts := [(0, 0, 8, 0xFB)],
    props := [] },
  { name := "system_common::Stop", words := 1,
    consts := [(0, 0, 8, 0xFC)],
    props := [] },
  { name := "system_common::ActiveSensing", words := 1,
    consts := [(0, 0, 8, 0xFE)],
    props := [] },
  { name := "system_common::Reset", words := 1,
    consts := [(0, 0, 8, 0xFF)],
    props := [] },
  { name := "system_common::SongPositionPointer", words := 3,
    consts := [(0, 0, 8, 0xF2)],
    props := [("position", [(2, 1, 7), (1, 1, 7)])] },
  { name := "system_common::SongSelect", words := 2,
    consts := [(0, 0, 8, 0xF3)],
    props := [("song", [(1, 1, 7)])] },
  { name := "system_common::TimeCode", words := 2,
    consts := [(0, 0, 8, 0xF1)],
    props := [("time_code", [(1, 1, 7)])] }]

end Midi2
