import Verif.Model.MsgOps

/-!
# What conversion between the representations may lose

The MIDI 1.0 byte encoding of a channel voice or system common message is a status byte
followed by zero, one or two data bytes whose top bit is clear; the UMP encoding is one
word holding type, group, status byte and data bytes.
-/

namespace Midi2

/-- Number of data bytes of the MIDI 1.0 encoding. -/
def Convert.dataBytes (name : String) : Nat :=
  if name ∈ ["channel_voice1::ChannelPressure", "channel_voice1::ProgramChange",
    "system_common::SongSelect", "system_common::TimeCode"] then 1
  else if name ∈ ["system_common::TuneRequest", "system_common::TimingClock",
    "system_common::Start", "system_common::Continue", "system_common::Stop",
    "system_common::ActiveSensing", "system_common::Reset"] then 0
  else 2

/-- The meaningful bits of byte `i` of the encoding: the status byte, then seven bits of
every data byte. -/
def Convert.byteMask (name : String) (i : Nat) : BitVec 8 :=
  if i = 0 then 0xFF else if i ≤ dataBytes name then 0x7F else 0

/-- The meaningful bits of the UMP word apart from the group. -/
def Convert.umpMask (name : String) : BitVec 32 :=
  match dataBytes name with
  | 0 => 0xF0FF0000
  | 1 => 0xF0FF7F00
  | _ => 0xF0FF7F7F

end Midi2
