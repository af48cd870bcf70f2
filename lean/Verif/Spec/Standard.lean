import Verif.Spec.Layout

/-!
# Where the published standard differs from the crate's layout

`Verif/Spec/Layout.lean` follows the crate's own tests.  The UMP and MIDI 2.0 Protocol
specification (M2-104-UM), to our knowledge, places five properties elsewhere:

* Program Change, second word: program, reserved, bank MSB, bank LSB;
* Per-Note Management, option flags: `0 0 0 0 0 0 D S`, detach before reset;
* Function Block Discovery, filter bitmap: bit 0 asks for the function block info, bit 1 for
  the name.

The third and fourth octet of Channel Pressure are reserved; the crate reads two further
properties there.
-/

namespace Midi2.Standard

/-- The differing places: message, property, fields (most significant first). -/
def amendments : List (String × String × List (Nat × Nat × Nat)) := [
  ("channel_voice2::ProgramChange", "bank", [(0, 31, 1), (1, 17, 7), (1, 25, 7)]),
  ("channel_voice2::PerNoteManagement", "detach", [(0, 30, 1)]),
  ("channel_voice2::PerNoteManagement", "reset", [(0, 31, 1)]),
  ("ump_stream::FunctionBlockDiscovery", "requesting_function_block_info", [(0, 31, 1)]),
  ("ump_stream::FunctionBlockDiscovery", "requesting_function_block_name", [(0, 30, 1)])]

/-- Properties of the crate which are not in the standard. -/
def extra : List (String × String) :=
  [("channel_voice2::ChannelPressure", "bank"), ("channel_voice2::ChannelPressure", "index")]

/-- Fields of a property after amendment. -/
def place (msg name : String) (ps : List (Nat × Nat × Nat)) : List (Nat × Nat × Nat) :=
  match amendments.find? (fun a => a.1 == msg && a.2.1 == name) with
  | some a => a.2.2
  | none => ps

/-- The layout of the standard. -/
def ump : List Layout := Layout.ump.map fun l =>
  let kept := l.props.filter fun p => !extra.contains (l.name, p.1)
  { l with props := kept.map fun p => (p.1, place l.name p.1 p.2) }

/-- Chord type codes of the standard which the crate has no name for: 7 suspended 4th. -/
def sevenSuspended4th : Nat := 0x1B

/-- Bass sharps/flats code for "the bass note is the chord tonic". -/
def bassIsTonic : Nat := 0x8

end Midi2.Standard
