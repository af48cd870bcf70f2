import Verif.Spec.Convert
import Verif.Spec.Sysex

/-!
# The two forms of a MIDI 1.0 message

The Universal MIDI Packet of a MIDI 1.0 channel voice or system message is one word: the message
type (2 for channel voice, 1 for system messages), the group, the status byte and two data bytes,
zero where the message has none.
-/

namespace Midi2

/-- Byte `i` of a message, zero if it has none. -/
def Convert.byte (m : List (BitVec 8)) (i : Nat) : Nat := ((m[i]?).getD 0).toNat

/-- The word of a MIDI 1.0 message in group 0. -/
def Convert.word (m : List (BitVec 8)) : Nat :=
  (if byte m 0 < 0xF0 then 2 else 1) * 2 ^ 28 + byte m 0 * 2 ^ 16 + byte m 1 * 2 ^ 8 + byte m 2

/-- A byte message with the bits cleared that have no meaning: the top bit of the data bytes, and
bytes after the last data byte. -/
def Convert.cleared (name : String) (m : List (BitVec 8)) : List (BitVec 8) :=
  m.mapIdx fun i x => x &&& byteMask name i

end Midi2
