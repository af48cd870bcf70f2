import Verif.Model.Codec

/-!
# Wire codes of enumerated values

Tables transcribed from the MIDI 2.0 UMP specification (M2-104-UM), not from the code:
flex data set key signature / set chord name, function block info, note attribute types.
-/

namespace Midi2.Codes

/-- Tonic note (key signature and chord name). -/
def tonic : List (Tonic × Nat) :=
  [(.nonStandard, 0), (.A, 1), (.B, 2), (.C, 3), (.D, 4), (.E, 5), (.F, 6), (.G, 7)]

/-- Sharps/flats of a chord: two's complement nibble in the range -2 .. 2. -/
def chordSharpsFlats : List (ChordSharpsFlats × Nat) :=
  [(.doubleFlat, 14), (.flat, 15), (.natural, 0), (.sharp, 1), (.doubleSharp, 2)]

/-- Chord types. -/
def chordType : List (ChordType × Nat) :=
  [(.clearChord, 0), (.major, 1), (.major6th, 2), (.major7th, 3), (.major9th, 4),
   (.major11th, 5), (.major13th, 6), (.minor, 7), (.minor6th, 8), (.minor7th, 9),
   (.minor9th, 10), (.minor11th, 11), (.minor13th, 12), (.dominant, 13), (.dominant9th, 14),
   (.dominant11th, 15), (.dominant13th, 16), (.augmented, 17), (.augmented7th, 18),
   (.diminished, 19), (.diminished7th, 20), (.halfDiminished, 21), (.majorMinor, 22),
   (.pedal, 23), (.power, 24), (.suspended2nd, 25), (.suspended4th, 26)]

/-- Upper nibble of an alteration; the lower nibble is the scale degree. -/
def alteration : Alteration → Nat
  | .add d => 0x10 + d.toNat
  | .subtract d => 0x20 + d.toNat
  | .raise d => 0x30 + d.toNat
  | .lower d => 0x40 + d.toNat

/-- Function block UI hint. -/
def uiHint : List (UiHint × Nat) :=
  [(.undeclared, 0), (.receiver, 1), (.sender, 2), (.senderReceiver, 3)]

/-- Function block MIDI 1.0 field. -/
def midi1Port : List (Option Midi1Port × Nat) :=
  [(none, 0), (some .dontRestrictBandwidth, 1), (some .restrictBandwidth, 2)]

/-- Function block direction. -/
def direction : List (Direction × Nat) := [(.input, 1), (.output, 2), (.bidirectional, 3)]

/-- Key signature: the nibble is the two's complement number of sharps (positive) or
flats (negative); -8 means non-standard. -/
def keySharpsFlats : KeySharpsFlats → Int
  | .sharps n => n.toNat
  | .flats n => -(n.toNat : Int)
  | .nonStandard => -8

end Midi2.Codes
