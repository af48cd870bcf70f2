import Verif.Model.BitOps

/-!
# Enumerated property values and their codes

`match`es on a `u8`/`u4` are kept as `match`es on the natural number value so
that each arm can be compared with the Rust text.  `Err(InvalidData(..))` is
`none`.
-/

namespace Midi2

/-- `Attribute` (/repo/midi2/src/channel_voice2/attribute.rs:5-9).  `Fixed7_9`
is represented by its 16 bits (`from_bits`/`to_bits`). -/
inductive Attribute where
  | manufacturerSpecific (d : BitVec 16)
  | profileSpecific (d : BitVec 16)
  | pitch7_9 (bits : BitVec 16)
deriving DecidableEq, Repr

/-- `Controller` (/repo/midi2/src/channel_voice2/controller.rs:8-30).
`Fixed7_25` is represented by its 32 bits. -/
inductive Controller where
  | modulation (d : BitVec 32)
  | breath (d : BitVec 32)
  | pitch7_25 (bits : BitVec 32)
  | volume (d : BitVec 32)
  | balance (d : BitVec 32)
  | pan (d : BitVec 32)
  | expression (d : BitVec 32)
  | soundVariation (d : BitVec 32)
  | timbre (d : BitVec 32)
  | releaseTime (d : BitVec 32)
  | attackTime (d : BitVec 32)
  | brightness (d : BitVec 32)
  | decayTime (d : BitVec 32)
  | vebratoRate (d : BitVec 32)
  | vebratoDepth (d : BitVec 32)
  | vebratoDelay (d : BitVec 32)
  | undefined (d : BitVec 32)
  | reverbSendLevel (d : BitVec 32)
  | chorusSendLevel (d : BitVec 32)
  | soundController (index : BitVec 8) (d : BitVec 32)
  | effectDepth (index : BitVec 8) (d : BitVec 32)
deriving DecidableEq, Repr

namespace Controller

/-- `validate_index` (controller.rs:32-58). -/
def validateIndex (index : BitVec 8) : Res Unit :=
  match index.toNat with
  | 1 => .ok ()
  | 2 => .ok ()
  | 3 => .ok ()
  | 7 => .ok ()
  | 8 => .ok ()
  | 10 => .ok ()
  | 11 => .ok ()
  | 70 => .ok ()
  | 71 => .ok ()
  | 72 => .ok ()
  | 73 => .ok ()
  | 74 => .ok ()
  | 75 => .ok ()
  | 76 => .ok ()
  | 77 => .ok ()
  | 78 => .ok ()
  | 79 => .ok ()
  | 91 => .ok ()
  | 92 => .ok ()
  | 93 => .ok ()
  | 94 => .ok ()
  | 95 => .ok ()
  | _ => .err .invalidData

/-- `from_index_and_data` (controller.rs:60-86). -/
def fromIndexAndData (index : BitVec 8) (data : BitVec 32) : Res Controller :=
  match index.toNat with
  | 1 => .ok (modulation data)
  | 2 => .ok (breath data)
  | 3 => .ok (pitch7_25 data)
  | 7 => .ok (volume data)
  | 8 => .ok (balance data)
  | 10 => .ok (pan data)
  | 11 => .ok (expression data)
  | 70 => .ok (soundController 1 data)
  | 71 => .ok (soundController 2 data)
  | 72 => .ok (soundController 3 data)
  | 73 => .ok (soundController 4 data)
  | 74 => .ok (soundController 5 data)
  | 75 => .ok (soundController 6 data)
  | 76 => .ok (soundController 7 data)
  | 77 => .ok (soundController 8 data)
  | 78 => .ok (soundController 9 data)
  | 79 => .ok (soundController 10 data)
  | 91 => .ok (effectDepth 1 data)
  | 92 => .ok (effectDepth 2 data)
  | 93 => .ok (effectDepth 3 data)
  | 94 => .ok (effectDepth 4 data)
  | 95 => .ok (effectDepth 5 data)
  | _ => .panic

/-- `to_index_and_data` (controller.rs:88-125); the final `unreachable!()` arm
is a panic. -/
def toIndexAndData : Controller → Res (BitVec 8 × BitVec 32)
  | modulation d => .ok (1, d)
  | breath d => .ok (2, d)
  | pitch7_25 d => .ok (3, d)
  | volume d => .ok (7, d)
  | balance d => .ok (8, d)
  | pan d => .ok (10, d)
  | expression d => .ok (11, d)
  | soundVariation d => .ok (70, d)
  | timbre d => .ok (71, d)
  | releaseTime d => .ok (72, d)
  | attackTime d => .ok (73, d)
  | brightness d => .ok (74, d)
  | decayTime d => .ok (75, d)
  | vebratoRate d => .ok (76, d)
  | vebratoDepth d => .ok (77, d)
  | vebratoDelay d => .ok (78, d)
  | undefined d => .ok (79, d)
  | reverbSendLevel d => .ok (91, d)
  | chorusSendLevel d => .ok (91, d)
  | soundController index d =>
    match index.toNat with
    | 1 => .ok (70, d)
    | 2 => .ok (71, d)
    | 3 => .ok (72, d)
    | 4 => .ok (73, d)
    | 5 => .ok (74, d)
    | 6 => .ok (75, d)
    | 7 => .ok (76, d)
    | 8 => .ok (77, d)
    | 9 => .ok (78, d)
    | 10 => .ok (79, d)
    | _ => .panic
  | effectDepth index d =>
    match index.toNat with
    | 1 => .ok (91, d)
    | 2 => .ok (92, d)
    | 3 => .ok (93, d)
    | 4 => .ok (94, d)
    | _ => .panic

end Controller

/-- `Tonic` (/repo/midi2/src/flex_data/tonic.rs:7-16). -/
inductive Tonic where
  | A | B | C | D | E | F | G | nonStandard
deriving DecidableEq, Repr

namespace Tonic

/-- `Tonic::from_nibble` (tonic.rs:86-99). -/
def fromNibble (n : BitVec 4) : Option Tonic :=
  match n.toNat with
  | 0x0 => some nonStandard
  | 0x1 => some A
  | 0x2 => some B
  | 0x3 => some C
  | 0x4 => some D
  | 0x5 => some E
  | 0x6 => some F
  | 0x7 => some G
  | _ => none

/-- `Tonic::into_nibble` (tonic.rs:101-113). -/
def intoNibble : Tonic → BitVec 4
  | A => 0x1
  | B => 0x2
  | C => 0x3
  | D => 0x4
  | E => 0x5
  | F => 0x6
  | G => 0x7
  | nonStandard => 0x0

end Tonic

/-- `SharpsFlats` of the key signature
(/repo/midi2/src/flex_data/set_key_signature.rs:35-39). -/
inductive KeySharpsFlats where
  | flats (n : BitVec 3)
  | sharps (n : BitVec 3)
  | nonStandard
deriving DecidableEq, Repr

namespace KeySharpsFlats

/-- `SharpsFlatsProperty::read` (set_key_signature.rs:57-65).  The byte value `v`
is the zero-extended nibble; `!(v - 1) & 0b0111` is computed on `u8`. -/
def fromNibble (n : BitVec 4) : KeySharpsFlats :=
  let v : BitVec 8 := n.setWidth 8
  if v ≤ 0x7 then sharps (v.setWidth 3)
  else if 0x9 ≤ v then flats ((~~~(v - 1) &&& 0x7#8).setWidth 3)
  else nonStandard

/-- The value written by `SharpsFlatsProperty::write` (set_key_signature.rs:77-81).
`u4::new` panics when its argument exceeds 15. -/
def intoNibble : KeySharpsFlats → Res (BitVec 4)
  | sharps v => .ok (v.setWidth 4)
  | flats v =>
    let x : BitVec 8 := (~~~(v.setWidth 8) &&& 0xF#8) + 1
    if x ≤ 0xF then .ok (x.setWidth 4) else .panic
  | nonStandard => .ok 0x8

end KeySharpsFlats

/-- `SharpsFlats` of the chord name
(/repo/midi2/src/flex_data/set_chord_name.rs:55-61). -/
inductive ChordSharpsFlats where
  | doubleSharp | sharp | natural | flat | doubleFlat
deriving DecidableEq, Repr

namespace ChordSharpsFlats

/-- `SharpsFlats::from_nibble` (set_chord_name.rs:124-136). -/
def fromNibble (n : BitVec 4) : Option ChordSharpsFlats :=
  match n.toNat with
  | 0x2 => some doubleSharp
  | 0x1 => some sharp
  | 0x0 => some natural
  | 0xF => some flat
  | 0xE => some doubleFlat
  | _ => none

/-- `SharpsFlats::into_nibble` (set_chord_name.rs:137-146). -/
def intoNibble : ChordSharpsFlats → BitVec 4
  | doubleSharp => 0x2
  | sharp => 0x1
  | natural => 0x0
  | flat => 0xF
  | doubleFlat => 0xE

end ChordSharpsFlats

/-- `ChordType` (set_chord_name.rs:157-185). -/
inductive ChordType where
  | clearChord | major | major6th | major7th | major9th | major11th | major13th
  | minor | minor6th | minor7th | minor9th | minor11th | minor13th
  | dominant | dominant9th | dominant11th | dominant13th
  | augmented | augmented7th | diminished | diminished7th | halfDiminished
  | majorMinor | pedal | power | suspended2nd | suspended4th
deriving DecidableEq, Repr

namespace ChordType

/-- `ChordType::from_octet` (set_chord_name.rs:248-280). -/
def fromOctet (o : BitVec 8) : Option ChordType :=
  match o.toNat with
  | 0x00 => some clearChord
  | 0x01 => some major
  | 0x02 => some major6th
  | 0x03 => some major7th
  | 0x04 => some major9th
  | 0x05 => some major11th
  | 0x06 => some major13th
  | 0x07 => some minor
  | 0x08 => some minor6th
  | 0x09 => some minor7th
  | 0x0A => some minor9th
  | 0x0B => some minor11th
  | 0x0C => some minor13th
  | 0x0D => some dominant
  | 0x0E => some dominant9th
  | 0x0F => some dominant11th
  | 0x10 => some dominant13th
  | 0x11 => some augmented
  | 0x12 => some augmented7th
  | 0x13 => some diminished
  | 0x14 => some diminished7th
  | 0x15 => some halfDiminished
  | 0x16 => some majorMinor
  | 0x17 => some pedal
  | 0x18 => some power
  | 0x19 => some suspended2nd
  | 0x1A => some suspended4th
  | _ => none

/-- `ChordType::into_octet` (set_chord_name.rs:282-313). -/
def intoOctet : ChordType → BitVec 8
  | clearChord => 0x00
  | major => 0x01
  | major6th => 0x02
  | major7th => 0x03
  | major9th => 0x04
  | major11th => 0x05
  | major13th => 0x06
  | minor => 0x07
  | minor6th => 0x08
  | minor7th => 0x09
  | minor9th => 0x0A
  | minor11th => 0x0B
  | minor13th => 0x0C
  | dominant => 0x0D
  | dominant9th => 0x0E
  | dominant11th => 0x0F
  | dominant13th => 0x10
  | augmented => 0x11
  | augmented7th => 0x12
  | diminished => 0x13
  | diminished7th => 0x14
  | halfDiminished => 0x15
  | majorMinor => 0x16
  | pedal => 0x17
  | power => 0x18
  | suspended2nd => 0x19
  | suspended4th => 0x1A

end ChordType

/-- `Alteration` (set_chord_name.rs:324-329). -/
inductive Alteration where
  | add (degree : BitVec 4)
  | subtract (degree : BitVec 4)
  | raise (degree : BitVec 4)
  | lower (degree : BitVec 4)
deriving DecidableEq, Repr

namespace Alteration

/-- `alteration_from_octet` (set_chord_name.rs:378-390). -/
def fromOctet (o : BitVec 8) : Option (Option Alteration) :=
  match (U8.nibble o 0).toNat with
  | 0x0 => some none
  | 0x1 => some (some (add (U8.nibble o 1)))
  | 0x2 => some (some (subtract (U8.nibble o 1)))
  | 0x3 => some (some (raise (U8.nibble o 1)))
  | 0x4 => some (some (lower (U8.nibble o 1)))
  | _ => none

/-- `alteration_into_octet` (set_chord_name.rs:392-401). -/
def intoOctet : Option Alteration → BitVec 8
  | none => 0x0
  | some (add d) => 0x10#8 ||| d.setWidth 8
  | some (subtract d) => 0x20#8 ||| d.setWidth 8
  | some (raise d) => 0x30#8 ||| d.setWidth 8
  | some (lower d) => 0x40#8 ||| d.setWidth 8

end Alteration

/-- `UiHint` (/repo/midi2/src/ump_stream/function_block_info.rs:39-44). -/
inductive UiHint where
  | undeclared | sender | receiver | senderReceiver
deriving DecidableEq, Repr

namespace UiHint

/-- `UiHintProperty::read` (function_block_info.rs:57-63). -/
def fromCrumb (c : BitVec 2) : UiHint :=
  match c.toNat with
  | 0 => undeclared
  | 1 => receiver
  | 2 => sender
  | _ => senderReceiver

/-- `UiHintProperty::write` (function_block_info.rs:83-88). -/
def intoCrumb : UiHint → BitVec 2
  | undeclared => 0
  | receiver => 1
  | sender => 2
  | senderReceiver => 3

end UiHint

/-- `Midi1Port` (function_block_info.rs:104-107). -/
inductive Midi1Port where
  | restrictBandwidth | dontRestrictBandwidth
deriving DecidableEq, Repr

namespace Midi1Port

/-- `Midi1PortProperty::read`/`validate` (function_block_info.rs:120-125, 130-137);
`none` is the rejected code (panic in `read`). -/
def fromCrumb (c : BitVec 2) : Option (Option Midi1Port) :=
  match c.toNat with
  | 0 => some none
  | 1 => some (some dontRestrictBandwidth)
  | 2 => some (some restrictBandwidth)
  | _ => none

/-- `Midi1PortProperty::write` (function_block_info.rs:154-158). -/
def intoCrumb : Option Midi1Port → BitVec 2
  | none => 0
  | some dontRestrictBandwidth => 1
  | some restrictBandwidth => 2

end Midi1Port

/-- `Direction` (function_block_info.rs:167-171). -/
inductive Direction where
  | input | output | bidirectional
deriving DecidableEq, Repr

namespace Direction

/-- `DirectionProperty::read`/`validate` (function_block_info.rs:184-189, 194-202). -/
def fromCrumb (c : BitVec 2) : Option Direction :=
  match c.toNat with
  | 1 => some input
  | 2 => some output
  | 3 => some bidirectional
  | _ => none

/-- `DirectionProperty::write` (function_block_info.rs:219-223). -/
def intoCrumb : Direction → BitVec 2
  | input => 1
  | output => 2
  | bidirectional => 3

end Direction

end Midi2
