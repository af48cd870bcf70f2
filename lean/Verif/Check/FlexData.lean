import Verif.Check.Replay

/-!
# Replay of the unit tests of flex_data

Generated by /verif/replay from the Rust source; see `Verif.Check.Replay`.  These are
75 tests over literals, not proofs.
-/

set_option linter.unusedVariables false

namespace Midi2.Replay

-- flex_data.rs:1197 try_from_empty
example : (do
    Res.assert (decide ((FlexData.tryFrom ([] : List (BitVec 32))) = (.err .invalidData)))
    pure () : Res Unit) = .ok () := by decide +kernel

-- flex_data.rs:1206 try_from_text
example : (do
    let x1 ← ((⟨"LyricistName", 0x1, 0x6⟩ : FlexText).tryFrom ([0xD0500106, 0x47696D6D, 0x6520736F, 0x6D652073, 0xD0D00106, 0x69676E61, 0x6C210000, 0x0] : List (BitVec 32))).unwrap
    Res.assert (decide ((FlexData.tryFrom ([0xD0500106, 0x47696D6D, 0x6520736F, 0x6D652073, 0xD0D00106, 0x69676E61, 0x6C210000, 0x0] : List (BitVec 32))) = (.ok (UmpKind.flexText (⟨"LyricistName", 0x1, 0x6⟩ : FlexText), x1))))
    pure () : Res Unit) = .ok () := by decide +kernel

-- flex_data.rs:1226 try_from_set_tempo
example : (do
    let x1 ← (Msg.flexSetTempo.tryFrom .ump ([0xD7100000, 0xF751FE05, 0x0, 0x0] : List (BitVec 32))).unwrap
    Res.assert (decide ((FlexData.tryFrom ([0xD7100000, 0xF751FE05, 0x0, 0x0] : List (BitVec 32))) = (.ok (UmpKind.fixed Msg.flexSetTempo, x1))))
    pure () : Res Unit) = .ok () := by decide +kernel

-- flex_data.rs:1237 read_bank
example : (do
    let x1 ← (FlexData.tryFrom ([0xD7100000, 0xF751FE05, 0x0, 0x0] : List (BitVec 32))).unwrap
    let x2 ← x1.1.flexBank x1.2
    Res.assert (decide (x2 = 0))
    pure () : Res Unit) = .ok () := by decide +kernel

-- flex_data.rs:1248 packets
example : (do
    let x1 ← (FlexData.tryFrom ([0xD0500106, 0x47696D6D, 0x6520736F, 0x6D652073, 0xD0D00106, 0x69676E61, 0x6C210000, 0x0] : List (BitVec 32))).unwrap
    let x2 ← x1.1.packets x1.2
    let (x3, c4) ← Packet.itNext x2
    let x5 ← unwrapO x3
    Res.assert (decide (x5.2 = ([0xD0500106, 0x47696D6D, 0x6520736F, 0x6D652073] : List (BitVec 32))))
    let (x6, c7) ← Packet.itNext c4
    let x8 ← unwrapO x6
    Res.assert (decide (x8.2 = ([0xD0D00106, 0x69676E61, 0x6C210000, 0x0] : List (BitVec 32))))
    let (x9, c10) ← Packet.itNext c7
    Res.assert x9.isNone
    pure () : Res Unit) = .ok () := by decide +kernel

-- flex_data.rs:1278 try_from_set_chord_name_data
example : (do
    let x1 ← (FlexData.tryFrom ([0xD70B0006, 0xF7033519, 0x4B000000, 0x110A0020] : List (BitVec 32))).unwrap
    pure () : Res Unit) = .ok () := by decide +kernel

-- flex_data/packet.rs:94 construction
example : (do
    Res.assert ((PacketKind.tryFrom .flexData ([0xD0000000, 0x0] : List (BitVec 32))).isOk)
    pure () : Res Unit) = .ok () := by decide +kernel

-- flex_data/packet.rs:99 construction_long_slice
example : (do
    Res.assert ((PacketKind.tryFrom .flexData ([0xD0000000, 0x0, 0x0, 0x0] : List (BitVec 32))).isOk)
    pure () : Res Unit) = .ok () := by decide +kernel

-- flex_data/packet.rs:104 construction_very_long_slice
example : (do
    Res.assert ((PacketKind.tryFrom .flexData ([0xD0000000, 0x0, 0x0, 0x0, 0x0] : List (BitVec 32))).isOk)
    pure () : Res Unit) = .ok () := by decide +kernel

-- flex_data/packet.rs:109 construction_short_slice
example : (do
    Res.assert (decide ((PacketKind.tryFrom .flexData ([0xD0000000] : List (BitVec 32))) = (.err .invalidData)))
    pure () : Res Unit) = .ok () := by decide +kernel

-- flex_data/packet.rs:119 construction_incorrect_ump_message_type
example : (do
    Res.assert (decide ((PacketKind.tryFrom .flexData ([0x0, 0x0, 0x0, 0x0] : List (BitVec 32))) = (.err .invalidData)))
    pure () : Res Unit) = .ok () := by decide +kernel

-- flex_data/packet.rs:129 complete_format
example : (do
    let x1 ← (PacketKind.tryFrom .flexData ([0xD0000000, 0x0, 0x0, 0x0] : List (BitVec 32))).unwrap
    let x2 ← Packet.flexFormat x1
    Res.assert (decide (x2 = PacketStatus.complete))
    pure () : Res Unit) = .ok () := by decide +kernel

-- flex_data/packet.rs:139 start_format
example : (do
    let x1 ← (PacketKind.tryFrom .flexData ([0xD0400000, 0x0, 0x0, 0x0] : List (BitVec 32))).unwrap
    let x2 ← Packet.flexFormat x1
    Res.assert (decide (x2 = PacketStatus.start))
    pure () : Res Unit) = .ok () := by decide +kernel

-- flex_data/packet.rs:149 continue_format
example : (do
    let x1 ← (PacketKind.tryFrom .flexData ([0xD0800000, 0x0, 0x0, 0x0] : List (BitVec 32))).unwrap
    let x2 ← Packet.flexFormat x1
    Res.assert (decide (x2 = PacketStatus.continue_))
    pure () : Res Unit) = .ok () := by decide +kernel

-- flex_data/packet.rs:159 end_format
example : (do
    let x1 ← (PacketKind.tryFrom .flexData ([0xD0C00000, 0x0, 0x0, 0x0] : List (BitVec 32))).unwrap
    let x2 ← Packet.flexFormat x1
    Res.assert (decide (x2 = PacketStatus.end_))
    pure () : Res Unit) = .ok () := by decide +kernel

-- flex_data/set_chord_name.rs:410 setters
example : (do
    let m1 ← Msg.flexSetChordName.newArray .ump 4
    let m2 ← Fld.write .ump (.schema .u4 ⟨0x0F000000, 0, 0, 0⟩) m1 ((0x7 : BitVec 4) : BitVec 4)
    let m3 ← Fld.write .ump (.flexOptionalChannel) m2 ((some (0xB : BitVec 4)) : Option (BitVec 4))
    let m4 ← Fld.write .ump (.chordSharpsFlats ⟨0, 0xF0000000, 0, 0⟩) m3 (ChordSharpsFlats.flat : ChordSharpsFlats)
    let m5 ← Fld.write .ump (.tonic ⟨0, 0x0F000000, 0, 0⟩) m4 (Tonic.G : Tonic)
    let m6 ← Fld.write .ump (.chordType ⟨0, 0x00FF0000, 0, 0⟩) m5 (ChordType.major7th : ChordType)
    let m7 ← Fld.write .ump (.alteration ⟨0, 0x0000FF00, 0, 0⟩) m6 ((some (Alteration.raise (0x5 : BitVec 4))) : Option (Alteration))
    let m8 ← Fld.write .ump (.alteration ⟨0, 0x000000FF, 0, 0⟩) m7 ((some (Alteration.add (0x9 : BitVec 4))) : Option (Alteration))
    let m9 ← Fld.write .ump (.alteration ⟨0, 0, 0xFF000000, 0⟩) m8 ((some (Alteration.lower (0xB : BitVec 4))) : Option (Alteration))
    let m10 ← Fld.write .ump (.alteration ⟨0, 0, 0x00FF0000, 0⟩) m9 (none : Option (Alteration))
    let m11 ← Fld.write .ump (.chordSharpsFlats ⟨0, 0, 0, 0xF0000000⟩) m10 (ChordSharpsFlats.sharp : ChordSharpsFlats)
    let m12 ← Fld.write .ump (.tonic ⟨0, 0, 0, 0x0F000000⟩) m11 (Tonic.A : Tonic)
    let m13 ← Fld.write .ump (.chordType ⟨0, 0, 0, 0x00FF0000⟩) m12 (ChordType.minor9th : ChordType)
    let m14 ← Fld.write .ump (.alteration ⟨0, 0, 0, 0x0000FF00⟩) m13 (none : Option (Alteration))
    let m15 ← Fld.write .ump (.alteration ⟨0, 0, 0, 0x000000FF⟩) m14 ((some (Alteration.subtract (0x0 : BitVec 4))) : Option (Alteration))
    Res.assert (decide (m15 = ([0xD70B0006, 0xF7033519, 0x4B000000, 0x110A0020] : List (BitVec 32))))
    pure () : Res Unit) = .ok () := by decide +kernel

-- flex_data/set_chord_name.rs:433 channel
example : (do
    let x1 ← (Msg.flexSetChordName.tryFrom .ump ([0xD70B0006, 0xF7033519, 0x4B000000, 0x110A0020] : List (BitVec 32))).unwrap
    let x2 : Option (BitVec 4) ← Fld.read .ump (.flexOptionalChannel) x1
    Res.assert (decide (x2 = (some (0xB : BitVec 4))))
    pure () : Res Unit) = .ok () := by decide +kernel

-- flex_data/set_chord_name.rs:443 tonic_sharps_flats
example : (do
    let x1 ← (Msg.flexSetChordName.tryFrom .ump ([0xD70B0006, 0xF7033519, 0x4B000000, 0x110A0020] : List (BitVec 32))).unwrap
    let x2 : ChordSharpsFlats ← Fld.read .ump (.chordSharpsFlats ⟨0, 0xF0000000, 0, 0⟩) x1
    Res.assert (decide (x2 = ChordSharpsFlats.flat))
    pure () : Res Unit) = .ok () := by decide +kernel

-- flex_data/set_chord_name.rs:453 tonic
example : (do
    let x1 ← (Msg.flexSetChordName.tryFrom .ump ([0xD70B0006, 0xF7033519, 0x4B000000, 0x110A0020] : List (BitVec 32))).unwrap
    let x2 : Tonic ← Fld.read .ump (.tonic ⟨0, 0x0F000000, 0, 0⟩) x1
    Res.assert (decide (x2 = Tonic.G))
    pure () : Res Unit) = .ok () := by decide +kernel

-- flex_data/set_chord_name.rs:463 chord_type
example : (do
    let x1 ← (Msg.flexSetChordName.tryFrom .ump ([0xD70B0006, 0xF7033519, 0x4B000000, 0x110A0020] : List (BitVec 32))).unwrap
    let x2 : ChordType ← Fld.read .ump (.chordType ⟨0, 0x00FF0000, 0, 0⟩) x1
    Res.assert (decide (x2 = ChordType.major7th))
    pure () : Res Unit) = .ok () := by decide +kernel

-- flex_data/set_chord_name.rs:473 chord_alteration1
example : (do
    let x1 ← (Msg.flexSetChordName.tryFrom .ump ([0xD70B0006, 0xF7033519, 0x4B000000, 0x110A0020] : List (BitVec 32))).unwrap
    let x2 : Option (Alteration) ← Fld.read .ump (.alteration ⟨0, 0x0000FF00, 0, 0⟩) x1
    Res.assert (decide (x2 = (some (Alteration.raise (0x5 : BitVec 4)))))
    pure () : Res Unit) = .ok () := by decide +kernel

-- flex_data/set_chord_name.rs:483 chord_alteration2
example : (do
    let x1 ← (Msg.flexSetChordName.tryFrom .ump ([0xD70B0006, 0xF7033519, 0x4B000000, 0x110A0020] : List (BitVec 32))).unwrap
    let x2 : Option (Alteration) ← Fld.read .ump (.alteration ⟨0, 0x000000FF, 0, 0⟩) x1
    Res.assert (decide (x2 = (some (Alteration.add (0x9 : BitVec 4)))))
    pure () : Res Unit) = .ok () := by decide +kernel

-- flex_data/set_chord_name.rs:493 chord_alteration3
example : (do
    let x1 ← (Msg.flexSetChordName.tryFrom .ump ([0xD70B0006, 0xF7033519, 0x4B000000, 0x110A0020] : List (BitVec 32))).unwrap
    let x2 : Option (Alteration) ← Fld.read .ump (.alteration ⟨0, 0, 0xFF000000, 0⟩) x1
    Res.assert (decide (x2 = (some (Alteration.lower (0xB : BitVec 4)))))
    pure () : Res Unit) = .ok () := by decide +kernel

-- flex_data/set_chord_name.rs:503 chord_alteration4
example : (do
    let x1 ← (Msg.flexSetChordName.tryFrom .ump ([0xD70B0006, 0xF7033519, 0x4B000000, 0x110A0020] : List (BitVec 32))).unwrap
    let x2 : Option (Alteration) ← Fld.read .ump (.alteration ⟨0, 0, 0x00FF0000, 0⟩) x1
    Res.assert (decide (x2 = none))
    pure () : Res Unit) = .ok () := by decide +kernel

-- flex_data/set_chord_name.rs:513 bass_sharps_flats
example : (do
    let x1 ← (Msg.flexSetChordName.tryFrom .ump ([0xD70B0006, 0xF7033519, 0x4B000000, 0x110A0020] : List (BitVec 32))).unwrap
    let x2 : ChordSharpsFlats ← Fld.read .ump (.chordSharpsFlats ⟨0, 0, 0, 0xF0000000⟩) x1
    Res.assert (decide (x2 = ChordSharpsFlats.sharp))
    pure () : Res Unit) = .ok () := by decide +kernel

-- flex_data/set_chord_name.rs:523 bass_note
example : (do
    let x1 ← (Msg.flexSetChordName.tryFrom .ump ([0xD70B0006, 0xF7033519, 0x4B000000, 0x110A0020] : List (BitVec 32))).unwrap
    let x2 : Tonic ← Fld.read .ump (.tonic ⟨0, 0, 0, 0x0F000000⟩) x1
    Res.assert (decide (x2 = Tonic.A))
    pure () : Res Unit) = .ok () := by decide +kernel

-- flex_data/set_chord_name.rs:533 bass_chord_type
example : (do
    let x1 ← (Msg.flexSetChordName.tryFrom .ump ([0xD70B0006, 0xF7033519, 0x4B000000, 0x110A0020] : List (BitVec 32))).unwrap
    let x2 : ChordType ← Fld.read .ump (.chordType ⟨0, 0, 0, 0x00FF0000⟩) x1
    Res.assert (decide (x2 = ChordType.minor9th))
    pure () : Res Unit) = .ok () := by decide +kernel

-- flex_data/set_chord_name.rs:543 bass_alteration1
example : (do
    let x1 ← (Msg.flexSetChordName.tryFrom .ump ([0xD70B0006, 0xF7033519, 0x4B000000, 0x110A0020] : List (BitVec 32))).unwrap
    let x2 : Option (Alteration) ← Fld.read .ump (.alteration ⟨0, 0, 0, 0x0000FF00⟩) x1
    Res.assert (decide (x2 = none))
    pure () : Res Unit) = .ok () := by decide +kernel

-- flex_data/set_chord_name.rs:553 bass_alteration2
example : (do
    let x1 ← (Msg.flexSetChordName.tryFrom .ump ([0xD70B0006, 0xF7033519, 0x4B000000, 0x110A0020] : List (BitVec 32))).unwrap
    let x2 : Option (Alteration) ← Fld.read .ump (.alteration ⟨0, 0, 0, 0x000000FF⟩) x1
    Res.assert (decide (x2 = (some (Alteration.subtract (0x0 : BitVec 4)))))
    pure () : Res Unit) = .ok () := by decide +kernel

-- flex_data/set_key_signature.rs:99 setters
example : (do
    let m1 ← Msg.flexSetKeySignature.newArray .ump 4
    let m2 ← Fld.write .ump (.schema .u4 ⟨0x0F000000, 0, 0, 0⟩) m1 ((0x4 : BitVec 4) : BitVec 4)
    let m3 ← Fld.write .ump (.tonic ⟨0, 0x0F000000, 0, 0⟩) m2 (Tonic.D : Tonic)
    let m4 ← Fld.write .ump (.keySharpsFlats) m3 ((KeySharpsFlats.sharps (0x5 : BitVec 3)) : KeySharpsFlats)
    Res.assert (decide (m4 = ([0xD4100005, 0x54000000, 0x0, 0x0] : List (BitVec 32))))
    pure () : Res Unit) = .ok () := by decide +kernel

-- flex_data/set_key_signature.rs:111 set_flats
example : (do
    let m1 ← Msg.flexSetKeySignature.newArray .ump 4
    let m2 ← Fld.write .ump (.schema .u4 ⟨0x0F000000, 0, 0, 0⟩) m1 ((0x4 : BitVec 4) : BitVec 4)
    let m3 ← Fld.write .ump (.tonic ⟨0, 0x0F000000, 0, 0⟩) m2 (Tonic.D : Tonic)
    let m4 ← Fld.write .ump (.keySharpsFlats) m3 ((KeySharpsFlats.flats (0x5 : BitVec 3)) : KeySharpsFlats)
    Res.assert (decide (m4 = ([0xD4100005, 0xB4000000, 0x0, 0x0] : List (BitVec 32))))
    pure () : Res Unit) = .ok () := by decide +kernel

-- flex_data/set_key_signature.rs:123 builder_non_standard
example : (do
    let m1 ← Msg.flexSetKeySignature.newArray .ump 4
    let m2 ← Fld.write .ump (.schema .u4 ⟨0x0F000000, 0, 0, 0⟩) m1 ((0x4 : BitVec 4) : BitVec 4)
    let m3 ← Fld.write .ump (.tonic ⟨0, 0x0F000000, 0, 0⟩) m2 (Tonic.nonStandard : Tonic)
    let m4 ← Fld.write .ump (.keySharpsFlats) m3 (KeySharpsFlats.nonStandard : KeySharpsFlats)
    Res.assert (decide (m4 = ([0xD4100005, 0x80000000, 0x0, 0x0] : List (BitVec 32))))
    pure () : Res Unit) = .ok () := by decide +kernel

-- flex_data/set_key_signature.rs:135 builder_channel
example : (do
    let m1 ← Msg.flexSetKeySignature.newArray .ump 4
    let m2 ← Fld.write .ump (.schema .u4 ⟨0x0F000000, 0, 0, 0⟩) m1 ((0x4 : BitVec 4) : BitVec 4)
    let m3 ← Fld.write .ump (.tonic ⟨0, 0x0F000000, 0, 0⟩) m2 (Tonic.nonStandard : Tonic)
    let m4 ← Fld.write .ump (.keySharpsFlats) m3 (KeySharpsFlats.nonStandard : KeySharpsFlats)
    let m5 ← Fld.write .ump (.flexOptionalChannel) m4 ((some (0xD : BitVec 4)) : Option (BitVec 4))
    Res.assert (decide (m5 = ([0xD40D0005, 0x80000000, 0x0, 0x0] : List (BitVec 32))))
    pure () : Res Unit) = .ok () := by decide +kernel

-- flex_data/set_key_signature.rs:148 tonic
example : (do
    let x1 ← (Msg.flexSetKeySignature.tryFrom .ump ([0xD4100005, 0x54000000, 0x0, 0x0] : List (BitVec 32))).unwrap
    let x2 : Tonic ← Fld.read .ump (.tonic ⟨0, 0x0F000000, 0, 0⟩) x1
    Res.assert (decide (x2 = Tonic.D))
    pure () : Res Unit) = .ok () := by decide +kernel

-- flex_data/set_key_signature.rs:158 sharps_flats
example : (do
    let x1 ← (Msg.flexSetKeySignature.tryFrom .ump ([0xD4100005, 0x54000000, 0x0, 0x0] : List (BitVec 32))).unwrap
    let x2 : KeySharpsFlats ← Fld.read .ump (.keySharpsFlats) x1
    Res.assert (decide (x2 = (KeySharpsFlats.sharps (0x5 : BitVec 3))))
    pure () : Res Unit) = .ok () := by decide +kernel

-- flex_data/set_key_signature.rs:168 sharps_flats_with_flats
example : (do
    let x1 ← (Msg.flexSetKeySignature.tryFrom .ump ([0xD4100005, 0xB4000000, 0x0, 0x0] : List (BitVec 32))).unwrap
    let x2 : KeySharpsFlats ← Fld.read .ump (.keySharpsFlats) x1
    Res.assert (decide (x2 = (KeySharpsFlats.flats (0x5 : BitVec 3))))
    pure () : Res Unit) = .ok () := by decide +kernel

-- flex_data/set_key_signature.rs:178 sharps_flats_non_standard
example : (do
    let x1 ← (Msg.flexSetKeySignature.tryFrom .ump ([0xD4100005, 0x80000000, 0x0, 0x0] : List (BitVec 32))).unwrap
    let x2 : KeySharpsFlats ← Fld.read .ump (.keySharpsFlats) x1
    Res.assert (decide (x2 = KeySharpsFlats.nonStandard))
    pure () : Res Unit) = .ok () := by decide +kernel

-- flex_data/set_key_signature.rs:188 channel
example : (do
    let x1 ← (Msg.flexSetKeySignature.tryFrom .ump ([0xD40D0005, 0x80000000, 0x0, 0x0] : List (BitVec 32))).unwrap
    let x2 : Option (BitVec 4) ← Fld.read .ump (.flexOptionalChannel) x1
    Res.assert (decide (x2 = (some (0xD : BitVec 4))))
    pure () : Res Unit) = .ok () := by decide +kernel

-- flex_data/set_key_signature.rs:198 no_channel
example : (do
    let x1 ← (Msg.flexSetKeySignature.tryFrom .ump ([0xD4100005, 0x80000000, 0x0, 0x0] : List (BitVec 32))).unwrap
    let x2 : Option (BitVec 4) ← Fld.read .ump (.flexOptionalChannel) x1
    Res.assert (decide (x2 = none))
    pure () : Res Unit) = .ok () := by decide +kernel

-- flex_data/set_metronome.rs:66 setters
example : (do
    let m1 ← Msg.flexSetMetronome.newArray .ump 4
    let m2 ← Fld.write .ump (.schema .u4 ⟨0x0F000000, 0, 0, 0⟩) m1 ((0x1 : BitVec 4) : BitVec 4)
    let m3 ← Fld.write .ump (.schema .u8 ⟨0, 0xFF000000, 0, 0⟩) m2 ((0x9B : BitVec 8) : BitVec 8)
    let m4 ← Fld.write .ump (.schema .u8 ⟨0, 0x00FF0000, 0, 0⟩) m3 ((0x4A : BitVec 8) : BitVec 8)
    let m5 ← Fld.write .ump (.schema .u8 ⟨0, 0x0000FF00, 0, 0⟩) m4 ((0xFE : BitVec 8) : BitVec 8)
    let m6 ← Fld.write .ump (.schema .u8 ⟨0, 0x000000FF, 0, 0⟩) m5 ((0x56 : BitVec 8) : BitVec 8)
    let m7 ← Fld.write .ump (.schema .u8 ⟨0, 0, 0xFF000000, 0⟩) m6 ((0xB8 : BitVec 8) : BitVec 8)
    let m8 ← Fld.write .ump (.schema .u8 ⟨0, 0, 0x00FF0000, 0⟩) m7 ((0x1B : BitVec 8) : BitVec 8)
    Res.assert (decide (m8 = ([0xD1100002, 0x9B4AFE56, 0xB81B0000, 0x0] : List (BitVec 32))))
    pure () : Res Unit) = .ok () := by decide +kernel

-- flex_data/set_metronome.rs:82 number_of_clocks_per_primary_click
example : (do
    let x1 ← (Msg.flexSetMetronome.tryFrom .ump ([0xD1100002, 0x9B4AFE56, 0xB81B0000, 0x0] : List (BitVec 32))).unwrap
    let x2 : BitVec 8 ← Fld.read .ump (.schema .u8 ⟨0, 0xFF000000, 0, 0⟩) x1
    Res.assert (decide (x2 = (0x9B : BitVec 8)))
    pure () : Res Unit) = .ok () := by decide +kernel

-- flex_data/set_metronome.rs:92 bar_accent1
example : (do
    let x1 ← (Msg.flexSetMetronome.tryFrom .ump ([0xD1100002, 0x9B4AFE56, 0xB81B0000, 0x0] : List (BitVec 32))).unwrap
    let x2 : BitVec 8 ← Fld.read .ump (.schema .u8 ⟨0, 0x00FF0000, 0, 0⟩) x1
    Res.assert (decide (x2 = (0x4A : BitVec 8)))
    pure () : Res Unit) = .ok () := by decide +kernel

-- flex_data/set_metronome.rs:102 bar_accent2
example : (do
    let x1 ← (Msg.flexSetMetronome.tryFrom .ump ([0xD1100002, 0x9B4AFE56, 0xB81B0000, 0x0] : List (BitVec 32))).unwrap
    let x2 : BitVec 8 ← Fld.read .ump (.schema .u8 ⟨0, 0x0000FF00, 0, 0⟩) x1
    Res.assert (decide (x2 = (0xFE : BitVec 8)))
    pure () : Res Unit) = .ok () := by decide +kernel

-- flex_data/set_metronome.rs:112 bar_accent3
example : (do
    let x1 ← (Msg.flexSetMetronome.tryFrom .ump ([0xD1100002, 0x9B4AFE56, 0xB81B0000, 0x0] : List (BitVec 32))).unwrap
    let x2 : BitVec 8 ← Fld.read .ump (.schema .u8 ⟨0, 0x000000FF, 0, 0⟩) x1
    Res.assert (decide (x2 = (0x56 : BitVec 8)))
    pure () : Res Unit) = .ok () := by decide +kernel

-- flex_data/set_metronome.rs:122 number_of_subdivision_clicks1
example : (do
    let x1 ← (Msg.flexSetMetronome.tryFrom .ump ([0xD1100002, 0x9B4AFE56, 0xB81B0000, 0x0] : List (BitVec 32))).unwrap
    let x2 : BitVec 8 ← Fld.read .ump (.schema .u8 ⟨0, 0, 0xFF000000, 0⟩) x1
    Res.assert (decide (x2 = (0xB8 : BitVec 8)))
    pure () : Res Unit) = .ok () := by decide +kernel

-- flex_data/set_metronome.rs:132 number_of_subdivision_clicks2
example : (do
    let x1 ← (Msg.flexSetMetronome.tryFrom .ump ([0xD1100002, 0x9B4AFE56, 0xB81B0000, 0x0] : List (BitVec 32))).unwrap
    let x2 : BitVec 8 ← Fld.read .ump (.schema .u8 ⟨0, 0, 0x00FF0000, 0⟩) x1
    Res.assert (decide (x2 = (0x1B : BitVec 8)))
    pure () : Res Unit) = .ok () := by decide +kernel

-- flex_data/set_tempo.rs:41 builder
example : (do
    let m1 ← Msg.flexSetTempo.newArray .ump 4
    let m2 ← Fld.write .ump (.schema .u4 ⟨0x0F000000, 0, 0, 0⟩) m1 ((0x7 : BitVec 4) : BitVec 4)
    let m3 ← Fld.write .ump (.schema .u32 ⟨0, 0xFFFFFFFF, 0, 0⟩) m2 ((0xF751FE05 : BitVec 32) : BitVec 32)
    Res.assert (decide (m3 = ([0xD7100000, 0xF751FE05, 0x0, 0x0] : List (BitVec 32))))
    pure () : Res Unit) = .ok () := by decide +kernel

-- flex_data/set_tempo.rs:49 number_of_10_nanosecond_units_per_quarter_note
example : (do
    let x1 ← (Msg.flexSetTempo.tryFrom .ump ([0xD7100000, 0xF751FE05, 0x0, 0x0] : List (BitVec 32))).unwrap
    let x2 : BitVec 32 ← Fld.read .ump (.schema .u32 ⟨0, 0xFFFFFFFF, 0, 0⟩) x1
    Res.assert (decide (x2 = (0xF751FE05 : BitVec 32)))
    pure () : Res Unit) = .ok () := by decide +kernel

-- flex_data/set_time_signature.rs:51 builder
example : (do
    let m1 ← Msg.flexSetTimeSignature.newArray .ump 4
    let m2 ← Fld.write .ump (.schema .u4 ⟨0x0F000000, 0, 0, 0⟩) m1 ((0xA : BitVec 4) : BitVec 4)
    let m3 ← Fld.write .ump (.schema .u8 ⟨0, 0xFF000000, 0, 0⟩) m2 ((0xCD : BitVec 8) : BitVec 8)
    let m4 ← Fld.write .ump (.schema .u8 ⟨0, 0x00FF0000, 0, 0⟩) m3 ((0x90 : BitVec 8) : BitVec 8)
    let m5 ← Fld.write .ump (.schema .u8 ⟨0, 0x0000FF00, 0, 0⟩) m4 ((0x7E : BitVec 8) : BitVec 8)
    Res.assert (decide (m5 = ([0xDA100001, 0xCD907E00, 0x0, 0x0] : List (BitVec 32))))
    pure () : Res Unit) = .ok () := by decide +kernel

-- flex_data/set_time_signature.rs:64 numerator
example : (do
    let x1 ← (Msg.flexSetTimeSignature.tryFrom .ump ([0xDA100001, 0xCD907E00, 0x0, 0x0] : List (BitVec 32))).unwrap
    let x2 : BitVec 8 ← Fld.read .ump (.schema .u8 ⟨0, 0xFF000000, 0, 0⟩) x1
    Res.assert (decide (x2 = (0xCD : BitVec 8)))
    pure () : Res Unit) = .ok () := by decide +kernel

-- flex_data/set_time_signature.rs:74 denominator
example : (do
    let x1 ← (Msg.flexSetTimeSignature.tryFrom .ump ([0xDA100001, 0xCD907E00, 0x0, 0x0] : List (BitVec 32))).unwrap
    let x2 : BitVec 8 ← Fld.read .ump (.schema .u8 ⟨0, 0x00FF0000, 0, 0⟩) x1
    Res.assert (decide (x2 = (0x90 : BitVec 8)))
    pure () : Res Unit) = .ok () := by decide +kernel

-- flex_data/set_time_signature.rs:84 number_of_32nd_notes
example : (do
    let x1 ← (Msg.flexSetTimeSignature.tryFrom .ump ([0xDA100001, 0xCD907E00, 0x0, 0x0] : List (BitVec 32))).unwrap
    let x2 : BitVec 8 ← Fld.read .ump (.schema .u8 ⟨0, 0x0000FF00, 0, 0⟩) x1
    Res.assert (decide (x2 = (0x7E : BitVec 8)))
    pure () : Res Unit) = .ok () := by decide +kernel

-- flex_data/set_time_signature.rs:94 bank
example : (do
    let x1 ← (Msg.flexSetTimeSignature.tryFrom .ump ([0xDA100001, 0xCD907E00, 0x0, 0x0] : List (BitVec 32))).unwrap
    let x2 ← (UmpKind.fixed Msg.flexSetTimeSignature).flexBank x1
    Res.assert (decide (x2 = 0))
    pure () : Res Unit) = .ok () := by decide +kernel

-- flex_data/set_time_signature.rs:104 status
example : (do
    let x1 ← (Msg.flexSetTimeSignature.tryFrom .ump ([0xDA100001, 0xCD907E00, 0x0, 0x0] : List (BitVec 32))).unwrap
    let x2 ← (UmpKind.fixed Msg.flexSetTimeSignature).flexStatus x1
    Res.assert (decide (x2 = (0x1 : BitVec 8)))
    pure () : Res Unit) = .ok () := by decide +kernel

-- flex_data/unknown_metadata_text.rs:57 text_bytes
example : (do
    let m1 ← (⟨"UnknownMetadataText", 0x1, 0x0⟩ : FlexText).newVec
    let m2 ← FlexText.setText m1 "Gimme some signal!"
    let x3 ← FlexText.textBytes m2
    pure () : Res Unit) = .ok () := by decide +kernel

-- flex_data/unknown_metadata_text.rs:64 new
example : (do
    let m1 ← (⟨"UnknownMetadataText", 0x1, 0x0⟩ : FlexText).newVec
    Res.assert (decide (m1 = ([0xD0100100, 0x0, 0x0, 0x0] : List (BitVec 32))))
    pure () : Res Unit) = .ok () := by decide +kernel

-- flex_data/unknown_metadata_text.rs:72 set_text
example : (do
    let m1 ← (⟨"UnknownMetadataText", 0x1, 0x0⟩ : FlexText).newVec
    let m2 ← FlexText.setText m1 "Gimme some signal!"
    Res.assert (decide (m2 = ([0xD0500100, 0x47696D6D, 0x6520736F, 0x6D652073, 0xD0D00100, 0x69676E61, 0x6C210000, 0x0] : List (BitVec 32))))
    pure () : Res Unit) = .ok () := by decide +kernel

-- flex_data/unknown_metadata_text.rs:91 set_long_text
example : (do
    let m1 ← (⟨"UnknownMetadataText", 0x1, 0x0⟩ : FlexText).newVec
    let m2 ← FlexText.setText m1 "Synth wizardry: turning knobs and flipping switches until it sounds like a laser battle in space! 💫🔊🚀"
    Res.assert (decide (m2 = ([0xD0500100, 0x53796E74, 0x68207769, 0x7A617264, 0xD0900100, 0x72793A20, 0x7475726E, 0x696E6720, 0xD0900100, 0x6B6E6F62, 0x7320616E, 0x6420666C, 0xD0900100, 0x69707069, 0x6E672073, 0x77697463, 0xD0900100, 0x68657320, 0x756E7469, 0x6C206974, 0xD0900100, 0x20736F75, 0x6E647320, 0x6C696B65, 0xD0900100, 0x2061206C, 0x61736572, 0x20626174, 0xD0900100, 0x746C6520, 0x696E2073, 0x70616365, 0xD0900100, 0x2120F09F, 0x92ABF09F, 0x948AF09F, 0xD0D00100, 0x9A800000, 0x0, 0x0] : List (BitVec 32))))
    pure () : Res Unit) = .ok () := by decide +kernel

-- flex_data/unknown_metadata_text.rs:142 set_long_text_and_reset_to_short
example : (do
    let m1 ← (⟨"UnknownMetadataText", 0x1, 0x0⟩ : FlexText).newVec
    let m2 ← FlexText.setText m1 "Synth wizardry: turning knobs and flipping switches until it sounds like a laser battle in space! 💫🔊🚀"
    let m3 ← FlexText.setText m2 "Gimme some signal!"
    Res.assert (decide (m3 = ([0xD0500100, 0x47696D6D, 0x6520736F, 0x6D652073, 0xD0D00100, 0x69676E61, 0x6C210000, 0x0] : List (BitVec 32))))
    pure () : Res Unit) = .ok () := by decide +kernel

-- flex_data/unknown_metadata_text.rs:162 set_group
example : (do
    let m1 ← (⟨"UnknownMetadataText", 0x1, 0x0⟩ : FlexText).newVec
    let m2 ← FlexText.setText m1 "Gimme some signal!"
    Res.assert (decide ((FlexText.setGroup m2 (0xA : BitVec 4)) = ([0xDA500100, 0x47696D6D, 0x6520736F, 0x6D652073, 0xDAD00100, 0x69676E61, 0x6C210000, 0x0] : List (BitVec 32))))
    pure () : Res Unit) = .ok () := by decide +kernel

-- flex_data/unknown_metadata_text.rs:182 try_set_text
example : (do
    let m1 ← (⟨"UnknownMetadataText", 0x1, 0x0⟩ : FlexText).newArray 8
    let m2 := orElse (FlexText.trySetText m1 "Gimme some signal!") m1
    let x3 ← (FlexText.trySetText m1 "Gimme some signal!").unwrap
    Res.assert (decide (m2 = ([0xD0500100, 0x47696D6D, 0x6520736F, 0x6D652073, 0xD0D00100, 0x69676E61, 0x6C210000, 0x0] : List (BitVec 32))))
    pure () : Res Unit) = .ok () := by decide +kernel

-- flex_data/unknown_metadata_text.rs:203 try_from
example : (do
    Res.assert (decide (((⟨"UnknownMetadataText", 0x1, 0x0⟩ : FlexText).tryFrom ([0xD0500100, 0x47696D6D, 0x6520736F, 0x6D652073, 0xD0D00100, 0x69676E61, 0x6C210000, 0x0] : List (BitVec 32))) = (.ok ([0xD0500100, 0x47696D6D, 0x6520736F, 0x6D652073, 0xD0D00100, 0x69676E61, 0x6C210000, 0x0] : List (BitVec 32)))))
    pure () : Res Unit) = .ok () := by decide +kernel

-- flex_data/unknown_metadata_text.rs:233 try_from_inconsistent_status
example : (do
    Res.assert (decide (((⟨"UnknownMetadataText", 0x1, 0x0⟩ : FlexText).tryFrom ([0xD0500100, 0x47696D6D, 0x6520736F, 0x6D652073, 0xD0D00101, 0x69676E61, 0x6C210000, 0x0] : List (BitVec 32))) = (.err .invalidData)))
    pure () : Res Unit) = .ok () := by decide +kernel

-- flex_data/unknown_metadata_text.rs:252 try_from_inconsistent_bank
example : (do
    Res.assert (decide (((⟨"UnknownMetadataText", 0x1, 0x0⟩ : FlexText).tryFrom ([0xD0500100, 0x47696D6D, 0x6520736F, 0x6D652073, 0xD0D00200, 0x69676E61, 0x6C210000, 0x0] : List (BitVec 32))) = (.err .invalidData)))
    pure () : Res Unit) = .ok () := by decide +kernel

-- flex_data/unknown_metadata_text.rs:271 try_from_inconsistent_groups
example : (do
    Res.assert (decide (((⟨"UnknownMetadataText", 0x1, 0x0⟩ : FlexText).tryFrom ([0xDA100100, 0x47696D6D, 0x6520736F, 0x6D652073, 0xDBD00100, 0x69676E61, 0x6C210000, 0x0] : List (BitVec 32))) = (.err .invalidData)))
    pure () : Res Unit) = .ok () := by decide +kernel

-- flex_data/unknown_metadata_text.rs:292 try_from_expected_start
example : (do
    Res.assert (decide (((⟨"UnknownMetadataText", 0x1, 0x0⟩ : FlexText).tryFrom ([0xD0100100, 0x47696D6D, 0x6520736F, 0x6D652073, 0xD0D00100, 0x69676E61, 0x6C210000, 0x0] : List (BitVec 32))) = (.err .invalidData)))
    pure () : Res Unit) = .ok () := by decide +kernel

-- flex_data/unknown_metadata_text.rs:313 try_from_expected_end
example : (do
    Res.assert (decide (((⟨"UnknownMetadataText", 0x1, 0x0⟩ : FlexText).tryFrom ([0xD0500100, 0x47696D6D, 0x6520736F, 0x6D652073, 0xD0900100, 0x69676E61, 0x6C210000, 0x0] : List (BitVec 32))) = (.err .invalidData)))
    pure () : Res Unit) = .ok () := by decide +kernel

-- flex_data/unknown_metadata_text.rs:334 try_from_expected_complete
example : (do
    Res.assert (decide (((⟨"UnknownMetadataText", 0x1, 0x0⟩ : FlexText).tryFrom ([0xD0500100, 0x47696D6D, 0x6520736F, 0x6D652073] : List (BitVec 32))) = (.err .invalidData)))
    pure () : Res Unit) = .ok () := by decide +kernel

-- flex_data/unknown_metadata_text.rs:346 try_from_expected_continue
example : (do
    Res.assert (decide (((⟨"UnknownMetadataText", 0x1, 0x0⟩ : FlexText).tryFrom ([0xD0500100, 0x47696D6D, 0x6520736F, 0x6D652073, 0xD0500100, 0x47696D6D, 0x6520736F, 0x6D652073, 0xD0900100, 0x47696D6D, 0x6520736F, 0x6D652073] : List (BitVec 32))) = (.err .invalidData)))
    pure () : Res Unit) = .ok () := by decide +kernel

-- flex_data/unknown_metadata_text.rs:371 read_text_bytes
example : (do
    let x1 ← ((⟨"UnknownMetadataText", 0x1, 0x0⟩ : FlexText).tryFrom ([0xD0500100, 0x47696D6D, 0x6520736F, 0x6D652073, 0xD0D00100, 0x69676E61, 0x6C210000, 0x0] : List (BitVec 32))).unwrap
    let x2 ← FlexText.textBytes x1
    Res.assert (decide (x2 = ([0x47, 0x69, 0x6D, 0x6D, 0x65, 0x20, 0x73, 0x6F, 0x6D, 0x65, 0x20, 0x73, 0x69, 0x67, 0x6E, 0x61, 0x6C, 0x21] : List (BitVec 8))))
    pure () : Res Unit) = .ok () := by decide +kernel

-- flex_data/unknown_metadata_text.rs:396 read_empty_text_bytes
example : (do
    let m1 ← (⟨"UnknownMetadataText", 0x1, 0x0⟩ : FlexText).newVec
    let x2 ← FlexText.textBytes m1
    Res.assert (decide (x2 = ([] : List (BitVec 8))))
    pure () : Res Unit) = .ok () := by decide +kernel

-- flex_data/unknown_metadata_text.rs:407 read_string
example : (do
    let x1 ← ((⟨"UnknownMetadataText", 0x1, 0x0⟩ : FlexText).tryFrom ([0xD0500100, 0x47696D6D, 0x6520736F, 0x6D652073, 0xD0D00100, 0x69676E61, 0x6C210000, 0x0] : List (BitVec 32))).unwrap
    let x2 ← FlexText.text x1
    Res.assert (decide (x2 = "Gimme some signal!"))
    pure () : Res Unit) = .ok () := by decide +kernel

-- flex_data/unknown_metadata_text.rs:428 set_string_multiple_of_12_length
example : (do
    let m1 ← (⟨"UnknownMetadataText", 0x1, 0x0⟩ : FlexText).newVec
    let m2 ← FlexText.setText m1 "Digital Audio Workstation - DAW36-16"
    Res.assert (decide (m2 = ([0xD0500100, 0x44696769, 0x74616C20, 0x41756469, 0xD0900100, 0x6F20576F, 0x726B7374, 0x6174696F, 0xD0D00100, 0x6E202D20, 0x44415733, 0x362D3136] : List (BitVec 32))))
    pure () : Res Unit) = .ok () := by decide +kernel

-- flex_data/unknown_metadata_text.rs:451 data
example : (do
    let x1 ← ((⟨"UnknownMetadataText", 0x1, 0x0⟩ : FlexText).tryFrom ([0xD0500100, 0x44696769, 0x74616C20, 0x41756469, 0xD0900100, 0x6F20576F, 0x726B7374, 0x6174696F, 0xD0D00100, 0x6E202D20, 0x44415733, 0x362D3136] : List (BitVec 32))).unwrap
    let x2 ← FlexText.data x1
    Res.assert (decide (x2 = ([0xD0500100, 0x44696769, 0x74616C20, 0x41756469, 0xD0900100, 0x6F20576F, 0x726B7374, 0x6174696F, 0xD0D00100, 0x6E202D20, 0x44415733, 0x362D3136] : List (BitVec 32))))
    pure () : Res Unit) = .ok () := by decide +kernel

-- flex_data/unknown_metadata_text.rs:489 packets
example : (do
    let x1 ← ((⟨"UnknownMetadataText", 0x1, 0x0⟩ : FlexText).tryFrom ([0xD0500100, 0x44696769, 0x74616C20, 0x41756469, 0xD0900100, 0x6F20576F, 0x726B7374, 0x6174696F, 0xD0D00100, 0x6E202D20, 0x44415733, 0x362D3136] : List (BitVec 32))).unwrap
    let x2 ← FlexText.packets x1
    let (x3, c4) ← Packet.itNext x2
    let x5 ← unwrapO x3
    Res.assert (decide (x5.2 = ([0xD0500100, 0x44696769, 0x74616C20, 0x41756469] : List (BitVec 32))))
    let (x6, c7) ← Packet.itNext c4
    let x8 ← unwrapO x6
    Res.assert (decide (x8.2 = ([0xD0900100, 0x6F20576F, 0x726B7374, 0x6174696F] : List (BitVec 32))))
    let (x9, c10) ← Packet.itNext c7
    let x11 ← unwrapO x9
    Res.assert (decide (x11.2 = ([0xD0D00100, 0x6E202D20, 0x44415733, 0x362D3136] : List (BitVec 32))))
    let (x12, c13) ← Packet.itNext c10
    Res.assert x12.isNone
    pure () : Res Unit) = .ok () := by decide +kernel

end Midi2.Replay
