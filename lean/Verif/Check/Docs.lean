import Verif.Check.Replay

/-!
# Replay of the examples in the documentation (doc comments and README)

Generated by /verif/replay from the Rust source; see `Verif.Check.Replay`.  These are
34 tests over literals, not proofs.
-/

set_option linter.unusedVariables false

namespace Midi2.Replay

-- /repo/midi2/src/packets.rs:41
example : (do
    let m1 ← (⟨"ProjectName", 0x1, 0x1⟩ : FlexText).newVec
    let m2 ← FlexText.setText m1 "Shadows of the Forgotten Cathedral"
    let x3 ← FlexText.packets m2
    let (x4, c5) ← Packet.itNext x3
    let x6 ← unwrapO x4
    Res.assert (decide (x6.2 = ([0xD0500101, 0x53686164, 0x6F777320, 0x6F662074] : List (BitVec 32))))
    let (x7, c8) ← Packet.itNext c5
    let x9 ← unwrapO x7
    Res.assert (decide (x9.2 = ([0xD0900101, 0x68652046, 0x6F72676F, 0x7474656E] : List (BitVec 32))))
    let (x10, c11) ← Packet.itNext c8
    let x12 ← unwrapO x10
    Res.assert (decide (x12.2 = ([0xD0D00101, 0x20436174, 0x68656472, 0x616C0000] : List (BitVec 32))))
    let (x13, c14) ← Packet.itNext c11
    Res.assert x13.isNone
    pure () : Res Unit) = .ok () := by decide +kernel

-- /repo/midi2/src/packets.rs:58
example : (do
    let m1 ← Sx.s7.newVec
    let m2 ← (Sx.s7.ops true .vec).setPayload m1 ⟨((List.range 20).map (BitVec.ofNat 7)), 20, some 20⟩
    let x3 ← Sx.s7.dataPackets m2
    let (x4, c5) ← Packet.itNext x3
    let x6 ← unwrapO x4
    Res.assert (decide (x6.2 = ([0x30160001, 0x2030405] : List (BitVec 32))))
    let (x7, c8) ← Packet.itNext c5
    let x9 ← unwrapO x7
    Res.assert (decide (x9.2 = ([0x30260607, 0x8090A0B] : List (BitVec 32))))
    let (x10, c11) ← Packet.itNext c8
    let x12 ← unwrapO x10
    Res.assert (decide (x12.2 = ([0x30260C0D, 0xE0F1011] : List (BitVec 32))))
    let (x13, c14) ← Packet.itNext c11
    let x15 ← unwrapO x13
    Res.assert (decide (x15.2 = ([0x30321213, 0x0] : List (BitVec 32))))
    let (x16, c17) ← Packet.itNext c14
    Res.assert x16.isNone
    pure () : Res Unit) = .ok () := by decide +kernel

-- /repo/midi2/src/traits.rs:7
example : (do
    let m1 ← Msg.cv1NoteOn.newArray .ump 4
    let x2 ← Msg.cv1NoteOn.data .ump m1
    Res.assert (decide (x2 = ([0x20900000] : List (BitVec 32))))
    pure () : Res Unit) = .ok () := by decide +kernel

-- /repo/midi2/src/traits.rs:17
example : (do
    let m1 ← Msg.cv1NoteOn.newArray .bytes 3
    let x2 ← Msg.cv1NoteOn.data .bytes m1
    Res.assert (decide (x2 = ([0x90, 0x0, 0x0] : List (BitVec 8))))
    pure () : Res Unit) = .ok () := by decide +kernel

-- /repo/midi2/src/traits.rs:30
example : (do
    let m1 ← Msg.cv2NoteOn.newArray .ump 4
    let m2 ← Fld.write .ump (.schema .u4 ⟨0x0F000000, 0, 0, 0⟩) m1 ((0xA : BitVec 4) : BitVec 4)
    let x3 : BitVec 4 ← Fld.read .ump (.schema .u4 ⟨0x0F000000, 0, 0, 0⟩) m2
    Res.assert (decide (x3 = (0xA : BitVec 4)))
    let x4 ← Msg.cv2NoteOn.data .ump m2
    Res.assert (decide (x4 = ([0x4A900000, 0x0] : List (BitVec 32))))
    pure () : Res Unit) = .ok () := by decide +kernel

-- /repo/midi2/src/traits.rs:49
example : (do
    let m1 ← Msg.cv2NoteOn.newArray .ump 4
    let m2 ← Fld.write .ump (.schema .u4 ⟨0x000F0000, 0, 0, 0⟩) m1 ((0x5 : BitVec 4) : BitVec 4)
    let x3 : BitVec 4 ← Fld.read .ump (.schema .u4 ⟨0x000F0000, 0, 0, 0⟩) m2
    Res.assert (decide (x3 = (0x5 : BitVec 4)))
    let x4 ← Msg.cv2NoteOn.data .ump m2
    Res.assert (decide (x4 = ([0x40950000, 0x0] : List (BitVec 32))))
    pure () : Res Unit) = .ok () := by decide +kernel

-- /repo/midi2/src/traits.rs:68
example : (do
    let x1 ← (Msg.cv1NoteOn.tryFrom .ump ([0x2D9E753D] : List (BitVec 32))).unwrap
    let m2 ← (Msg.cv1NoteOn.rebufferFrom .ump x1)
    let x3 ← Msg.cv1NoteOn.data .ump m2
    Res.assert (decide (x3 = ([0x2D9E753D] : List (BitVec 32))))
    pure () : Res Unit) = .ok () := by decide +kernel

-- /repo/midi2/src/traits.rs:82
example : (do
    let x1 ← (Msg.cv1NoteOn.tryFrom .ump ([0x2D9E753D] : List (BitVec 32))).unwrap
    let m2 ← (Msg.cv1NoteOn.rebufferFrom .ump x1)
    let x3 ← Msg.cv1NoteOn.data .ump m2
    Res.assert (decide (x3 = ([0x2D9E753D] : List (BitVec 32))))
    pure () : Res Unit) = .ok () := by decide +kernel

-- /repo/midi2/src/traits.rs:112
example : (do
    let x1 ← (Msg.cv1NoteOn.tryFrom .ump ([0x2D9E753D] : List (BitVec 32))).unwrap
    let m2 ← (Msg.cv1NoteOn.arrayRebuffer .ump 4 x1)
    let x3 ← Msg.cv1NoteOn.data .ump m2
    Res.assert (decide (x3 = ([0x2D9E753D] : List (BitVec 32))))
    pure () : Res Unit) = .ok () := by decide +kernel

-- /repo/midi2/src/traits.rs:130
example : (do
    let x1 ← (Msg.cv1NoteOn.tryFrom .ump ([0x2D9E753D] : List (BitVec 32))).unwrap
    let m2 ← (Msg.cv1NoteOn.arrayRebuffer .ump 4 x1)
    let x3 ← Msg.cv1NoteOn.data .ump m2
    Res.assert (decide (x3 = ([0x2D9E753D] : List (BitVec 32))))
    pure () : Res Unit) = .ok () := by decide +kernel

-- /repo/midi2/src/traits.rs:158
example : (do
    let x1 ← (Sx.s7.tryFrom ([0x30160001, 0x2030405, 0x30350607, 0x8090A00] : List (BitVec 32))).unwrap
    Res.assert (((UmpKind.sysex .s7).tryRebufferArray 4 x1).isOk)
    Res.assert ((!((UmpKind.sysex .s7).tryRebufferArray 2 x1).isOk))
    pure () : Res Unit) = .ok () := by decide +kernel

-- /repo/midi2/src/traits.rs:180
example : (do
    let x1 ← (Sx.s7.tryFrom ([0x30160001, 0x2030405, 0x30350607, 0x8090A00] : List (BitVec 32))).unwrap
    let x2 ← ((UmpKind.sysex .s7).tryRebufferArray 4 x1).unwrap
    Res.assert (decide (((UmpKind.sysex .s7).tryRebufferArray 2 x1) = .err .bufferOverflow))
    pure () : Res Unit) = .ok () := by decide +kernel

-- /repo/midi2/src/traits.rs:218
example : (do
    let x1 ← (Msg.cv1NoteOn.tryFrom .bytes ([0x9E, 0x75, 0x3D] : List (BitVec 8))).unwrap
    let m2 ← (Msg.cv1NoteOn.convertArray .bytes .ump 4 x1)
    let x3 ← Msg.cv1NoteOn.data .ump m2
    Res.assert (decide (x3 = ([0x209E753D] : List (BitVec 32))))
    pure () : Res Unit) = .ok () := by decide +kernel

-- /repo/midi2/src/traits.rs:232
example : (do
    let x1 ← (Msg.cv1NoteOn.tryFrom .bytes ([0x9E, 0x75, 0x3D] : List (BitVec 8))).unwrap
    let m2 ← (Msg.cv1NoteOn.convertArray .bytes .ump 4 x1)
    let x3 ← Msg.cv1NoteOn.data .ump m2
    Res.assert (decide (x3 = ([0x209E753D] : List (BitVec 32))))
    pure () : Res Unit) = .ok () := by decide +kernel

-- /repo/midi2/src/traits.rs:264
example : (do
    let x1 ← (Msg.cv1NoteOn.tryFrom .ump ([0x279E753D] : List (BitVec 32))).unwrap
    let m2 ← (Msg.cv1NoteOn.convertArray .ump .bytes 3 x1)
    let x3 ← Msg.cv1NoteOn.data .bytes m2
    Res.assert (decide (x3 = ([0x9E, 0x75, 0x3D] : List (BitVec 8))))
    pure () : Res Unit) = .ok () := by decide +kernel

-- /repo/midi2/src/traits.rs:282
example : (do
    let x1 ← (Msg.cv1NoteOn.tryFrom .ump ([0x279E753D] : List (BitVec 32))).unwrap
    let m2 ← (Msg.cv1NoteOn.convertArray .ump .bytes 3 x1)
    let x3 ← Msg.cv1NoteOn.data .bytes m2
    Res.assert (decide (x3 = ([0x9E, 0x75, 0x3D] : List (BitVec 8))))
    pure () : Res Unit) = .ok () := by decide +kernel

-- /repo/midi2/src/traits.rs:312
example : (do
    let x1 ← (Sxb.tryFrom ([0xF0, 0x0, 0x1, 0x2, 0x3, 0x4, 0x5, 0x6, 0x7, 0x8, 0x9, 0xF7] : List (BitVec 8))).unwrap
    let x2 ← (Sxb.tryFromBytes true 4 x1).unwrap
    let x3 ← Sx.s7.data x2
    Res.assert (decide (x3 = ([0x30160001, 0x2030405, 0x30340607, 0x8090000] : List (BitVec 32))))
    Res.assert (decide ((Sxb.tryFromBytes true 2 x1) = .err .bufferOverflow))
    pure () : Res Unit) = .ok () := by decide +kernel

-- /repo/midi2/src/traits.rs:340
example : (do
    let x1 ← (Sxb.tryFrom ([0xF0, 0x0, 0x1, 0x2, 0x3, 0x4, 0x5, 0x6, 0x7, 0x8, 0x9, 0xF7] : List (BitVec 8))).unwrap
    let x2 ← (Sxb.tryFromBytes true 4 x1).unwrap
    let x3 ← Sx.s7.data x2
    Res.assert (decide (x3 = ([0x30160001, 0x2030405, 0x30340607, 0x8090000] : List (BitVec 32))))
    Res.assert (decide ((Sxb.tryFromBytes true 2 x1) = .err .bufferOverflow))
    pure () : Res Unit) = .ok () := by decide +kernel

-- /repo/midi2/src/traits.rs:390
example : (do
    let x1 ← (Sx.s7.tryFrom ([0x30160001, 0x2030405, 0x30340607, 0x8090000] : List (BitVec 32))).unwrap
    let x2 ← (Sxb.tryFromUmp 12 x1).unwrap
    let x3 ← Sxb.data x2
    Res.assert (decide (x3 = ([0xF0, 0x0, 0x1, 0x2, 0x3, 0x4, 0x5, 0x6, 0x7, 0x8, 0x9, 0xF7] : List (BitVec 8))))
    Res.assert (decide ((Sxb.tryFromUmp 10 x1) = .err .bufferOverflow))
    pure () : Res Unit) = .ok () := by decide +kernel

-- /repo/midi2/src/traits.rs:422
example : (do
    let x1 ← (Sx.s7.tryFrom ([0x30160001, 0x2030405, 0x30340607, 0x8090000] : List (BitVec 32))).unwrap
    let x2 ← (Sxb.tryFromUmp 12 x1).unwrap
    let x3 ← Sxb.data x2
    Res.assert (decide (x3 = ([0xF0, 0x0, 0x1, 0x2, 0x3, 0x4, 0x5, 0x6, 0x7, 0x8, 0x9, 0xF7] : List (BitVec 8))))
    Res.assert (decide ((Sxb.tryFromUmp 10 x1) = .err .bufferOverflow))
    pure () : Res Unit) = .ok () := by decide +kernel

-- /repo/midi2/src/traits.rs:466
example : (do
    let x1 ← (Sx.s8.tryFrom ([0x501E0000, 0x1020304, 0x5060708, 0x90A0B0C, 0x5038000D, 0xE0F1011, 0x12130000, 0x0] : List (BitVec 32))).unwrap
    let it2 ← Sx.s8.payload x1
    let x3 ← Sx.s8.collect x1 (it2.cache + 1) it2
    Res.assert (decide (x3 = ((List.range 20).map (BitVec.ofNat 8))))
    pure () : Res Unit) = .ok () := by decide +kernel

-- /repo/midi2/src/traits.rs:486
example : (do
    let m1 ← Sx.s8.newVec
    let m2 ← (Sx.s8.ops true .vec).setPayload m1 ⟨((List.range 20).map (BitVec.ofNat 8)), 20, some 20⟩
    let x3 ← Sx.s8.data m2
    Res.assert (decide (x3 = ([0x501E0000, 0x1020304, 0x5060708, 0x90A0B0C, 0x5038000D, 0xE0F1011, 0x12130000, 0x0] : List (BitVec 32))))
    pure () : Res Unit) = .ok () := by decide +kernel

-- /repo/midi2/src/traits.rs:507
example : (do
    let m1 ← Sx.s8.newArray 8
    let (m2, e3) ← (Sx.s8.ops true .fixed).trySetPayload m1 ⟨((List.range 20).map (BitVec.ofNat 8)), 20, some 20⟩
    Res.assert (e3.isNone)
    let x4 ← Sx.s8.data m2
    Res.assert (decide (x4 = ([0x501E0000, 0x1020304, 0x5060708, 0x90A0B0C, 0x5038000D, 0xE0F1011, 0x12130000, 0x0] : List (BitVec 32))))
    let (m5, e6) ← (Sx.s8.ops true .fixed).trySetPayload m2 ⟨((List.range 30).map (BitVec.ofNat 8)), 30, some 30⟩
    Res.assert (e6.isSome)
    pure () : Res Unit) = .ok () := by decide +kernel

-- /repo/midi2/src/buffer.rs:5
example : (do
    let x1 ← (UmpMessage.tryFrom ([0x3E160001, 0x2030405, 0x3E260607, 0x8090A0B, 0x3E260C0D, 0xE0F1011, 0x3E261213, 0x14151617, 0x3E261819, 0x1A1B1C1D, 0x3E261E1F, 0x20212223, 0x3E262425, 0x26272829, 0x3E262A2B, 0x2C2D2E2F, 0x3E323031, 0x0] : List (BitVec 32))).unwrap
    let x2 ← UmpMessage.rebufferFrom x1
    let x3 ← (UmpMessage.tryRebufferArray 18 x2).unwrap
    pure () : Res Unit) = .ok () := by decide +kernel

-- /repo/midi2/src/buffer.rs:76
example : (do
    let m1 ← Sx.s8.newArray 64
    let (m2, e3) ← (Sx.s8.ops true .fixed).trySetPayload m1 ⟨((List.range 20).map (BitVec.ofNat 8)), 20, some 20⟩
    Res.assert (decide (e3 = none))
    pure () : Res Unit) = .ok () := by decide +kernel

-- /repo/midi2/src/buffer.rs:85
example : (do
    let m1 ← Sx.s8.newVec
    let m2 ← (Sx.s8.ops true .vec).setPayload m1 ⟨((List.range 20).map (BitVec.ofNat 8)), 20, some 20⟩
    pure () : Res Unit) = .ok () := by decide +kernel

-- /repo/midi2/README.md:28
example : (do
    let m1 ← Msg.cv2NoteOn.newArray .ump 4
    let m2 ← Fld.write .ump (.schema .u4 ⟨0x0F000000, 0, 0, 0⟩) m1 ((0x8 : BitVec 4) : BitVec 4)
    let m3 ← Fld.write .ump (.schema .u4 ⟨0x000F0000, 0, 0, 0⟩) m2 ((0xA : BitVec 4) : BitVec 4)
    let m4 ← Fld.write .ump (.schema .u7 ⟨0x00007F00, 0, 0, 0⟩) m3 ((0x5E : BitVec 7) : BitVec 7)
    let m5 ← Fld.write .ump (.schema .u16 ⟨0, 0xFFFF0000, 0, 0⟩) m4 ((0x6A14 : BitVec 16) : BitVec 16)
    let x6 : BitVec 4 ← Fld.read .ump (.schema .u4 ⟨0x0F000000, 0, 0, 0⟩) m5
    Res.assert (decide (x6 = (0x8 : BitVec 4)))
    let x7 : BitVec 4 ← Fld.read .ump (.schema .u4 ⟨0x000F0000, 0, 0, 0⟩) m5
    Res.assert (decide (x7 = (0xA : BitVec 4)))
    let x8 : BitVec 7 ← Fld.read .ump (.schema .u7 ⟨0x00007F00, 0, 0, 0⟩) m5
    Res.assert (decide (x8 = (0x5E : BitVec 7)))
    let x9 : BitVec 16 ← Fld.read .ump (.schema .u16 ⟨0, 0xFFFF0000, 0, 0⟩) m5
    Res.assert (decide (x9 = (0x6A14 : BitVec 16)))
    let x10 ← Msg.cv2NoteOn.data .ump m5
    Res.assert (decide (x10 = ([0x489A5E00, 0x6A140000] : List (BitVec 32))))
    let m11 ← (⟨"ComposerName", 0x1, 0x5⟩ : FlexText).newVec
    let m12 ← FlexText.setText m11 "Pinch b2b Peverelist"
    let x13 ← FlexText.data m12
    Res.assert (decide (x13 = ([0xD0500105, 0x50696E63, 0x68206232, 0x62205065, 0xD0D00105, 0x76657265, 0x6C697374, 0x0] : List (BitVec 32))))
    pure () : Res Unit) = .ok () := by decide +kernel

-- /repo/midi2/README.md:114
example : (do
    let m1 ← Sx.s7.newVec
    let m2 ← (Sx.s7.ops true .vec).setPayload m1 ⟨((List.range 30).map (BitVec.ofNat 7)), 30, some 30⟩
    let x3 ← Sx.s7.data (Sx.s7.setGroup m2 (0xA : BitVec 4))
    Res.assert (decide (x3 = ([0x3A160001, 0x2030405, 0x3A260607, 0x8090A0B, 0x3A260C0D, 0xE0F1011, 0x3A261213, 0x14151617, 0x3A361819, 0x1A1B1C1D] : List (BitVec 32))))
    pure () : Res Unit) = .ok () := by decide +kernel

-- /repo/midi2/README.md:140
example : (do
    let m1 ← Sxb.newVec
    let m2 ← (Sxb.ops .vec).setPayload m1 ⟨((List.range 30).map (BitVec.ofNat 7)), 30, some 30⟩
    let x3 ← Sxb.data m2
    Res.assert (decide (x3 = ([0xF0, 0x0, 0x1, 0x2, 0x3, 0x4, 0x5, 0x6, 0x7, 0x8, 0x9, 0xA, 0xB, 0xC, 0xD, 0xE, 0xF, 0x10, 0x11, 0x12, 0x13, 0x14, 0x15, 0x16, 0x17, 0x18, 0x19, 0x1A, 0x1B, 0x1C, 0x1D, 0xF7] : List (BitVec 8))))
    pure () : Res Unit) = .ok () := by decide +kernel

-- /repo/midi2/README.md:175
example : (do
    let m1 ← Sx.s8.newArray 16
    let (m2, e3) ← (Sx.s8.ops true .fixed).trySetPayload m1 ⟨((List.range 50).map (BitVec.ofNat 8)), 50, some 50⟩
    Res.assert (decide (e3 = none))
    let (m4, e5) ← (Sx.s8.ops true .fixed).trySetPayload m2 ⟨((List.range 60).map (BitVec.ofNat 8)), 60, some 60⟩
    Res.assert (decide (e5 = (some .bufferOverflow)))
    pure () : Res Unit) = .ok () := by decide +kernel

-- /repo/midi2/README.md:199
example : (do
    let x1 ← (UmpMessage.tryFrom ([0xD0500100, 0x44696769, 0x74616C20, 0x41756469, 0xD0900100, 0x6F20576F, 0x726B7374, 0x6174696F, 0xD0D00100, 0x6E202D20, 0x44415733, 0x362D3136] : List (BitVec 32))).unwrap
    pure () : Res Unit) = .ok () := by decide +kernel

-- /repo/midi2/README.md:225
example : (do
    let x1 ← (Msg.cv2NoteOn.tryFrom .ump ([0x48985E03, 0x6A14E98A] : List (BitVec 32))).unwrap
    let m2 ← (Msg.cv2NoteOn.arrayRebuffer .ump 4 x1)
    let m3 ← Fld.write .ump (.schema .u4 ⟨0x000F0000, 0, 0, 0⟩) m2 ((0x9 : BitVec 4) : BitVec 4)
    let x4 ← Msg.cv2NoteOn.data .ump m3
    Res.assert (decide (x4 = ([0x48995E03, 0x6A14E98A] : List (BitVec 32))))
    pure () : Res Unit) = .ok () := by decide +kernel

-- /repo/midi2/README.md:248
example : (do
    let m1 ← Msg.cv1ChannelPressure.newArray .bytes 3
    let m2 ← Fld.write .bytes (.hybrid .u4 ⟨0x0F, 0, 0⟩ ⟨0x000F0000, 0, 0, 0⟩) m1 ((0x6 : BitVec 4) : BitVec 4)
    let m3 ← Fld.write .bytes (.hybrid .u7 ⟨0, 0x7F, 0⟩ ⟨0x00007F00, 0, 0, 0⟩) m2 ((0x9 : BitVec 7) : BitVec 7)
    let x4 ← Msg.cv1ChannelPressure.data .bytes m3
    Res.assert (decide (x4 = ([0xD6, 0x9] : List (BitVec 8))))
    pure () : Res Unit) = .ok () := by decide +kernel

-- /repo/midi2/README.md:260
example : (do
    let m1 ← Msg.cv1ChannelPressure.newArray .bytes 3
    let m2 ← (Msg.cv1ChannelPressure.convertArray .bytes .ump 4 m1)
    let x3 ← Msg.cv1ChannelPressure.data .ump m2
    Res.assert (decide (x3 = ([0x20D00000] : List (BitVec 32))))
    pure () : Res Unit) = .ok () := by decide +kernel

end Midi2.Replay
