import Verif.Check.Replay

/-!
# Replay of the unit tests of message, packet, packets, system_common, utility and detail

Generated by /verif/replay from the Rust source; see `Verif.Check.Replay`.  These are
85 tests over literals, not proofs.
-/

set_option linter.unusedVariables false

namespace Midi2.Replay

-- detail/bit_ops.rs:204 bit
example : (do
    Res.assert ((U8.bit (0x82 : BitVec 8) 0))
    Res.assert ((!(U8.bit (0x82 : BitVec 8) 1)))
    Res.assert ((U8.bit (0x82 : BitVec 8) 6))
    Res.assert ((!(U8.bit (0x82 : BitVec 8) 7)))
    pure () : Res Unit) = .ok () := by decide +kernel

-- detail/bit_ops.rs:213 set_bit
example : (do
    Res.assert (decide ((U8.setBit (0x80 : BitVec 8) 0 false) = (0x0 : BitVec 8)))
    Res.assert (decide ((U8.setBit (0x0 : BitVec 8) 0 true) = (0x80 : BitVec 8)))
    Res.assert (decide ((U8.setBit (0x0 : BitVec 8) 4 true) = (0x8 : BitVec 8)))
    pure () : Res Unit) = .ok () := by decide +kernel

-- detail/bit_ops.rs:220 bit_u7
example : (do
    Res.assert ((U7.bit (0x42 : BitVec 7) 0))
    Res.assert ((!(U7.bit (0x42 : BitVec 7) 1)))
    Res.assert ((!(U7.bit (0x42 : BitVec 7) 2)))
    Res.assert ((!(U7.bit (0x42 : BitVec 7) 3)))
    Res.assert ((!(U7.bit (0x42 : BitVec 7) 4)))
    Res.assert ((U7.bit (0x42 : BitVec 7) 5))
    Res.assert ((!(U7.bit (0x42 : BitVec 7) 6)))
    pure () : Res Unit) = .ok () := by decide +kernel

-- detail/bit_ops.rs:232 set_bit_u7
example : (do
    Res.assert (decide ((U7.setBit (0x40 : BitVec 7) 0 false) = (0x0 : BitVec 7)))
    Res.assert (decide ((U7.setBit (0x0 : BitVec 7) 0 true) = (0x40 : BitVec 7)))
    Res.assert (decide ((U7.setBit (0x0 : BitVec 7) 4 true) = (0x4 : BitVec 7)))
    pure () : Res Unit) = .ok () := by decide +kernel

-- detail/bit_ops.rs:239 nibble
example : (do
    Res.assert (decide ((U8.nibble (0xAB : BitVec 8) 0) = (0xA : BitVec 4)))
    Res.assert (decide ((U8.nibble (0xAB : BitVec 8) 1) = (0xB : BitVec 4)))
    pure () : Res Unit) = .ok () := by decide +kernel

-- detail/bit_ops.rs:246 set_nibble
example : (do
    Res.assert (decide ((U8.setNibble (0x1 : BitVec 8) 1 (0x6 : BitVec 4)) = (0x6 : BitVec 8)))
    Res.assert (decide ((U8.setNibble (0x0 : BitVec 8) 0 (0xB : BitVec 4)) = (0xB0 : BitVec 8)))
    Res.assert (decide ((U8.setNibble (0x0 : BitVec 8) 1 (0xB : BitVec 4)) = (0xB : BitVec 8)))
    pure () : Res Unit) = .ok () := by decide +kernel

-- detail/bit_ops.rs:265 septet
example : (do
    Res.assert (decide ((U8.septet (0x7F : BitVec 8)) = (0x7F : BitVec 7)))
    Res.assert (decide ((U8.septet (0xFF : BitVec 8)) = (0x7F : BitVec 7)))
    pure () : Res Unit) = .ok () := by decide +kernel

-- detail/bit_ops.rs:276 bit
example : (do
    Res.assert ((U32.bit (0x80000002 : BitVec 32) 0))
    Res.assert ((!(U32.bit (0x80000002 : BitVec 32) 1)))
    Res.assert ((U32.bit (0x80000002 : BitVec 32) 30))
    Res.assert ((!(U32.bit (0x80000002 : BitVec 32) 31)))
    pure () : Res Unit) = .ok () := by decide +kernel

-- detail/bit_ops.rs:285 set_bit
example : (do
    Res.assert (decide ((U32.setBit (0x0 : BitVec 32) 0 true) = (0x80000000 : BitVec 32)))
    Res.assert (decide ((U32.setBit (0x0 : BitVec 32) 10 true) = (0x200000 : BitVec 32)))
    pure () : Res Unit) = .ok () := by decide +kernel

-- detail/bit_ops.rs:297 crumb
example : (do
    Res.assert ((decide ((U32.crumb (0xD9000039 : BitVec 32) 0) = (0x3 : BitVec 2))))
    Res.assert ((decide ((U32.crumb (0xD9000039 : BitVec 32) 1) = (0x1 : BitVec 2))))
    Res.assert ((decide ((U32.crumb (0xD9000039 : BitVec 32) 2) = (0x2 : BitVec 2))))
    Res.assert ((decide ((U32.crumb (0xD9000039 : BitVec 32) 3) = (0x1 : BitVec 2))))
    Res.assert ((decide ((U32.crumb (0xD9000039 : BitVec 32) 13) = (0x3 : BitVec 2))))
    Res.assert ((decide ((U32.crumb (0xD9000039 : BitVec 32) 14) = (0x2 : BitVec 2))))
    Res.assert ((decide ((U32.crumb (0xD9000039 : BitVec 32) 15) = (0x1 : BitVec 2))))
    pure () : Res Unit) = .ok () := by decide +kernel

-- detail/bit_ops.rs:309 set_crumb
example : (do
    Res.assert (decide ((U32.setCrumb (0x0 : BitVec 32) 0 (0x3 : BitVec 2)) = (0xC0000000 : BitVec 32)))
    Res.assert (decide ((U32.setCrumb (0x0 : BitVec 32) 4 (0x2 : BitVec 2)) = (0x800000 : BitVec 32)))
    Res.assert (decide ((U32.setCrumb (0x0 : BitVec 32) 15 (0x1 : BitVec 2)) = (0x1 : BitVec 32)))
    pure () : Res Unit) = .ok () := by decide +kernel

-- detail/bit_ops.rs:325 nibble
example : (do
    Res.assert (decide ((U32.nibble (0x2468ACE0 : BitVec 32) 0) = (0x2 : BitVec 4)))
    Res.assert (decide ((U32.nibble (0x2468ACE0 : BitVec 32) 3) = (0x8 : BitVec 4)))
    Res.assert (decide ((U32.nibble (0x2468ACE0 : BitVec 32) 5) = (0xC : BitVec 4)))
    Res.assert (decide ((U32.nibble (0x2468ACE0 : BitVec 32) 7) = (0x0 : BitVec 4)))
    pure () : Res Unit) = .ok () := by decide +kernel

-- detail/bit_ops.rs:334 set_nibble
example : (do
    Res.assert (decide ((U32.setNibble (0x5A21C612 : BitVec 32) 3 (0x6 : BitVec 4)) = (0x5A26C612 : BitVec 32)))
    Res.assert (decide ((U32.setNibble (0x0 : BitVec 32) 0 (0xB : BitVec 4)) = (0xB0000000 : BitVec 32)))
    Res.assert (decide ((U32.setNibble (0x0 : BitVec 32) 5 (0xB : BitVec 4)) = (0xB00 : BitVec 32)))
    Res.assert (decide ((U32.setNibble (0x0 : BitVec 32) 7 (0x4 : BitVec 4)) = (0x4 : BitVec 32)))
    pure () : Res Unit) = .ok () := by decide +kernel

-- detail/bit_ops.rs:342 octet
example : (do
    Res.assert (decide ((U32.octet (0x1234567 : BitVec 32) 0) = (0x1 : BitVec 8)))
    Res.assert (decide ((U32.octet (0x1234567 : BitVec 32) 1) = (0x23 : BitVec 8)))
    Res.assert (decide ((U32.octet (0x1234567 : BitVec 32) 2) = (0x45 : BitVec 8)))
    Res.assert (decide ((U32.octet (0x1234567 : BitVec 32) 3) = (0x67 : BitVec 8)))
    pure () : Res Unit) = .ok () := by decide +kernel

-- detail/bit_ops.rs:351 set_octet
example : (do
    Res.assert (decide ((U32.setOctet (0x0 : BitVec 32) 0 (0xBE : BitVec 8)) = (0xBE000000 : BitVec 32)))
    Res.assert (decide ((U32.setOctet (0x0 : BitVec 32) 2 (0xBE : BitVec 8)) = (0xBE00 : BitVec 32)))
    Res.assert (decide ((U32.setOctet (0x0 : BitVec 32) 3 (0xBE : BitVec 8)) = (0xBE : BitVec 32)))
    pure () : Res Unit) = .ok () := by decide +kernel

-- detail/bit_ops.rs:358 word
example : (do
    Res.assert (decide ((U32.word (0x1234567 : BitVec 32) 0) = (0x123 : BitVec 16)))
    Res.assert (decide ((U32.word (0x1234567 : BitVec 32) 1) = (0x4567 : BitVec 16)))
    pure () : Res Unit) = .ok () := by decide +kernel

-- detail/bit_ops.rs:365 set_word
example : (do
    Res.assert (decide ((U32.setWord (0x0 : BitVec 32) 0 (0xABE : BitVec 16)) = (0xABE0000 : BitVec 32)))
    Res.assert (decide ((U32.setWord (0x0 : BitVec 32) 1 (0xABE : BitVec 16)) = (0xABE : BitVec 32)))
    pure () : Res Unit) = .ok () := by decide +kernel

-- message.rs:156 from_byte_data
example : (do
    let x1 ← (BytesMessage.tryFrom ([0xAB, 0x60, 0x33] : List (BitVec 8))).unwrap
    Res.assert (decide (x1.1 = BytesKind.fixed Msg.cv1KeyPressure))
    pure () : Res Unit) = .ok () := by decide +kernel

-- message.rs:168 rebuffer_slice_from_mut_slice_impl
example : (do
    let x1 ← (Msg.cv1ChannelPressure.tryNewWithBuffer .ump ([0x0, 0x0] : List (BitVec 32))).unwrap
    let x2 ← UmpMessage.rebufferFrom (UmpKind.fixed Msg.cv1ChannelPressure, x1)
    let x3 ← x2.1.data x2.2
    Res.assert (decide (x3 = ([0x20D00000] : List (BitVec 32))))
    pure () : Res Unit) = .ok () := by decide +kernel

-- message.rs:185 ump_stream
example : (do
    let x1 ← (UmpMessage.tryFrom ([0xF4120556, 0x69627261, 0x746F5661, 0x6E677561, 0xF8120572, 0x643A204C, 0x65616469, 0x6E672057, 0xF8120561, 0x76657320, 0x6F662045, 0x7570686F, 0xF812056E, 0x79F09F9A, 0x80F09F8E, 0xB6F09F8C, 0xFC12058A, 0x0, 0x0, 0x0] : List (BitVec 32))).unwrap
    Res.assert (decide (x1.1 = UmpKind.streamText StreamText.functionBlockName))
    pure () : Res Unit) = .ok () := by decide +kernel

-- message.rs:218 sysex8
example : (do
    let x1 ← (UmpMessage.tryFrom ([0x5E1EBE00, 0x1020304, 0x5060708, 0x90A0B0C, 0x5E2EBE0D, 0xE0F1011, 0x12131415, 0x16171819, 0x5E2EBE1A, 0x1B1C1D1E, 0x1F202122, 0x23242526, 0x5E3CBE27, 0x28292A2B, 0x2C2D2E2F, 0x30310000] : List (BitVec 32))).unwrap
    Res.assert (decide (x1.1 = UmpKind.sysex .s8))
    pure () : Res Unit) = .ok () := by decide +kernel

-- message.rs:245 sysex7
example : (do
    let x1 ← (UmpMessage.tryFrom ([0x3E160001, 0x2030405, 0x3E260607, 0x8090A0B, 0x3E260C0D, 0xE0F1011, 0x3E261213, 0x14151617, 0x3E261819, 0x1A1B1C1D, 0x3E261E1F, 0x20212223, 0x3E262425, 0x26272829, 0x3E262A2B, 0x2C2D2E2F, 0x3E323031, 0x0] : List (BitVec 32))).unwrap
    Res.assert (decide (x1.1 = UmpKind.sysex .s7))
    pure () : Res Unit) = .ok () := by decide +kernel

-- message.rs:274 packets
example : (do
    let x1 ← (UmpMessage.tryFrom ([0x3E160001, 0x2030405, 0x3E260607, 0x8090A0B, 0x3E260C0D, 0xE0F1011, 0x3E261213, 0x14151617, 0x3E261819, 0x1A1B1C1D, 0x3E261E1F, 0x20212223, 0x3E262425, 0x26272829, 0x3E262A2B, 0x2C2D2E2F, 0x3E323031, 0x0] : List (BitVec 32))).unwrap
    let x2 ← x1.1.packets x1.2
    let (x3, c4) ← Packet.itNext x2
    let x5 ← unwrapO x3
    Res.assert (decide (x5.2 = ([0x3E160001, 0x2030405] : List (BitVec 32))))
    let (x6, c7) ← Packet.itNext c4
    let x8 ← unwrapO x6
    Res.assert (decide (x8.2 = ([0x3E260607, 0x8090A0B] : List (BitVec 32))))
    let (x9, c10) ← Packet.itNext c7
    let x11 ← unwrapO x9
    Res.assert (decide (x11.2 = ([0x3E260C0D, 0xE0F1011] : List (BitVec 32))))
    let (x12, c13) ← Packet.itNext c10
    let x14 ← unwrapO x12
    Res.assert (decide (x14.2 = ([0x3E261213, 0x14151617] : List (BitVec 32))))
    let (x15, c16) ← Packet.itNext c13
    let x17 ← unwrapO x15
    Res.assert (decide (x17.2 = ([0x3E261819, 0x1A1B1C1D] : List (BitVec 32))))
    let (x18, c19) ← Packet.itNext c16
    let x20 ← unwrapO x18
    Res.assert (decide (x20.2 = ([0x3E261E1F, 0x20212223] : List (BitVec 32))))
    let (x21, c22) ← Packet.itNext c19
    let x23 ← unwrapO x21
    Res.assert (decide (x23.2 = ([0x3E262425, 0x26272829] : List (BitVec 32))))
    let (x24, c25) ← Packet.itNext c22
    let x26 ← unwrapO x24
    Res.assert (decide (x26.2 = ([0x3E262A2B, 0x2C2D2E2F] : List (BitVec 32))))
    let (x27, c28) ← Packet.itNext c25
    let x29 ← unwrapO x27
    Res.assert (decide (x29.2 = ([0x3E323031, 0x0] : List (BitVec 32))))
    let (x30, c31) ← Packet.itNext c28
    Res.assert x30.isNone
    pure () : Res Unit) = .ok () := by decide +kernel

-- message.rs:314 flex_data
example : (do
    let x1 ← (UmpMessage.tryFrom ([0xD4100105, 0x54C3A172, 0x0, 0x0] : List (BitVec 32))).unwrap
    Res.assert (decide (x1.1 = UmpKind.flexText (⟨"ComposerName", 0x1, 0x5⟩ : FlexText)))
    pure () : Res Unit) = .ok () := by decide +kernel

-- message.rs:326 utility
example : (do
    let x1 ← (UmpMessage.tryFrom ([0x201234, 0x0, 0x0, 0x0] : List (BitVec 32))).unwrap
    Res.assert (decide (x1.1 = UmpKind.fixed Msg.utilTimestamp))
    pure () : Res Unit) = .ok () := by decide +kernel

-- message.rs:338 from_level2
example : (do
    let m1 ← Msg.cv1ChannelPressure.newArray .ump 4
    pure () : Res Unit) = .ok () := by decide +kernel

-- message.rs:347 from_level2_flex_data
example : (do
    let m1 ← (⟨"Lyrics", 0x2, 0x1⟩ : FlexText).newArray 4
    pure () : Res Unit) = .ok () := by decide +kernel

-- message.rs:356 from_level2_bytes
example : (do
    let m1 ← Msg.cv1ChannelPressure.newArray .bytes 3
    pure () : Res Unit) = .ok () := by decide +kernel

-- message.rs:365 from_level2_channel_voice2
example : (do
    let m1 ← Msg.cv2ChannelPressure.newArray .ump 4
    pure () : Res Unit) = .ok () := by decide +kernel

-- message.rs:374 from_level2_ump_stream
example : (do
    let m1 ← Msg.streamEndOfClip.newArray .ump 4
    pure () : Res Unit) = .ok () := by decide +kernel

-- message.rs:383 from_level2_utility
example : (do
    let m1 ← Msg.utilDeltaClockstampTpq.newArray .ump 4
    pure () : Res Unit) = .ok () := by decide +kernel

-- message.rs:392 from_level2_system_common
example : (do
    let m1 ← Msg.sysStop.newArray .ump 4
    pure () : Res Unit) = .ok () := by decide +kernel

-- packet.rs:82 construction
example : (do
    let x1 ← (Packet.tryFrom ([0x0] : List (BitVec 32))).unwrap
    Res.assert (decide (x1.2 = ([0x0] : List (BitVec 32))))
    pure () : Res Unit) = .ok () := by decide +kernel

-- packet.rs:89 construction_from_long_slice
example : (do
    let x1 ← (Packet.tryFrom ([0x50010000, 0x0, 0x0, 0x0, 0x0] : List (BitVec 32))).unwrap
    Res.assert (decide (x1.2 = ([0x50010000, 0x0, 0x0, 0x0] : List (BitVec 32))))
    pure () : Res Unit) = .ok () := by decide +kernel

-- packet.rs:98 construction_from_empty_data
example : (do
    Res.assert (decide ((Packet.tryFrom ([] : List (BitVec 32))) = (.err .invalidData)))
    pure () : Res Unit) = .ok () := by decide +kernel

-- packet.rs:107 construction_from_reserved_ump_type_field
example : (do
    Res.assert (decide ((Packet.tryFrom ([0xE0000000, 0x0, 0x0, 0x0] : List (BitVec 32))) = (.err .invalidData)))
    pure () : Res Unit) = .ok () := by decide +kernel

-- system_common.rs:315 timing_clock_bytes_data
example : (do
    let x1 ← (Msg.sysTimingClock.tryFrom .bytes ([0xF8] : List (BitVec 8))).unwrap
    let x2 ← Msg.sysTimingClock.data .bytes x1
    Res.assert (decide (x2 = ([0xF8] : List (BitVec 8))))
    pure () : Res Unit) = .ok () := by decide +kernel

-- system_common.rs:324 start_bytes_data
example : (do
    let x1 ← (Msg.sysStart.tryFrom .bytes ([0xFA] : List (BitVec 8))).unwrap
    let x2 ← Msg.sysStart.data .bytes x1
    Res.assert (decide (x2 = ([0xFA] : List (BitVec 8))))
    pure () : Res Unit) = .ok () := by decide +kernel

-- system_common.rs:333 continue_bytes_data
example : (do
    let x1 ← (Msg.sysContinue.tryFrom .bytes ([0xFB] : List (BitVec 8))).unwrap
    let x2 ← Msg.sysContinue.data .bytes x1
    Res.assert (decide (x2 = ([0xFB] : List (BitVec 8))))
    pure () : Res Unit) = .ok () := by decide +kernel

-- system_common.rs:342 stop_bytes_data
example : (do
    let x1 ← (Msg.sysStop.tryFrom .bytes ([0xFC] : List (BitVec 8))).unwrap
    let x2 ← Msg.sysStop.data .bytes x1
    Res.assert (decide (x2 = ([0xFC] : List (BitVec 8))))
    pure () : Res Unit) = .ok () := by decide +kernel

-- system_common.rs:351 active_sensing_bytes_data
example : (do
    let x1 ← (Msg.sysActiveSensing.tryFrom .bytes ([0xFE] : List (BitVec 8))).unwrap
    let x2 ← Msg.sysActiveSensing.data .bytes x1
    Res.assert (decide (x2 = ([0xFE] : List (BitVec 8))))
    pure () : Res Unit) = .ok () := by decide +kernel

-- system_common.rs:360 reset_bytes_data
example : (do
    let x1 ← (Msg.sysReset.tryFrom .bytes ([0xFF] : List (BitVec 8))).unwrap
    let x2 ← Msg.sysReset.data .bytes x1
    Res.assert (decide (x2 = ([0xFF] : List (BitVec 8))))
    pure () : Res Unit) = .ok () := by decide +kernel

-- system_common.rs:369 from_byte_data
example : (do
    Res.assert (decide ((SystemCommon.tryFrom .bytes ([0xF3, 0x4D] : List (BitVec 8))) = (do let x1 ← (Msg.sysSongSelect.tryFrom .bytes ([0xF3, 0x4D] : List (BitVec 8))); return (Msg.sysSongSelect, x1))))
    pure () : Res Unit) = .ok () := by decide +kernel

-- system_common.rs:377 from_ump_data
example : (do
    Res.assert (decide ((SystemCommon.tryFrom .ump ([0x15F15F00] : List (BitVec 32))) = (do let x1 ← (Msg.sysTimeCode.tryFrom .ump ([0x15F15F00] : List (BitVec 32))); return (Msg.sysTimeCode, x1))))
    pure () : Res Unit) = .ok () := by decide +kernel

-- system_common.rs:385 packets
example : (do
    let x1 ← (SystemCommon.tryFrom .ump ([0x15F15F00] : List (BitVec 32))).unwrap
    let x2 ← x1.1.packets x1.2
    let (x3, c4) ← Packet.itNext x2
    let x5 ← unwrapO x3
    Res.assert (decide (x5.2 = ([0x15F15F00] : List (BitVec 32))))
    let (x6, c7) ← Packet.itNext c4
    Res.assert x6.isNone
    pure () : Res Unit) = .ok () := by decide +kernel

-- system_common.rs:396 rebuffer_from_array
example : (do
    let x1 ← (SystemCommon.tryFrom .ump ([0x15F15F00] : List (BitVec 32))).unwrap
    let x2 ← FixedEnum.arrayRebuffer .ump 1 x1
    pure () : Res Unit) = .ok () := by decide +kernel

-- system_common.rs:404 rebuffer_from_array_bytes
example : (do
    let x1 ← (SystemCommon.tryFrom .bytes ([0xF3, 0x4D] : List (BitVec 8))).unwrap
    let x2 ← FixedEnum.arrayRebuffer .bytes 3 x1
    pure () : Res Unit) = .ok () := by decide +kernel

-- system_common/packet.rs:69 construction
example : (do
    Res.assert ((PacketKind.tryFrom .systemCommon ([0x10000000] : List (BitVec 32))).isOk)
    pure () : Res Unit) = .ok () := by decide +kernel

-- system_common/packet.rs:74 construction_long_slice
example : (do
    Res.assert ((PacketKind.tryFrom .systemCommon ([0x10000000, 0x0] : List (BitVec 32))).isOk)
    pure () : Res Unit) = .ok () := by decide +kernel

-- system_common/packet.rs:79 construction_incorrect_ump_message_type
example : (do
    Res.assert (decide ((PacketKind.tryFrom .systemCommon ([0x0] : List (BitVec 32))) = (.err .invalidData)))
    pure () : Res Unit) = .ok () := by decide +kernel

-- system_common/packet.rs:89 construction_short_slice
example : (do
    Res.assert (decide ((PacketKind.tryFrom .systemCommon ([] : List (BitVec 32))) = (.err .invalidData)))
    pure () : Res Unit) = .ok () := by decide +kernel

-- system_common/packet.rs:99 group
example : (do
    let x1 ← (PacketKind.tryFrom .systemCommon ([0x1A000000] : List (BitVec 32))).unwrap
    let x2 ← Packet.group x1
    Res.assert (decide (x2 = (0xA : BitVec 4)))
    pure () : Res Unit) = .ok () := by decide +kernel

-- system_common/song_position_pointer.rs:39 setters
example : (do
    let m1 ← Msg.sysSongPositionPointer.newArray .ump 4
    let m2 ← Fld.write .ump (.schema .u4 ⟨0x0F000000, 0, 0, 0⟩) m1 ((0xA : BitVec 4) : BitVec 4)
    let m3 ← Fld.write .ump (.hybrid .u14 ⟨0, 0x7F, 0x7F⟩ ⟨0x00007F7F, 0, 0, 0⟩) m2 ((0x367D : BitVec 14) : BitVec 14)
    Res.assert (decide (m3 = ([0x1AF27D6C, 0x0, 0x0, 0x0] : List (BitVec 32))))
    pure () : Res Unit) = .ok () := by decide +kernel

-- system_common/song_position_pointer.rs:47 setters_bytes
example : (do
    let m1 ← Msg.sysSongPositionPointer.newArray .bytes 3
    let m2 ← Fld.write .bytes (.hybrid .u14 ⟨0, 0x7F, 0x7F⟩ ⟨0x00007F7F, 0, 0, 0⟩) m1 ((0x367D : BitVec 14) : BitVec 14)
    Res.assert (decide (m2 = ([0xF2, 0x7D, 0x6C] : List (BitVec 8))))
    pure () : Res Unit) = .ok () := by decide +kernel

-- system_common/song_position_pointer.rs:54 group
example : (do
    let x1 ← (Msg.sysSongPositionPointer.tryFrom .ump ([0x1AF27D6C] : List (BitVec 32))).unwrap
    let x2 : BitVec 4 ← Fld.read .ump (.schema .u4 ⟨0x0F000000, 0, 0, 0⟩) x1
    Res.assert (decide (x2 = (0xA : BitVec 4)))
    pure () : Res Unit) = .ok () := by decide +kernel

-- system_common/song_position_pointer.rs:64 position
example : (do
    let x1 ← (Msg.sysSongPositionPointer.tryFrom .ump ([0x1AF27D6C] : List (BitVec 32))).unwrap
    let x2 : BitVec 14 ← Fld.read .ump (.hybrid .u14 ⟨0, 0x7F, 0x7F⟩ ⟨0x00007F7F, 0, 0, 0⟩) x1
    Res.assert (decide (x2 = (0x367D : BitVec 14)))
    pure () : Res Unit) = .ok () := by decide +kernel

-- system_common/song_position_pointer.rs:74 position_bytes
example : (do
    let x1 ← (Msg.sysSongPositionPointer.tryFrom .bytes ([0xF2, 0x7D, 0x6C] : List (BitVec 8))).unwrap
    let x2 : BitVec 14 ← Fld.read .bytes (.hybrid .u14 ⟨0, 0x7F, 0x7F⟩ ⟨0x00007F7F, 0, 0, 0⟩) x1
    Res.assert (decide (x2 = (0x367D : BitVec 14)))
    pure () : Res Unit) = .ok () := by decide +kernel

-- system_common/song_position_pointer.rs:84 packets
example : (do
    let x1 ← (Msg.sysSongPositionPointer.tryFrom .ump ([0x1AF27D6C] : List (BitVec 32))).unwrap
    let x2 ← Msg.sysSongPositionPointer.packets x1
    let (x3, c4) ← Packet.itNext x2
    let x5 ← unwrapO x3
    Res.assert (decide (x5.2 = ([0x1AF27D6C] : List (BitVec 32))))
    let (x6, c7) ← Packet.itNext c4
    Res.assert x6.isNone
    pure () : Res Unit) = .ok () := by decide +kernel

-- system_common/song_select.rs:39 setter
example : (do
    let m1 ← Msg.sysSongSelect.newArray .ump 4
    let m2 ← Fld.write .ump (.schema .u4 ⟨0x0F000000, 0, 0, 0⟩) m1 ((0xA : BitVec 4) : BitVec 4)
    let m3 ← Fld.write .ump (.hybrid .u7 ⟨0, 0x7F, 0⟩ ⟨0x00007F00, 0, 0, 0⟩) m2 ((0x4F : BitVec 7) : BitVec 7)
    Res.assert (decide (m3 = ([0x1AF34F00, 0x0, 0x0, 0x0] : List (BitVec 32))))
    pure () : Res Unit) = .ok () := by decide +kernel

-- system_common/song_select.rs:47 setters_bytes
example : (do
    let m1 ← Msg.sysSongSelect.newArray .bytes 3
    let m2 ← Fld.write .bytes (.hybrid .u7 ⟨0, 0x7F, 0⟩ ⟨0x00007F00, 0, 0, 0⟩) m1 ((0x4F : BitVec 7) : BitVec 7)
    Res.assert (decide (m2 = ([0xF3, 0x4F, 0x0] : List (BitVec 8))))
    pure () : Res Unit) = .ok () := by decide +kernel

-- system_common/song_select.rs:54 group
example : (do
    let x1 ← (Msg.sysSongSelect.tryFrom .ump ([0x1AF34F00] : List (BitVec 32))).unwrap
    let x2 : BitVec 4 ← Fld.read .ump (.schema .u4 ⟨0x0F000000, 0, 0, 0⟩) x1
    Res.assert (decide (x2 = (0xA : BitVec 4)))
    pure () : Res Unit) = .ok () := by decide +kernel

-- system_common/song_select.rs:64 song
example : (do
    let x1 ← (Msg.sysSongSelect.tryFrom .ump ([0x1AF34F00] : List (BitVec 32))).unwrap
    let x2 : BitVec 7 ← Fld.read .ump (.hybrid .u7 ⟨0, 0x7F, 0⟩ ⟨0x00007F00, 0, 0, 0⟩) x1
    Res.assert (decide (x2 = (0x4F : BitVec 7)))
    pure () : Res Unit) = .ok () := by decide +kernel

-- system_common/song_select.rs:72 song_bytes
example : (do
    let x1 ← (Msg.sysSongSelect.tryFrom .bytes ([0xF3, 0x4F] : List (BitVec 8))).unwrap
    let x2 : BitVec 7 ← Fld.read .bytes (.hybrid .u7 ⟨0, 0x7F, 0⟩ ⟨0x00007F00, 0, 0, 0⟩) x1
    Res.assert (decide (x2 = (0x4F : BitVec 7)))
    pure () : Res Unit) = .ok () := by decide +kernel

-- system_common/time_code.rs:39 setter
example : (do
    let m1 ← Msg.sysTimeCode.newArray .ump 4
    let m2 ← Fld.write .ump (.schema .u4 ⟨0x0F000000, 0, 0, 0⟩) m1 ((0x5 : BitVec 4) : BitVec 4)
    let m3 ← Fld.write .ump (.hybrid .u7 ⟨0, 0x7F, 0⟩ ⟨0x00007F00, 0, 0, 0⟩) m2 ((0x5F : BitVec 7) : BitVec 7)
    Res.assert (decide (m3 = ([0x15F15F00, 0x0, 0x0, 0x0] : List (BitVec 32))))
    pure () : Res Unit) = .ok () := by decide +kernel

-- system_common/time_code.rs:47 setters_bytes
example : (do
    let m1 ← Msg.sysTimeCode.newArray .bytes 3
    let m2 ← Fld.write .bytes (.hybrid .u7 ⟨0, 0x7F, 0⟩ ⟨0x00007F00, 0, 0, 0⟩) m1 ((0x5F : BitVec 7) : BitVec 7)
    Res.assert (decide (m2 = ([0xF1, 0x5F, 0x0] : List (BitVec 8))))
    pure () : Res Unit) = .ok () := by decide +kernel

-- system_common/time_code.rs:54 group
example : (do
    let x1 ← (Msg.sysTimeCode.tryFrom .ump ([0x15F15F00] : List (BitVec 32))).unwrap
    let x2 : BitVec 4 ← Fld.read .ump (.schema .u4 ⟨0x0F000000, 0, 0, 0⟩) x1
    Res.assert (decide (x2 = (0x5 : BitVec 4)))
    pure () : Res Unit) = .ok () := by decide +kernel

-- system_common/time_code.rs:62 time_code
example : (do
    let x1 ← (Msg.sysTimeCode.tryFrom .ump ([0x15F15F00] : List (BitVec 32))).unwrap
    let x2 : BitVec 7 ← Fld.read .ump (.hybrid .u7 ⟨0, 0x7F, 0⟩ ⟨0x00007F00, 0, 0, 0⟩) x1
    Res.assert (decide (x2 = (0x5F : BitVec 7)))
    pure () : Res Unit) = .ok () := by decide +kernel

-- utility.rs:50 from_data
example : (do
    Res.assert (decide ((Msg.utilTimestamp.tryFrom .ump ([0x201234] : List (BitVec 32))) = (.ok ([0x201234] : List (BitVec 32)))))
    pure () : Res Unit) = .ok () := by decide +kernel

-- utility.rs:58 time_data
example : (do
    let x1 ← (Msg.utilTimestamp.tryFrom .ump ([0x201234] : List (BitVec 32))).unwrap
    let x2 : BitVec 16 ← Fld.read .ump (.utilData) x1
    Res.assert (decide (x2 = (0x1234 : BitVec 16)))
    pure () : Res Unit) = .ok () := by decide +kernel

-- utility.rs:66 new
example : (do
    let m1 ← Msg.utilTimestamp.newVec .ump
    Res.assert (decide (m1 = ([0x200000] : List (BitVec 32))))
    pure () : Res Unit) = .ok () := by decide +kernel

-- utility.rs:72 try_new
example : (do
    Res.assert (decide ((Msg.utilTimestamp.tryNew .ump 1) = (.ok ([0x200000] : List (BitVec 32)))))
    pure () : Res Unit) = .ok () := by decide +kernel

-- utility.rs:78 try_new_fail
example : (do
    Res.assert (decide ((Msg.utilTimestamp.tryNew .ump 0) = (.err .bufferOverflow)))
    pure () : Res Unit) = .ok () := by decide +kernel

-- utility.rs:84 new_arr
example : (do
    let m1 ← Msg.utilTimestamp.newArray .ump 4
    Res.assert (decide (m1 = ([0x200000, 0x0, 0x0, 0x0] : List (BitVec 32))))
    pure () : Res Unit) = .ok () := by decide +kernel

-- utility.rs:90 rebuffer_into
example : (do
    let m1 ← Msg.utilTimestamp.newArray .ump 4
    let m2 ← (Msg.utilTimestamp.rebufferFrom .ump m1)
    let x3 ← Msg.utilTimestamp.data .ump m2
    let x4 ← Msg.utilTimestamp.data .ump ([0x200000] : List (BitVec 32))
    Res.assert (decide (x3 = x4))
    pure () : Res Unit) = .ok () := by decide +kernel

-- utility.rs:261 from_data
example : (do
    let x1 ← (Msg.utilClock.tryFrom .ump ([0x101234] : List (BitVec 32))).unwrap
    Res.assert (decide ((Utility.tryFrom ([0x101234] : List (BitVec 32))) = (.ok (Msg.utilClock, x1))))
    pure () : Res Unit) = .ok () := by decide +kernel

-- utility.rs:271 packets
example : (do
    let x1 ← (Utility.tryFrom ([0x101234] : List (BitVec 32))).unwrap
    let x2 ← x1.1.packets x1.2
    let (x3, c4) ← Packet.itNext x2
    let x5 ← unwrapO x3
    Res.assert (decide (x5.2 = ([0x101234] : List (BitVec 32))))
    let (x6, c7) ← Packet.itNext c4
    Res.assert x6.isNone
    pure () : Res Unit) = .ok () := by decide +kernel

-- utility.rs:282 rebuffer_from
example : (do
    let x1 ← (Utility.tryFrom ([0x101234] : List (BitVec 32))).unwrap
    let x2 ← FixedEnum.arrayRebuffer .ump 1 x1
    pure () : Res Unit) = .ok () := by decide +kernel

-- utility.rs:290 delta_clock_stamp_try_from
example : (do
    let x1 ← (Msg.utilDeltaClockstamp.tryFrom .ump ([0x400000] : List (BitVec 32))).unwrap
    pure () : Res Unit) = .ok () := by decide +kernel

-- utility.rs:295 delta_clock_stamp_u20
example : (do
    let x1 ← (Msg.utilDeltaClockstamp.tryFrom .ump ([0x4ABCDE] : List (BitVec 32))).unwrap
    let x2 : BitVec 20 ← Fld.read .ump (.u20Data) x1
    Res.assert (decide (x2 = (0xABCDE : BitVec 20)))
    let x3 ← (Msg.utilDeltaClockstamp.tryNewWithBuffer .ump ([0x0, 0x0, 0x0, 0x0] : List (BitVec 32))).unwrap
    let m4 ← Fld.write .ump (.u20Data) x3 ((0x12345 : BitVec 20) : BitVec 20)
    let x5 : BitVec 20 ← Fld.read .ump (.u20Data) m4
    Res.assert (decide (x5 = (0x12345 : BitVec 20)))
    pure () : Res Unit) = .ok () := by decide +kernel

-- utility.rs:308 delta_clock_stamp_tpq_try_from
example : (do
    let x1 ← (Msg.utilDeltaClockstampTpq.tryFrom .ump ([0x300000] : List (BitVec 32))).unwrap
    pure () : Res Unit) = .ok () := by decide +kernel

-- utility.rs:313 time_stamp_try_from
example : (do
    let x1 ← (Msg.utilTimestamp.tryFrom .ump ([0x200000] : List (BitVec 32))).unwrap
    pure () : Res Unit) = .ok () := by decide +kernel

-- utility/packet.rs:55 construction
example : (do
    Res.assert ((PacketKind.tryFrom .utility ([0x0] : List (BitVec 32))).isOk)
    pure () : Res Unit) = .ok () := by decide +kernel

-- utility/packet.rs:60 construction_long_slice
example : (do
    Res.assert ((PacketKind.tryFrom .utility ([0x0, 0x0] : List (BitVec 32))).isOk)
    pure () : Res Unit) = .ok () := by decide +kernel

-- utility/packet.rs:65 construction_incorrect_ump_message_type
example : (do
    Res.assert (decide ((PacketKind.tryFrom .utility ([0x10000000] : List (BitVec 32))) = (.err .invalidData)))
    pure () : Res Unit) = .ok () := by decide +kernel

-- utility/packet.rs:75 construction_short_slice
example : (do
    Res.assert (decide ((PacketKind.tryFrom .utility ([] : List (BitVec 32))) = (.err .invalidData)))
    pure () : Res Unit) = .ok () := by decide +kernel

end Midi2.Replay
