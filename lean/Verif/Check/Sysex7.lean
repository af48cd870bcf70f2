import Verif.Check.Replay

/-!
# Replay of the unit tests of sysex7

Generated by /verif/replay from the Rust source; see `Verif.Check.Replay`.  These are
112 tests over literals, not proofs.
-/

set_option linter.unusedVariables false

namespace Midi2.Replay

-- sysex7.rs:1028 new_bytes
example : (do
    let m1 ← Sxb.newVec
    Res.assert (decide (m1 = ([0xF0, 0xF7] : List (BitVec 8))))
    pure () : Res Unit) = .ok () := by decide +kernel

-- sysex7.rs:1034 bytes_try_new_with_buffer
example : (do
    let x1 ← (Sxb.tryNewWithBuffer (List.replicate 50 (0x0 : BitVec 8))).unwrap
    let x2 ← Sxb.data x1
    Res.assert (decide (x2 = ([0xF0, 0xF7] : List (BitVec 8))))
    pure () : Res Unit) = .ok () := by decide +kernel

-- sysex7.rs:1041 bytes_try_new_with_buffer_write_payload_data
example : (do
    let x1 ← (Sxb.tryNewWithBuffer (List.replicate 50 (0x0 : BitVec 8))).unwrap
    let (m2, e3) ← (Sxb.ops .fixed).trySetPayload x1 ⟨((List.range 10).map (BitVec.ofNat 7)), 10, some 10⟩
    Res.assert (decide (e3 = none))
    let x4 ← Sxb.data m2
    Res.assert (decide (x4 = ([0xF0, 0x0, 0x1, 0x2, 0x3, 0x4, 0x5, 0x6, 0x7, 0x8, 0x9, 0xF7] : List (BitVec 8))))
    pure () : Res Unit) = .ok () := by decide +kernel

-- sysex7.rs:1052 try_new_bytes
example : (do
    let x1 ← (Sxb.tryNew 2).unwrap
    Res.assert (decide (x1 = ([0xF0, 0xF7] : List (BitVec 8))))
    pure () : Res Unit) = .ok () := by decide +kernel

-- sysex7.rs:1058 data_bytes
example : (do
    let m1 ← Sxb.newVec
    let x2 ← Sxb.data m1
    Res.assert (decide (x2 = ([0xF0, 0xF7] : List (BitVec 8))))
    pure () : Res Unit) = .ok () := by decide +kernel

-- sysex7.rs:1064 try_from_bytes
example : (do
    Res.assert (decide ((Sxb.tryFrom ([0xF0, 0x0, 0x1, 0x2, 0xF7] : List (BitVec 8))) = (.ok ([0xF0, 0x0, 0x1, 0x2, 0xF7] : List (BitVec 8)))))
    pure () : Res Unit) = .ok () := by decide +kernel

-- sysex7.rs:1072 try_from_oversized_bytes
example : (do
    Res.assert (decide ((Sxb.tryFrom ([0xF0, 0x0, 0x1, 0x2, 0xF7, 0x0] : List (BitVec 8))) = (.ok ([0xF0, 0x0, 0x1, 0x2, 0xF7, 0x0] : List (BitVec 8)))))
    pure () : Res Unit) = .ok () := by decide +kernel

-- sysex7.rs:1080 data_oversized_bytes
example : (do
    let x1 ← (Sxb.tryFrom ([0xF0, 0x0, 0x1, 0x2, 0xF7, 0x0] : List (BitVec 8))).unwrap
    let x2 ← Sxb.data x1
    Res.assert (decide (x2 = ([0xF0, 0x0, 0x1, 0x2, 0xF7] : List (BitVec 8))))
    pure () : Res Unit) = .ok () := by decide +kernel

-- sysex7.rs:1090 try_from_bytes_with_no_end_byte
example : (do
    Res.assert (decide ((Sxb.tryFrom ([0xF0, 0x0, 0x1, 0x2] : List (BitVec 8))) = (.err .invalidData)))
    pure () : Res Unit) = .ok () := by decide +kernel

-- sysex7.rs:1098 try_from_bytes_with_no_begin_byte
example : (do
    Res.assert (decide ((Sxb.tryFrom ([0x0, 0x1, 0x2, 0xF7] : List (BitVec 8))) = (.err .invalidData)))
    pure () : Res Unit) = .ok () := by decide +kernel

-- sysex7.rs:1106 new_ump
example : (do
    let m1 ← Sx.s7.newVec
    Res.assert (decide (m1 = ([0x30000000, 0x0] : List (BitVec 32))))
    pure () : Res Unit) = .ok () := by decide +kernel

-- sysex7.rs:1112 data_ump
example : (do
    let m1 ← Sx.s7.newVec
    let x2 ← Sx.s7.data m1
    Res.assert (decide (x2 = ([0x30000000, 0x0] : List (BitVec 32))))
    pure () : Res Unit) = .ok () := by decide +kernel

-- sysex7.rs:1118 try_from_ump
example : (do
    Res.assert (decide ((Sx.s7.tryFrom ([0x34160001, 0x2030405, 0x34260607, 0x8090A0B, 0x34330C0D, 0xE000000] : List (BitVec 32))) = (.ok ([0x34160001, 0x2030405, 0x34260607, 0x8090A0B, 0x34330C0D, 0xE000000] : List (BitVec 32)))))
    pure () : Res Unit) = .ok () := by decide +kernel

-- sysex7.rs:1144 set_group_ump
example : (do
    let x1 ← (Sx.s7.tryFrom ([0x34160001, 0x2030405, 0x34260607, 0x8090A0B, 0x34330C0D, 0xE000000] : List (BitVec 32))).unwrap
    let m2 ← ((UmpKind.sysex .s7).rebufferFrom x1)
    Res.assert (decide ((Sx.s7.setGroup m2 (0x5 : BitVec 4)) = ([0x35160001, 0x2030405, 0x35260607, 0x8090A0B, 0x35330C0D, 0xE000000] : List (BitVec 32))))
    pure () : Res Unit) = .ok () := by decide +kernel

-- sysex7.rs:1172 try_from_oversized_ump
example : (do
    Res.assert (decide ((Sx.s7.tryFrom ([0x34160001, 0x2030405, 0x34260607, 0x8090A0B, 0x34330C0D, 0xE000000, 0x0, 0x0] : List (BitVec 32))) = (.ok ([0x34160001, 0x2030405, 0x34260607, 0x8090A0B, 0x34330C0D, 0xE000000, 0x0, 0x0] : List (BitVec 32)))))
    pure () : Res Unit) = .ok () := by decide +kernel

-- sysex7.rs:1202 data_oversized_ump
example : (do
    let x1 ← (Sx.s7.tryFrom ([0x34160001, 0x2030405, 0x34260607, 0x8090A0B, 0x34330C0D, 0xE000000, 0x0, 0x0] : List (BitVec 32))).unwrap
    let x2 ← Sx.s7.data x1
    Res.assert (decide (x2 = ([0x34160001, 0x2030405, 0x34260607, 0x8090A0B, 0x34330C0D, 0xE000000] : List (BitVec 32))))
    pure () : Res Unit) = .ok () := by decide +kernel

-- sysex7.rs:1230 data_odd_sized_buffer_ump
example : (do
    let x1 ← (Sx.s7.tryFrom ([0x34160001, 0x2030405, 0x34260607, 0x8090A0B, 0x34330C0D, 0xE000000, 0x0] : List (BitVec 32))).unwrap
    let x2 ← Sx.s7.data x1
    Res.assert (decide (x2 = ([0x34160001, 0x2030405, 0x34260607, 0x8090A0B, 0x34330C0D, 0xE000000] : List (BitVec 32))))
    pure () : Res Unit) = .ok () := by decide +kernel

-- sysex7.rs:1257 try_from_ump_inconsistent_groups
example : (do
    Res.assert (decide ((Sx.s7.tryFrom ([0x34160001, 0x2030405, 0x33260607, 0x8090A0B, 0x34330C0D, 0xE000000] : List (BitVec 32))) = (.err .invalidData)))
    pure () : Res Unit) = .ok () := by decide +kernel

-- sysex7.rs:1276 try_from_ump_incorrect_end_status
example : (do
    Res.assert (decide ((Sx.s7.tryFrom ([0x34160001, 0x2030405, 0x34260607, 0x8090A0B, 0x34030C0D, 0xE000000] : List (BitVec 32))) = (.err .invalidData)))
    pure () : Res Unit) = .ok () := by decide +kernel

-- sysex7.rs:1295 try_from_ump_incorrect_complete_status
example : (do
    Res.assert (decide ((Sx.s7.tryFrom ([0x34160001, 0x2030405] : List (BitVec 32))) = (.err .invalidData)))
    pure () : Res Unit) = .ok () := by decide +kernel

-- sysex7.rs:1305 try_from_ump_incorrect_begin_status
example : (do
    Res.assert (decide ((Sx.s7.tryFrom ([0x34060001, 0x2030405, 0x34260607, 0x8090A0B, 0x34330C0D, 0xE000000] : List (BitVec 32))) = (.err .invalidData)))
    pure () : Res Unit) = .ok () := by decide +kernel

-- sysex7.rs:1324 try_from_ump_incorrect_continue_status
example : (do
    Res.assert (decide ((Sx.s7.tryFrom ([0x34160001, 0x2030405, 0x34560607, 0x8090A0B, 0x34330C0D, 0xE000000] : List (BitVec 32))) = (.err .invalidData)))
    pure () : Res Unit) = .ok () := by decide +kernel

-- sysex7.rs:1343 try_from_ump_invalid_packet_sizes
example : (do
    Res.assert (decide ((Sx.s7.tryFrom ([0x34160001, 0x2030405, 0x34270607, 0x8090A0B, 0x34330C0D, 0xE000000] : List (BitVec 32))) = (.err .invalidData)))
    pure () : Res Unit) = .ok () := by decide +kernel

-- sysex7.rs:1360 set_payload_bytes
example : (do
    let m1 ← Sxb.newVec
    let m2 ← (Sxb.ops .vec).setPayload m1 ⟨((List.range 20).map (BitVec.ofNat 7)), 20, some 20⟩
    Res.assert (decide (m2 = ([0xF0, 0x0, 0x1, 0x2, 0x3, 0x4, 0x5, 0x6, 0x7, 0x8, 0x9, 0xA, 0xB, 0xC, 0xD, 0xE, 0xF, 0x10, 0x11, 0x12, 0x13, 0xF7] : List (BitVec 8))))
    pure () : Res Unit) = .ok () := by decide +kernel

-- sysex7.rs:1373 try_set_payload_bytes
example : (do
    let m1 ← Sxb.newArray 22
    let (m2, e3) ← (Sxb.ops .fixed).trySetPayload m1 ⟨((List.range 20).map (BitVec.ofNat 7)), 20, some 20⟩
    Res.assert (decide (e3 = none))
    Res.assert (decide (m2 = ([0xF0, 0x0, 0x1, 0x2, 0x3, 0x4, 0x5, 0x6, 0x7, 0x8, 0x9, 0xA, 0xB, 0xC, 0xD, 0xE, 0xF, 0x10, 0x11, 0x12, 0x13, 0xF7] : List (BitVec 8))))
    pure () : Res Unit) = .ok () := by decide +kernel

-- sysex7.rs:1386 try_set_payload_bytes_fail
example : (do
    let m1 ← Sxb.newArray 22
    let (m2, e3) ← (Sxb.ops .fixed).trySetPayload m1 ⟨((List.range 30).map (BitVec.ofNat 7)), 30, some 30⟩
    Res.assert (decide (e3 = (some .bufferOverflow)))
    pure () : Res Unit) = .ok () := by decide +kernel

-- sysex7.rs:1395 set_payload_ump
example : (do
    let m1 ← Sx.s7.newVec
    let m2 ← (Sx.s7.ops true .vec).setPayload m1 ⟨((List.range 30).map (BitVec.ofNat 7)), 30, some 30⟩
    Res.assert (decide (m2 = ([0x30160001, 0x2030405, 0x30260607, 0x8090A0B, 0x30260C0D, 0xE0F1011, 0x30261213, 0x14151617, 0x30361819, 0x1A1B1C1D] : List (BitVec 32))))
    pure () : Res Unit) = .ok () := by decide +kernel

-- sysex7.rs:1416 set_rubbish_payload_ump
example : (do
    let m1 ← Sx.s7.newVec
    let m2 ← (Sx.s7.ops true .vec).setPayload m1 ⟨((List.range 50).map (BitVec.ofNat 7)), 0, none⟩
    Res.assert (decide (m2 = ([0x30160001, 0x2030405, 0x30260607, 0x8090A0B, 0x30260C0D, 0xE0F1011, 0x30261213, 0x14151617, 0x30261819, 0x1A1B1C1D, 0x30261E1F, 0x20212223, 0x30262425, 0x26272829, 0x30262A2B, 0x2C2D2E2F, 0x30323031, 0x0] : List (BitVec 32))))
    pure () : Res Unit) = .ok () := by decide +kernel

-- sysex7.rs:1446 try_set_rubbish_payload_to_fixed_size_buffer_ump
example : (do
    let m1 ← Sx.s7.newArray 18
    let (m2, e3) ← (Sx.s7.ops true .fixed).trySetPayload m1 ⟨((List.range 50).map (BitVec.ofNat 7)), 0, none⟩
    Res.assert (decide (e3 = none))
    Res.assert (decide (m2 = ([0x30160001, 0x2030405, 0x30260607, 0x8090A0B, 0x30260C0D, 0xE0F1011, 0x30261213, 0x14151617, 0x30261819, 0x1A1B1C1D, 0x30261E1F, 0x20212223, 0x30262425, 0x26272829, 0x30262A2B, 0x2C2D2E2F, 0x30323031, 0x0] : List (BitVec 32))))
    pure () : Res Unit) = .ok () := by decide +kernel

-- sysex7.rs:1478 reset_smaller_payload_bytes
example : (do
    let m1 ← Sxb.newVec
    let m2 ← (Sxb.ops .vec).setPayload m1 ⟨((List.range 20).map (BitVec.ofNat 7)), 20, some 20⟩
    let m3 ← (Sxb.ops .vec).setPayload m2 ⟨((List.range 10).map (BitVec.ofNat 7)), 10, some 10⟩
    Res.assert (decide (m3 = ([0xF0, 0x0, 0x1, 0x2, 0x3, 0x4, 0x5, 0x6, 0x7, 0x8, 0x9, 0xF7] : List (BitVec 8))))
    pure () : Res Unit) = .ok () := by decide +kernel

-- sysex7.rs:1491 reset_larger_payload_bytes
example : (do
    let m1 ← Sxb.newVec
    let m2 ← (Sxb.ops .vec).setPayload m1 ⟨((List.range 20).map (BitVec.ofNat 7)), 20, some 20⟩
    let m3 ← (Sxb.ops .vec).setPayload m2 ⟨((List.range 30).map (BitVec.ofNat 7)), 30, some 30⟩
    Res.assert (decide (m3 = ([0xF0, 0x0, 0x1, 0x2, 0x3, 0x4, 0x5, 0x6, 0x7, 0x8, 0x9, 0xA, 0xB, 0xC, 0xD, 0xE, 0xF, 0x10, 0x11, 0x12, 0x13, 0x14, 0x15, 0x16, 0x17, 0x18, 0x19, 0x1A, 0x1B, 0x1C, 0x1D, 0xF7] : List (BitVec 8))))
    pure () : Res Unit) = .ok () := by decide +kernel

-- sysex7.rs:1506 set_rubbish_payload_bytes
example : (do
    let m1 ← Sxb.newVec
    let m2 ← (Sxb.ops .vec).setPayload m1 ⟨((List.range 50).map (BitVec.ofNat 7)), 0, none⟩
    Res.assert (decide (m2 = ([0xF0, 0x0, 0x1, 0x2, 0x3, 0x4, 0x5, 0x6, 0x7, 0x8, 0x9, 0xA, 0xB, 0xC, 0xD, 0xE, 0xF, 0x10, 0x11, 0x12, 0x13, 0x14, 0x15, 0x16, 0x17, 0x18, 0x19, 0x1A, 0x1B, 0x1C, 0x1D, 0x1E, 0x1F, 0x20, 0x21, 0x22, 0x23, 0x24, 0x25, 0x26, 0x27, 0x28, 0x29, 0x2A, 0x2B, 0x2C, 0x2D, 0x2E, 0x2F, 0x30, 0x31, 0xF7] : List (BitVec 8))))
    pure () : Res Unit) = .ok () := by decide +kernel

-- sysex7.rs:1522 try_set_rubbish_payload_to_fixed_size_buffer
example : (do
    let m1 ← Sxb.newArray 52
    let (m2, e3) ← (Sxb.ops .fixed).trySetPayload m1 ⟨((List.range 50).map (BitVec.ofNat 7)), 0, none⟩
    Res.assert (decide (e3 = none))
    Res.assert (decide (m2 = ([0xF0, 0x0, 0x1, 0x2, 0x3, 0x4, 0x5, 0x6, 0x7, 0x8, 0x9, 0xA, 0xB, 0xC, 0xD, 0xE, 0xF, 0x10, 0x11, 0x12, 0x13, 0x14, 0x15, 0x16, 0x17, 0x18, 0x19, 0x1A, 0x1B, 0x1C, 0x1D, 0x1E, 0x1F, 0x20, 0x21, 0x22, 0x23, 0x24, 0x25, 0x26, 0x27, 0x28, 0x29, 0x2A, 0x2B, 0x2C, 0x2D, 0x2E, 0x2F, 0x30, 0x31, 0xF7] : List (BitVec 8))))
    pure () : Res Unit) = .ok () := by decide +kernel

-- sysex7.rs:1540 payload_bytes
example : (do
    let x1 ← (Sxb.tryFrom ([0xF0, 0x0, 0x1, 0x2, 0x3, 0x4, 0x5, 0x6, 0x7, 0x8, 0x9, 0xA, 0xB, 0xC, 0xD, 0xE, 0xF, 0x10, 0x11, 0x12, 0x13, 0x14, 0x15, 0x16, 0x17, 0x18, 0x19, 0x1A, 0x1B, 0x1C, 0x1D, 0xF7] : List (BitVec 8))).unwrap
    let it2 ← Sxb.payload x1
    let x3 ← Sxb.collect (it2.data.length + 1) it2
    Res.assert (decide (x3 = ((List.range 30).map (BitVec.ofNat 7))))
    pure () : Res Unit) = .ok () := by decide +kernel

-- sysex7.rs:1563 payload_bytes_nth
example : (do
    let x1 ← (Sxb.tryFrom ([0xF0, 0x0, 0x1, 0x2, 0x3, 0x4, 0x5, 0x6, 0x7, 0x8, 0x9, 0xA, 0xB, 0xC, 0xD, 0xE, 0xF, 0x10, 0x11, 0x12, 0x13, 0x14, 0x15, 0x16, 0x17, 0x18, 0x19, 0x1A, 0x1B, 0x1C, 0x1D, 0xF7] : List (BitVec 8))).unwrap
    let it2 ← Sxb.payload x1
    let (x3, i4) ← Sxb.nth 0 it2
    Res.assert (decide (x3 = (some (0x0 : BitVec 7))))
    let (x5, i6) ← Sxb.nth 4 i4
    Res.assert (decide (x5 = (some (0x5 : BitVec 7))))
    let (x7, i8) ← Sxb.nth 12 i6
    Res.assert (decide (x7 = (some (0x12 : BitVec 7))))
    let (x9, i10) ← Sxb.nth 10 i8
    Res.assert (decide (x9 = (some (0x1D : BitVec 7))))
    let (x11, i12) ← Sxb.nth 0 i10
    Res.assert (decide (x11 = none))
    pure () : Res Unit) = .ok () := by decide +kernel

-- sysex7.rs:1579 payload_bytes_nth_with_empty_packets
example : (do
    let x1 ← (Sx.s7.tryFrom ([0x30100000, 0x0, 0x30210000, 0x0, 0x30220102, 0x0, 0x30200000, 0x0, 0x30200000, 0x0, 0x30230304, 0x5000000, 0x30240607, 0x8090000, 0x30250A0B, 0xC0D0E00, 0x30260F10, 0x11121314, 0x30251516, 0x17181900, 0x30341A1B, 0x1C1D0000, 0x0, 0x0, 0x0, 0x0, 0x0] : List (BitVec 32))).unwrap
    let it2 ← Sx.s7.payload x1
    Res.assert (decide ((Sx.len it2) = 30))
    let (x3, i4) ← Sx.s7.next x1 it2
    Res.assert (decide (x3 = (some (0x0 : BitVec 7))))
    Res.assert (decide ((Sx.len i4) = 29))
    let (x5, i6) ← Sx.s7.nth x1 4 i4
    Res.assert (decide (x5 = (some (0x5 : BitVec 7))))
    Res.assert (decide ((Sx.len i6) = 24))
    let (x7, i8) ← Sx.s7.nth x1 12 i6
    Res.assert (decide (x7 = (some (0x12 : BitVec 7))))
    Res.assert (decide ((Sx.len i8) = 11))
    let (x9, i10) ← Sx.s7.nth x1 10 i8
    Res.assert (decide (x9 = (some (0x1D : BitVec 7))))
    Res.assert (decide ((Sx.len i10) = 0))
    let (x11, i12) ← Sx.s7.next x1 i10
    Res.assert (decide (x11 = none))
    Res.assert (decide ((Sx.len i12) = 0))
    pure () : Res Unit) = .ok () := by decide +kernel

-- sysex7.rs:1625 payload_bytes_len
example : (do
    let x1 ← (Sxb.tryFrom ([0xF0, 0x0, 0x1, 0x2, 0x3, 0x4, 0x5, 0x6, 0x7, 0x8, 0x9, 0xA, 0xB, 0xC, 0xD, 0xE, 0xF, 0x10, 0x11, 0x12, 0x13, 0x14, 0x15, 0x16, 0x17, 0x18, 0x19, 0x1A, 0x1B, 0x1C, 0x1D, 0xF7] : List (BitVec 8))).unwrap
    let it2 ← Sxb.payload x1
    let x3 ← Sxb.len it2
    Res.assert (decide (x3 = 30))
    pure () : Res Unit) = .ok () := by decide +kernel

-- sysex7.rs:1642 payload_ump
example : (do
    let x1 ← (Sx.s7.tryFrom ([0x30160001, 0x2030405, 0x30260607, 0x8090A0B, 0x30260C0D, 0xE0F1011, 0x30261213, 0x14151617, 0x30361819, 0x1A1B1C1D] : List (BitVec 32))).unwrap
    let it2 ← Sx.s7.payload x1
    let x3 ← Sx.s7.collect x1 (it2.cache + 1) it2
    Res.assert (decide (x3 = ((List.range 30).map (BitVec.ofNat 7))))
    pure () : Res Unit) = .ok () := by decide +kernel

-- sysex7.rs:1672 payload_ump_nth
example : (do
    let x1 ← (Sx.s7.tryFrom ([0x30160001, 0x2030405, 0x30260607, 0x8090A0B, 0x30260C0D, 0xE0F1011, 0x30261213, 0x14151617, 0x30361819, 0x1A1B1C1D] : List (BitVec 32))).unwrap
    let it2 ← Sx.s7.payload x1
    Res.assert (decide ((Sx.len it2) = 30))
    let (x3, i4) ← Sx.s7.nth x1 0 it2
    Res.assert (decide (x3 = (some (0x0 : BitVec 7))))
    Res.assert (decide ((Sx.len i4) = 29))
    let (x5, i6) ← Sx.s7.nth x1 4 i4
    Res.assert (decide (x5 = (some (0x5 : BitVec 7))))
    Res.assert (decide ((Sx.len i6) = 24))
    let (x7, i8) ← Sx.s7.nth x1 12 i6
    Res.assert (decide (x7 = (some (0x12 : BitVec 7))))
    Res.assert (decide ((Sx.len i8) = 11))
    let (x9, i10) ← Sx.s7.nth x1 10 i8
    Res.assert (decide (x9 = (some (0x1D : BitVec 7))))
    Res.assert (decide ((Sx.len i10) = 0))
    let (x11, i12) ← Sx.s7.nth x1 0 i10
    Res.assert (decide (x11 = none))
    Res.assert (decide ((Sx.len i12) = 0))
    pure () : Res Unit) = .ok () := by decide +kernel

-- sysex7.rs:1702 payload_ump_nth_non_contiguous_oversized
example : (do
    let x1 ← (Sx.s7.tryFrom ([0x30100000, 0x0, 0x30210000, 0x0, 0x30220102, 0x0, 0x30230304, 0x5000000, 0x30240607, 0x8090000, 0x30250A0B, 0xC0D0E00, 0x30260F10, 0x11121314, 0x30251516, 0x17181900, 0x30341A1B, 0x1C1D0000, 0x0, 0x0, 0x0, 0x0, 0x0] : List (BitVec 32))).unwrap
    let it2 ← Sx.s7.payload x1
    Res.assert (decide ((Sx.len it2) = 30))
    let (x3, i4) ← Sx.s7.nth x1 0 it2
    Res.assert (decide (x3 = (some (0x0 : BitVec 7))))
    Res.assert (decide ((Sx.len i4) = 29))
    let (x5, i6) ← Sx.s7.nth x1 4 i4
    Res.assert (decide (x5 = (some (0x5 : BitVec 7))))
    Res.assert (decide ((Sx.len i6) = 24))
    let (x7, i8) ← Sx.s7.nth x1 12 i6
    Res.assert (decide (x7 = (some (0x12 : BitVec 7))))
    Res.assert (decide ((Sx.len i8) = 11))
    let (x9, i10) ← Sx.s7.nth x1 10 i8
    Res.assert (decide (x9 = (some (0x1D : BitVec 7))))
    Res.assert (decide ((Sx.len i10) = 0))
    let (x11, i12) ← Sx.s7.nth x1 0 i10
    Res.assert (decide (x11 = none))
    Res.assert (decide ((Sx.len i12) = 0))
    pure () : Res Unit) = .ok () := by decide +kernel

-- sysex7.rs:1744 from_bytes
example : (do
    let x1 ← (Sxb.tryFrom ([0xF0, 0x0, 0x1, 0x2, 0x3, 0x4, 0x5, 0x6, 0x7, 0x8, 0x9, 0xA, 0xB, 0xC, 0xD, 0xE, 0xF, 0x10, 0x11, 0x12, 0x13, 0x14, 0x15, 0x16, 0x17, 0x18, 0x19, 0x1A, 0x1B, 0x1C, 0x1D, 0xF7] : List (BitVec 8))).unwrap
    let m2 ← (Sxb.fromBytes true x1)
    Res.assert (decide (m2 = ([0x30160001, 0x2030405, 0x30260607, 0x8090A0B, 0x30260C0D, 0xE0F1011, 0x30261213, 0x14151617, 0x30361819, 0x1A1B1C1D] : List (BitVec 32))))
    pure () : Res Unit) = .ok () := by decide +kernel

-- sysex7.rs:1769 from_ump
example : (do
    let x1 ← (Sx.s7.tryFrom ([0x30160001, 0x2030405, 0x30260607, 0x8090A0B, 0x30260C0D, 0xE0F1011, 0x30261213, 0x14151617, 0x30361819, 0x1A1B1C1D] : List (BitVec 32))).unwrap
    let m2 ← (Sxb.fromUmp x1)
    Res.assert (decide (m2 = ([0xF0, 0x0, 0x1, 0x2, 0x3, 0x4, 0x5, 0x6, 0x7, 0x8, 0x9, 0xA, 0xB, 0xC, 0xD, 0xE, 0xF, 0x10, 0x11, 0x12, 0x13, 0x14, 0x15, 0x16, 0x17, 0x18, 0x19, 0x1A, 0x1B, 0x1C, 0x1D, 0xF7] : List (BitVec 8))))
    pure () : Res Unit) = .ok () := by decide +kernel

-- sysex7.rs:1794 set_payload_to_fixed_size_buffer_with_overflow
example : (do
    let m1 ← Sx.s7.newArray 8
    let (m2, e3) ← (Sx.s7.ops true .fixed).trySetPayload m1 ⟨((List.range 30).map (BitVec.ofNat 7)), 30, some 30⟩
    Res.assert (decide (e3 = (some .bufferOverflow)))
    pure () : Res Unit) = .ok () := by decide +kernel

-- sysex7.rs:1803 empty_payload_ump
example : (do
    let m1 ← Sx.s7.newVec
    let it2 ← Sx.s7.payload m1
    let x3 ← Sx.s7.collect m1 (it2.cache + 1) it2
    Res.assert (decide (x3 = ([] : List (BitVec 7))))
    pure () : Res Unit) = .ok () := by decide +kernel

-- sysex7.rs:1813 packets
example : (do
    let x1 ← (Sx.s7.tryFrom ([0x30160001, 0x2030405, 0x30260607, 0x8090A0B, 0x30260C0D, 0xE0F1011, 0x30261213, 0x14151617, 0x30361819, 0x1A1B1C1D] : List (BitVec 32))).unwrap
    let x2 ← Sx.s7.dataPackets x1
    let (x3, c4) ← Packet.itNext x2
    let x5 ← unwrapO x3
    Res.assert (decide (x5.2 = ([0x30160001, 0x2030405] : List (BitVec 32))))
    let (x6, c7) ← Packet.itNext c4
    let x8 ← unwrapO x6
    Res.assert (decide (x8.2 = ([0x30260607, 0x8090A0B] : List (BitVec 32))))
    let (x9, c10) ← Packet.itNext c7
    let x11 ← unwrapO x9
    Res.assert (decide (x11.2 = ([0x30260C0D, 0xE0F1011] : List (BitVec 32))))
    let (x12, c13) ← Packet.itNext c10
    let x14 ← unwrapO x12
    Res.assert (decide (x14.2 = ([0x30261213, 0x14151617] : List (BitVec 32))))
    let (x15, c16) ← Packet.itNext c13
    let x17 ← unwrapO x15
    Res.assert (decide (x17.2 = ([0x30361819, 0x1A1B1C1D] : List (BitVec 32))))
    let (x18, c19) ← Packet.itNext c16
    Res.assert x18.isNone
    pure () : Res Unit) = .ok () := by decide +kernel

-- sysex7.rs:1840 packets_empty
example : (do
    let m1 ← Sx.s7.newArray 2
    let x2 ← Sx.s7.dataPackets m1
    let (x3, c4) ← Packet.itNext x2
    let x5 ← unwrapO x3
    Res.assert (decide (x5.2 = ([0x30000000, 0x0] : List (BitVec 32))))
    let (x6, c7) ← Packet.itNext c4
    Res.assert x6.isNone
    pure () : Res Unit) = .ok () := by decide +kernel

-- sysex7.rs:1851 empty_message_is_compact
example : (do
    Res.assert ((Sx.s7.isCompact ([0x30000000, 0x0] : List (BitVec 32))))
    pure () : Res Unit) = .ok () := by decide +kernel

-- sysex7.rs:1856 message_with_two_empty_packets_is_not_compact
example : (do
    Res.assert ((!(Sx.s7.isCompact ([0x30100000, 0x0, 0x30300000, 0x0] : List (BitVec 32)))))
    pure () : Res Unit) = .ok () := by decide +kernel

-- sysex7.rs:1866 message_with_non_contiguous_payload_is_not_compact
example : (do
    Res.assert ((!(Sx.s7.isCompact ([0x30100000, 0x0, 0x30210000, 0x0, 0x30220102, 0x0, 0x30230304, 0x5000000, 0x30240607, 0x8090000, 0x30250A0B, 0xC0D0E00, 0x30260F10, 0x11121314, 0x30251516, 0x17181900, 0x30341A1B, 0x1C1D0000, 0x0, 0x0, 0x0, 0x0, 0x0] : List (BitVec 32)))))
    pure () : Res Unit) = .ok () := by decide +kernel

-- sysex7.rs:1895 message_with_empty_packets_is_not_compact
example : (do
    Res.assert ((!(Sx.s7.isCompact ([0x30100000, 0x0, 0x30210000, 0x0, 0x30220102, 0x0, 0x30200000, 0x0, 0x30200000, 0x0, 0x30230304, 0x5000000, 0x30240607, 0x8090000, 0x30250A0B, 0xC0D0E00, 0x30260F10, 0x11121314, 0x30251516, 0x17181900, 0x30341A1B, 0x1C1D0000, 0x0, 0x0, 0x0, 0x0, 0x0] : List (BitVec 32)))))
    pure () : Res Unit) = .ok () := by decide +kernel

-- sysex7.rs:1928 large_message_with_contiguous_payload_is_compact
example : (do
    Res.assert ((Sx.s7.isCompact ([0x30160001, 0x2030405, 0x30260607, 0x8090A0B, 0x30260C0D, 0xE0F1011, 0x30261213, 0x14151617, 0x30261819, 0x1A1B1C1D, 0x30261E1F, 0x20212223, 0x30262425, 0x26272829, 0x30262A2B, 0x2C2D2E2F, 0x30323031, 0x0] : List (BitVec 32))))
    pure () : Res Unit) = .ok () := by decide +kernel

-- sysex7.rs:1952 compact_a_complete_message_is_no_op
example : (do
    let m1 ← Sx.s7.compact ([0x30050102, 0x3040500] : List (BitVec 32))
    let x2 ← Sx.s7.data m1
    Res.assert (decide (x2 = ([0x30050102, 0x3040500] : List (BitVec 32))))
    pure () : Res Unit) = .ok () := by decide +kernel

-- sysex7.rs:1959 message_of_two_empty_packets_compacts_down_to_one_empty_packet
example : (do
    let m1 ← Sx.s7.compact ([0x30100000, 0x0, 0x30300000, 0x0] : List (BitVec 32))
    let x2 ← Sx.s7.data m1
    Res.assert (decide (x2 = ([0x30000000, 0x0] : List (BitVec 32))))
    pure () : Res Unit) = .ok () := by decide +kernel

-- sysex7.rs:1966 message_with_non_contiguous_payload_compacts_down
example : (do
    let m1 ← Sx.s7.compact ([0x30100000, 0x0, 0x30210000, 0x0, 0x30220102, 0x0, 0x30230304, 0x5000000, 0x30240607, 0x8090000, 0x30250A0B, 0xC0D0E00, 0x30260F10, 0x11121314, 0x30251516, 0x17181900, 0x30241A1B, 0x1C1D0000, 0x30231E1F, 0x20000000, 0x30222122, 0x0, 0x30212300, 0x0, 0x30200000, 0x0, 0x30212400, 0x0, 0x30222526, 0x0, 0x30232728, 0x29000000, 0x30242A2B, 0x2C2D0000, 0x30342E2F, 0x30310000] : List (BitVec 32))
    let x2 ← Sx.s7.data m1
    Res.assert (decide (x2 = ([0x30160001, 0x2030405, 0x30260607, 0x8090A0B, 0x30260C0D, 0xE0F1011, 0x30261213, 0x14151617, 0x30261819, 0x1A1B1C1D, 0x30261E1F, 0x20212223, 0x30262425, 0x26272829, 0x30262A2B, 0x2C2D2E2F, 0x30323031, 0x0] : List (BitVec 32))))
    pure () : Res Unit) = .ok () := by decide +kernel

-- sysex7.rs:2042 move_payload_tail_ump_no_op
example : (do
    let m1 ← Sx.s7.newVec
    let m2 ← (Sx.s7.ops true .vec).setPayload m1 ⟨((List.range 30).map (BitVec.ofNat 7)), 30, some 30⟩
    let m3 ← (Sx.s7.ops true .vec).moveTail m2 0 0
    let it4 ← Sx.s7.payload m3
    let x5 ← Sx.s7.collect m3 (it4.cache + 1) it4
    Res.assert (decide (x5 = ((List.range 30).map (BitVec.ofNat 7))))
    pure () : Res Unit) = .ok () := by decide +kernel

-- sysex7.rs:2047 move_payload_tail_bytes_no_op
example : (do
    let m1 ← Sxb.newVec
    let m2 ← (Sxb.ops .vec).setPayload m1 ⟨((List.range 30).map (BitVec.ofNat 7)), 30, some 30⟩
    let m3 ← (Sxb.ops .vec).moveTail m2 0 0
    let it4 ← Sxb.payload m3
    let x5 ← Sxb.collect (it4.data.length + 1) it4
    Res.assert (decide (x5 = ((List.range 30).map (BitVec.ofNat 7))))
    pure () : Res Unit) = .ok () := by decide +kernel

-- sysex7.rs:2069 move_payload_tail_ump_one_place
example : (do
    let m1 ← Sx.s7.newVec
    let m2 ← (Sx.s7.ops true .vec).setPayload m1 ⟨((List.range 30).map (BitVec.ofNat 7)), 30, some 30⟩
    let m3 ← (Sx.s7.ops true .vec).moveTail m2 0 1
    let it4 ← Sx.s7.payload m3
    let x5 ← Sx.s7.collect m3 (it4.cache + 1) it4
    Res.assert (decide (x5 = ([0x0, 0x0, 0x1, 0x2, 0x3, 0x4, 0x5, 0x6, 0x7, 0x8, 0x9, 0xA, 0xB, 0xC, 0xD, 0xE, 0xF, 0x10, 0x11, 0x12, 0x13, 0x14, 0x15, 0x16, 0x17, 0x18, 0x19, 0x1A, 0x1B, 0x1C] : List (BitVec 7))))
    pure () : Res Unit) = .ok () := by decide +kernel

-- sysex7.rs:2074 move_payload_tail_bytes_one_place
example : (do
    let m1 ← Sxb.newVec
    let m2 ← (Sxb.ops .vec).setPayload m1 ⟨((List.range 30).map (BitVec.ofNat 7)), 30, some 30⟩
    let m3 ← (Sxb.ops .vec).moveTail m2 0 1
    let it4 ← Sxb.payload m3
    let x5 ← Sxb.collect (it4.data.length + 1) it4
    Res.assert (decide (x5 = ([0x0, 0x0, 0x1, 0x2, 0x3, 0x4, 0x5, 0x6, 0x7, 0x8, 0x9, 0xA, 0xB, 0xC, 0xD, 0xE, 0xF, 0x10, 0x11, 0x12, 0x13, 0x14, 0x15, 0x16, 0x17, 0x18, 0x19, 0x1A, 0x1B, 0x1C] : List (BitVec 7))))
    pure () : Res Unit) = .ok () := by decide +kernel

-- sysex7.rs:2096 move_payload_tail_ump_ten_places
example : (do
    let m1 ← Sx.s7.newVec
    let m2 ← (Sx.s7.ops true .vec).setPayload m1 ⟨((List.range 30).map (BitVec.ofNat 7)), 30, some 30⟩
    let m3 ← (Sx.s7.ops true .vec).moveTail m2 0 10
    let it4 ← Sx.s7.payload m3
    let x5 ← Sx.s7.collect m3 (it4.cache + 1) it4
    Res.assert (decide (x5 = ([0x0, 0x1, 0x2, 0x3, 0x4, 0x5, 0x6, 0x7, 0x8, 0x9, 0x0, 0x1, 0x2, 0x3, 0x4, 0x5, 0x6, 0x7, 0x8, 0x9, 0xA, 0xB, 0xC, 0xD, 0xE, 0xF, 0x10, 0x11, 0x12, 0x13] : List (BitVec 7))))
    pure () : Res Unit) = .ok () := by decide +kernel

-- sysex7.rs:2101 move_payload_tail_bytes_ten_places
example : (do
    let m1 ← Sxb.newVec
    let m2 ← (Sxb.ops .vec).setPayload m1 ⟨((List.range 30).map (BitVec.ofNat 7)), 30, some 30⟩
    let m3 ← (Sxb.ops .vec).moveTail m2 0 10
    let it4 ← Sxb.payload m3
    let x5 ← Sxb.collect (it4.data.length + 1) it4
    Res.assert (decide (x5 = ([0x0, 0x1, 0x2, 0x3, 0x4, 0x5, 0x6, 0x7, 0x8, 0x9, 0x0, 0x1, 0x2, 0x3, 0x4, 0x5, 0x6, 0x7, 0x8, 0x9, 0xA, 0xB, 0xC, 0xD, 0xE, 0xF, 0x10, 0x11, 0x12, 0x13] : List (BitVec 7))))
    pure () : Res Unit) = .ok () := by decide +kernel

-- sysex7.rs:2123 move_payload_tail_ump_ten_places_back
example : (do
    let m1 ← Sx.s7.newVec
    let m2 ← (Sx.s7.ops true .vec).setPayload m1 ⟨((List.range 30).map (BitVec.ofNat 7)), 30, some 30⟩
    let m3 ← (Sx.s7.ops true .vec).moveTail m2 10 0
    let it4 ← Sx.s7.payload m3
    let x5 ← Sx.s7.collect m3 (it4.cache + 1) it4
    Res.assert (decide (x5 = ([0xA, 0xB, 0xC, 0xD, 0xE, 0xF, 0x10, 0x11, 0x12, 0x13, 0x14, 0x15, 0x16, 0x17, 0x18, 0x19, 0x1A, 0x1B, 0x1C, 0x1D, 0x14, 0x15, 0x16, 0x17, 0x18, 0x19, 0x1A, 0x1B, 0x1C, 0x1D] : List (BitVec 7))))
    pure () : Res Unit) = .ok () := by decide +kernel

-- sysex7.rs:2128 move_payload_tail_bytes_ten_places_back
example : (do
    let m1 ← Sxb.newVec
    let m2 ← (Sxb.ops .vec).setPayload m1 ⟨((List.range 30).map (BitVec.ofNat 7)), 30, some 30⟩
    let m3 ← (Sxb.ops .vec).moveTail m2 10 0
    let it4 ← Sxb.payload m3
    let x5 ← Sxb.collect (it4.data.length + 1) it4
    Res.assert (decide (x5 = ([0xA, 0xB, 0xC, 0xD, 0xE, 0xF, 0x10, 0x11, 0x12, 0x13, 0x14, 0x15, 0x16, 0x17, 0x18, 0x19, 0x1A, 0x1B, 0x1C, 0x1D, 0x14, 0x15, 0x16, 0x17, 0x18, 0x19, 0x1A, 0x1B, 0x1C, 0x1D] : List (BitVec 7))))
    pure () : Res Unit) = .ok () := by decide +kernel

-- sysex7.rs:2153 insert_rubbish_payload_front_ump
example : (do
    let m1 ← Sx.s7.newVec
    let m2 ← (Sx.s7.ops true .vec).setPayload m1 ⟨((List.range 30).map (BitVec.ofNat 7)), 30, some 30⟩
    let m3 ← (Sx.s7.ops true .vec).insert m2 ⟨((List.range 50).map (BitVec.ofNat 7)), 0, none⟩ 0
    let it4 ← Sx.s7.payload m3
    let x5 ← Sx.s7.collect m3 (it4.cache + 1) it4
    Res.assert (decide (x5 = ([0x0, 0x1, 0x2, 0x3, 0x4, 0x5, 0x6, 0x7, 0x8, 0x9, 0xA, 0xB, 0xC, 0xD, 0xE, 0xF, 0x10, 0x11, 0x12, 0x13, 0x14, 0x15, 0x16, 0x17, 0x18, 0x19, 0x1A, 0x1B, 0x1C, 0x1D, 0x1E, 0x1F, 0x20, 0x21, 0x22, 0x23, 0x24, 0x25, 0x26, 0x27, 0x28, 0x29, 0x2A, 0x2B, 0x2C, 0x2D, 0x2E, 0x2F, 0x30, 0x31, 0x0, 0x1, 0x2, 0x3, 0x4, 0x5, 0x6, 0x7, 0x8, 0x9, 0xA, 0xB, 0xC, 0xD, 0xE, 0xF, 0x10, 0x11, 0x12, 0x13, 0x14, 0x15, 0x16, 0x17, 0x18, 0x19, 0x1A, 0x1B, 0x1C, 0x1D] : List (BitVec 7))))
    pure () : Res Unit) = .ok () := by decide +kernel

-- sysex7.rs:2158 insert_rubbish_payload_front_bytes
example : (do
    let m1 ← Sxb.newVec
    let m2 ← (Sxb.ops .vec).setPayload m1 ⟨((List.range 30).map (BitVec.ofNat 7)), 30, some 30⟩
    let m3 ← (Sxb.ops .vec).insert m2 ⟨((List.range 50).map (BitVec.ofNat 7)), 0, none⟩ 0
    let it4 ← Sxb.payload m3
    let x5 ← Sxb.collect (it4.data.length + 1) it4
    Res.assert (decide (x5 = ([0x0, 0x1, 0x2, 0x3, 0x4, 0x5, 0x6, 0x7, 0x8, 0x9, 0xA, 0xB, 0xC, 0xD, 0xE, 0xF, 0x10, 0x11, 0x12, 0x13, 0x14, 0x15, 0x16, 0x17, 0x18, 0x19, 0x1A, 0x1B, 0x1C, 0x1D, 0x1E, 0x1F, 0x20, 0x21, 0x22, 0x23, 0x24, 0x25, 0x26, 0x27, 0x28, 0x29, 0x2A, 0x2B, 0x2C, 0x2D, 0x2E, 0x2F, 0x30, 0x31, 0x0, 0x1, 0x2, 0x3, 0x4, 0x5, 0x6, 0x7, 0x8, 0x9, 0xA, 0xB, 0xC, 0xD, 0xE, 0xF, 0x10, 0x11, 0x12, 0x13, 0x14, 0x15, 0x16, 0x17, 0x18, 0x19, 0x1A, 0x1B, 0x1C, 0x1D] : List (BitVec 7))))
    pure () : Res Unit) = .ok () := by decide +kernel

-- sysex7.rs:2183 insert_rubbish_payload_back_ump
example : (do
    let m1 ← Sx.s7.newVec
    let m2 ← (Sx.s7.ops true .vec).setPayload m1 ⟨((List.range 30).map (BitVec.ofNat 7)), 30, some 30⟩
    let m3 ← (Sx.s7.ops true .vec).insert m2 ⟨((List.range 50).map (BitVec.ofNat 7)), 0, none⟩ 30
    let it4 ← Sx.s7.payload m3
    let x5 ← Sx.s7.collect m3 (it4.cache + 1) it4
    Res.assert (decide (x5 = ([0x0, 0x1, 0x2, 0x3, 0x4, 0x5, 0x6, 0x7, 0x8, 0x9, 0xA, 0xB, 0xC, 0xD, 0xE, 0xF, 0x10, 0x11, 0x12, 0x13, 0x14, 0x15, 0x16, 0x17, 0x18, 0x19, 0x1A, 0x1B, 0x1C, 0x1D, 0x0, 0x1, 0x2, 0x3, 0x4, 0x5, 0x6, 0x7, 0x8, 0x9, 0xA, 0xB, 0xC, 0xD, 0xE, 0xF, 0x10, 0x11, 0x12, 0x13, 0x14, 0x15, 0x16, 0x17, 0x18, 0x19, 0x1A, 0x1B, 0x1C, 0x1D, 0x1E, 0x1F, 0x20, 0x21, 0x22, 0x23, 0x24, 0x25, 0x26, 0x27, 0x28, 0x29, 0x2A, 0x2B, 0x2C, 0x2D, 0x2E, 0x2F, 0x30, 0x31] : List (BitVec 7))))
    pure () : Res Unit) = .ok () := by decide +kernel

-- sysex7.rs:2188 insert_rubbish_payload_back_bytes
example : (do
    let m1 ← Sxb.newVec
    let m2 ← (Sxb.ops .vec).setPayload m1 ⟨((List.range 30).map (BitVec.ofNat 7)), 30, some 30⟩
    let m3 ← (Sxb.ops .vec).insert m2 ⟨((List.range 50).map (BitVec.ofNat 7)), 0, none⟩ 30
    let it4 ← Sxb.payload m3
    let x5 ← Sxb.collect (it4.data.length + 1) it4
    Res.assert (decide (x5 = ([0x0, 0x1, 0x2, 0x3, 0x4, 0x5, 0x6, 0x7, 0x8, 0x9, 0xA, 0xB, 0xC, 0xD, 0xE, 0xF, 0x10, 0x11, 0x12, 0x13, 0x14, 0x15, 0x16, 0x17, 0x18, 0x19, 0x1A, 0x1B, 0x1C, 0x1D, 0x0, 0x1, 0x2, 0x3, 0x4, 0x5, 0x6, 0x7, 0x8, 0x9, 0xA, 0xB, 0xC, 0xD, 0xE, 0xF, 0x10, 0x11, 0x12, 0x13, 0x14, 0x15, 0x16, 0x17, 0x18, 0x19, 0x1A, 0x1B, 0x1C, 0x1D, 0x1E, 0x1F, 0x20, 0x21, 0x22, 0x23, 0x24, 0x25, 0x26, 0x27, 0x28, 0x29, 0x2A, 0x2B, 0x2C, 0x2D, 0x2E, 0x2F, 0x30, 0x31] : List (BitVec 7))))
    pure () : Res Unit) = .ok () := by decide +kernel

-- sysex7.rs:2213 insert_rubbish_payload_middle_ump
example : (do
    let m1 ← Sx.s7.newVec
    let m2 ← (Sx.s7.ops true .vec).setPayload m1 ⟨((List.range 30).map (BitVec.ofNat 7)), 30, some 30⟩
    let m3 ← (Sx.s7.ops true .vec).insert m2 ⟨((List.range 50).map (BitVec.ofNat 7)), 0, none⟩ 15
    let it4 ← Sx.s7.payload m3
    let x5 ← Sx.s7.collect m3 (it4.cache + 1) it4
    Res.assert (decide (x5 = ([0x0, 0x1, 0x2, 0x3, 0x4, 0x5, 0x6, 0x7, 0x8, 0x9, 0xA, 0xB, 0xC, 0xD, 0xE, 0x0, 0x1, 0x2, 0x3, 0x4, 0x5, 0x6, 0x7, 0x8, 0x9, 0xA, 0xB, 0xC, 0xD, 0xE, 0xF, 0x10, 0x11, 0x12, 0x13, 0x14, 0x15, 0x16, 0x17, 0x18, 0x19, 0x1A, 0x1B, 0x1C, 0x1D, 0x1E, 0x1F, 0x20, 0x21, 0x22, 0x23, 0x24, 0x25, 0x26, 0x27, 0x28, 0x29, 0x2A, 0x2B, 0x2C, 0x2D, 0x2E, 0x2F, 0x30, 0x31, 0xF, 0x10, 0x11, 0x12, 0x13, 0x14, 0x15, 0x16, 0x17, 0x18, 0x19, 0x1A, 0x1B, 0x1C, 0x1D] : List (BitVec 7))))
    pure () : Res Unit) = .ok () := by decide +kernel

-- sysex7.rs:2218 insert_rubbish_payload_middle_bytes
example : (do
    let m1 ← Sxb.newVec
    let m2 ← (Sxb.ops .vec).setPayload m1 ⟨((List.range 30).map (BitVec.ofNat 7)), 30, some 30⟩
    let m3 ← (Sxb.ops .vec).insert m2 ⟨((List.range 50).map (BitVec.ofNat 7)), 0, none⟩ 15
    let it4 ← Sxb.payload m3
    let x5 ← Sxb.collect (it4.data.length + 1) it4
    Res.assert (decide (x5 = ([0x0, 0x1, 0x2, 0x3, 0x4, 0x5, 0x6, 0x7, 0x8, 0x9, 0xA, 0xB, 0xC, 0xD, 0xE, 0x0, 0x1, 0x2, 0x3, 0x4, 0x5, 0x6, 0x7, 0x8, 0x9, 0xA, 0xB, 0xC, 0xD, 0xE, 0xF, 0x10, 0x11, 0x12, 0x13, 0x14, 0x15, 0x16, 0x17, 0x18, 0x19, 0x1A, 0x1B, 0x1C, 0x1D, 0x1E, 0x1F, 0x20, 0x21, 0x22, 0x23, 0x24, 0x25, 0x26, 0x27, 0x28, 0x29, 0x2A, 0x2B, 0x2C, 0x2D, 0x2E, 0x2F, 0x30, 0x31, 0xF, 0x10, 0x11, 0x12, 0x13, 0x14, 0x15, 0x16, 0x17, 0x18, 0x19, 0x1A, 0x1B, 0x1C, 0x1D] : List (BitVec 7))))
    pure () : Res Unit) = .ok () := by decide +kernel

-- sysex7.rs:2248 set_bytes_ump
example : (do
    let m1 ← Sx.s7.newVec
    let m2 ← (Sx.s7.ops true .vec).setPayload m1 ⟨((List.range 30).map (BitVec.ofNat 7)), 30, some 30⟩
    let m3 ← Sx.s7.setByte m2 (0x7F : BitVec 7) 4
    let m4 ← Sx.s7.setByte m3 (0x7E : BitVec 7) 8
    let m5 ← Sx.s7.setByte m4 (0x7D : BitVec 7) 12
    let m6 ← Sx.s7.setByte m5 (0x7C : BitVec 7) 16
    let m7 ← Sx.s7.setByte m6 (0x7B : BitVec 7) 17
    let m8 ← Sx.s7.setByte m7 (0x7A : BitVec 7) 21
    let m9 ← Sx.s7.setByte m8 (0x79 : BitVec 7) 25
    let m10 ← Sx.s7.setByte m9 (0x78 : BitVec 7) 29
    let it11 ← Sx.s7.payload m10
    let x12 ← Sx.s7.collect m10 (it11.cache + 1) it11
    let x13 ← at' x12 4
    Res.assert (decide (x13 = (0x7F : BitVec 7)))
    let x14 ← Sx.s7.collect m10 (it11.cache + 1) it11
    let x15 ← at' x14 8
    Res.assert (decide (x15 = (0x7E : BitVec 7)))
    let x16 ← Sx.s7.collect m10 (it11.cache + 1) it11
    let x17 ← at' x16 12
    Res.assert (decide (x17 = (0x7D : BitVec 7)))
    let x18 ← Sx.s7.collect m10 (it11.cache + 1) it11
    let x19 ← at' x18 16
    Res.assert (decide (x19 = (0x7C : BitVec 7)))
    let x20 ← Sx.s7.collect m10 (it11.cache + 1) it11
    let x21 ← at' x20 17
    Res.assert (decide (x21 = (0x7B : BitVec 7)))
    let x22 ← Sx.s7.collect m10 (it11.cache + 1) it11
    let x23 ← at' x22 21
    Res.assert (decide (x23 = (0x7A : BitVec 7)))
    let x24 ← Sx.s7.collect m10 (it11.cache + 1) it11
    let x25 ← at' x24 25
    Res.assert (decide (x25 = (0x79 : BitVec 7)))
    let x26 ← Sx.s7.collect m10 (it11.cache + 1) it11
    let x27 ← at' x26 29
    Res.assert (decide (x27 = (0x78 : BitVec 7)))
    pure () : Res Unit) = .ok () := by decide +kernel

-- sysex7.rs:2253 set_bytes_bytes
example : (do
    let m1 ← Sxb.newVec
    let m2 ← (Sxb.ops .vec).setPayload m1 ⟨((List.range 30).map (BitVec.ofNat 7)), 30, some 30⟩
    let m3 ← Sxb.setByte m2 (0x7F : BitVec 7) 4
    let m4 ← Sxb.setByte m3 (0x7E : BitVec 7) 8
    let m5 ← Sxb.setByte m4 (0x7D : BitVec 7) 12
    let m6 ← Sxb.setByte m5 (0x7C : BitVec 7) 16
    let m7 ← Sxb.setByte m6 (0x7B : BitVec 7) 17
    let m8 ← Sxb.setByte m7 (0x7A : BitVec 7) 21
    let m9 ← Sxb.setByte m8 (0x79 : BitVec 7) 25
    let m10 ← Sxb.setByte m9 (0x78 : BitVec 7) 29
    let it11 ← Sxb.payload m10
    let x12 ← Sxb.collect (it11.data.length + 1) it11
    let x13 ← at' x12 4
    Res.assert (decide (x13 = (0x7F : BitVec 7)))
    let x14 ← Sxb.collect (it11.data.length + 1) it11
    let x15 ← at' x14 8
    Res.assert (decide (x15 = (0x7E : BitVec 7)))
    let x16 ← Sxb.collect (it11.data.length + 1) it11
    let x17 ← at' x16 12
    Res.assert (decide (x17 = (0x7D : BitVec 7)))
    let x18 ← Sxb.collect (it11.data.length + 1) it11
    let x19 ← at' x18 16
    Res.assert (decide (x19 = (0x7C : BitVec 7)))
    let x20 ← Sxb.collect (it11.data.length + 1) it11
    let x21 ← at' x20 17
    Res.assert (decide (x21 = (0x7B : BitVec 7)))
    let x22 ← Sxb.collect (it11.data.length + 1) it11
    let x23 ← at' x22 21
    Res.assert (decide (x23 = (0x7A : BitVec 7)))
    let x24 ← Sxb.collect (it11.data.length + 1) it11
    let x25 ← at' x24 25
    Res.assert (decide (x25 = (0x79 : BitVec 7)))
    let x26 ← Sxb.collect (it11.data.length + 1) it11
    let x27 ← at' x26 29
    Res.assert (decide (x27 = (0x78 : BitVec 7)))
    pure () : Res Unit) = .ok () := by decide +kernel

-- sysex7.rs:2279 insert_payload_front_fixed_size_buffer_ump
example : (do
    let m1 ← Sx.s7.newArray 18
    let (m2, e3) ← (Sx.s7.ops true .fixed).trySetPayload m1 ⟨((List.range 30).map (BitVec.ofNat 7)), 30, some 30⟩
    Res.assert (decide (e3 = none))
    let (m4, e5) ← (Sx.s7.ops true .fixed).tryInsert m2 ⟨((List.range 20).map (BitVec.ofNat 7)), 20, some 20⟩ 0
    Res.assert (decide (e5 = none))
    let it6 ← Sx.s7.payload m4
    let x7 ← Sx.s7.collect m4 (it6.cache + 1) it6
    Res.assert (decide (x7 = ([0x0, 0x1, 0x2, 0x3, 0x4, 0x5, 0x6, 0x7, 0x8, 0x9, 0xA, 0xB, 0xC, 0xD, 0xE, 0xF, 0x10, 0x11, 0x12, 0x13, 0x0, 0x1, 0x2, 0x3, 0x4, 0x5, 0x6, 0x7, 0x8, 0x9, 0xA, 0xB, 0xC, 0xD, 0xE, 0xF, 0x10, 0x11, 0x12, 0x13, 0x14, 0x15, 0x16, 0x17, 0x18, 0x19, 0x1A, 0x1B, 0x1C, 0x1D] : List (BitVec 7))))
    pure () : Res Unit) = .ok () := by decide +kernel

-- sysex7.rs:2284 insert_payload_front_fixed_size_buffer_bytes
example : (do
    let m1 ← Sxb.newArray 52
    let (m2, e3) ← (Sxb.ops .fixed).trySetPayload m1 ⟨((List.range 30).map (BitVec.ofNat 7)), 30, some 30⟩
    Res.assert (decide (e3 = none))
    let (m4, e5) ← (Sxb.ops .fixed).tryInsert m2 ⟨((List.range 20).map (BitVec.ofNat 7)), 20, some 20⟩ 0
    Res.assert (decide (e5 = none))
    let it6 ← Sxb.payload m4
    let x7 ← Sxb.collect (it6.data.length + 1) it6
    Res.assert (decide (x7 = ([0x0, 0x1, 0x2, 0x3, 0x4, 0x5, 0x6, 0x7, 0x8, 0x9, 0xA, 0xB, 0xC, 0xD, 0xE, 0xF, 0x10, 0x11, 0x12, 0x13, 0x0, 0x1, 0x2, 0x3, 0x4, 0x5, 0x6, 0x7, 0x8, 0x9, 0xA, 0xB, 0xC, 0xD, 0xE, 0xF, 0x10, 0x11, 0x12, 0x13, 0x14, 0x15, 0x16, 0x17, 0x18, 0x19, 0x1A, 0x1B, 0x1C, 0x1D] : List (BitVec 7))))
    pure () : Res Unit) = .ok () := by decide +kernel

-- sysex7.rs:2310 insert_payload_back_fixed_size_buffer_ump
example : (do
    let m1 ← Sx.s7.newArray 18
    let (m2, e3) ← (Sx.s7.ops true .fixed).trySetPayload m1 ⟨((List.range 30).map (BitVec.ofNat 7)), 30, some 30⟩
    Res.assert (decide (e3 = none))
    let (m4, e5) ← (Sx.s7.ops true .fixed).tryInsert m2 ⟨((List.range 20).map (BitVec.ofNat 7)), 20, some 20⟩ 30
    Res.assert (decide (e5 = none))
    let it6 ← Sx.s7.payload m4
    let x7 ← Sx.s7.collect m4 (it6.cache + 1) it6
    Res.assert (decide (x7 = ([0x0, 0x1, 0x2, 0x3, 0x4, 0x5, 0x6, 0x7, 0x8, 0x9, 0xA, 0xB, 0xC, 0xD, 0xE, 0xF, 0x10, 0x11, 0x12, 0x13, 0x14, 0x15, 0x16, 0x17, 0x18, 0x19, 0x1A, 0x1B, 0x1C, 0x1D, 0x0, 0x1, 0x2, 0x3, 0x4, 0x5, 0x6, 0x7, 0x8, 0x9, 0xA, 0xB, 0xC, 0xD, 0xE, 0xF, 0x10, 0x11, 0x12, 0x13] : List (BitVec 7))))
    pure () : Res Unit) = .ok () := by decide +kernel

-- sysex7.rs:2315 insert_payload_back_fixed_size_buffer_bytes
example : (do
    let m1 ← Sxb.newArray 52
    let (m2, e3) ← (Sxb.ops .fixed).trySetPayload m1 ⟨((List.range 30).map (BitVec.ofNat 7)), 30, some 30⟩
    Res.assert (decide (e3 = none))
    let (m4, e5) ← (Sxb.ops .fixed).tryInsert m2 ⟨((List.range 20).map (BitVec.ofNat 7)), 20, some 20⟩ 30
    Res.assert (decide (e5 = none))
    let it6 ← Sxb.payload m4
    let x7 ← Sxb.collect (it6.data.length + 1) it6
    Res.assert (decide (x7 = ([0x0, 0x1, 0x2, 0x3, 0x4, 0x5, 0x6, 0x7, 0x8, 0x9, 0xA, 0xB, 0xC, 0xD, 0xE, 0xF, 0x10, 0x11, 0x12, 0x13, 0x14, 0x15, 0x16, 0x17, 0x18, 0x19, 0x1A, 0x1B, 0x1C, 0x1D, 0x0, 0x1, 0x2, 0x3, 0x4, 0x5, 0x6, 0x7, 0x8, 0x9, 0xA, 0xB, 0xC, 0xD, 0xE, 0xF, 0x10, 0x11, 0x12, 0x13] : List (BitVec 7))))
    pure () : Res Unit) = .ok () := by decide +kernel

-- sysex7.rs:2341 insert_payload_middle_fixed_size_buffer_ump
example : (do
    let m1 ← Sx.s7.newArray 18
    let (m2, e3) ← (Sx.s7.ops true .fixed).trySetPayload m1 ⟨((List.range 30).map (BitVec.ofNat 7)), 30, some 30⟩
    Res.assert (decide (e3 = none))
    let (m4, e5) ← (Sx.s7.ops true .fixed).tryInsert m2 ⟨((List.range 20).map (BitVec.ofNat 7)), 20, some 20⟩ 15
    Res.assert (decide (e5 = none))
    let it6 ← Sx.s7.payload m4
    let x7 ← Sx.s7.collect m4 (it6.cache + 1) it6
    Res.assert (decide (x7 = ([0x0, 0x1, 0x2, 0x3, 0x4, 0x5, 0x6, 0x7, 0x8, 0x9, 0xA, 0xB, 0xC, 0xD, 0xE, 0x0, 0x1, 0x2, 0x3, 0x4, 0x5, 0x6, 0x7, 0x8, 0x9, 0xA, 0xB, 0xC, 0xD, 0xE, 0xF, 0x10, 0x11, 0x12, 0x13, 0xF, 0x10, 0x11, 0x12, 0x13, 0x14, 0x15, 0x16, 0x17, 0x18, 0x19, 0x1A, 0x1B, 0x1C, 0x1D] : List (BitVec 7))))
    pure () : Res Unit) = .ok () := by decide +kernel

-- sysex7.rs:2346 insert_payload_middle_fixed_size_buffer_bytes
example : (do
    let m1 ← Sxb.newArray 52
    let (m2, e3) ← (Sxb.ops .fixed).trySetPayload m1 ⟨((List.range 30).map (BitVec.ofNat 7)), 30, some 30⟩
    Res.assert (decide (e3 = none))
    let (m4, e5) ← (Sxb.ops .fixed).tryInsert m2 ⟨((List.range 20).map (BitVec.ofNat 7)), 20, some 20⟩ 15
    Res.assert (decide (e5 = none))
    let it6 ← Sxb.payload m4
    let x7 ← Sxb.collect (it6.data.length + 1) it6
    Res.assert (decide (x7 = ([0x0, 0x1, 0x2, 0x3, 0x4, 0x5, 0x6, 0x7, 0x8, 0x9, 0xA, 0xB, 0xC, 0xD, 0xE, 0x0, 0x1, 0x2, 0x3, 0x4, 0x5, 0x6, 0x7, 0x8, 0x9, 0xA, 0xB, 0xC, 0xD, 0xE, 0xF, 0x10, 0x11, 0x12, 0x13, 0xF, 0x10, 0x11, 0x12, 0x13, 0x14, 0x15, 0x16, 0x17, 0x18, 0x19, 0x1A, 0x1B, 0x1C, 0x1D] : List (BitVec 7))))
    pure () : Res Unit) = .ok () := by decide +kernel

-- sysex7.rs:2360 insert_payload_fixed_size_buffer_fail_ump
example : (do
    let m1 ← Sx.s7.newArray 13
    let (m2, e3) ← (Sx.s7.ops true .fixed).trySetPayload m1 ⟨((List.range 20).map (BitVec.ofNat 7)), 20, some 20⟩
    Res.assert (decide (e3 = none))
    let (m4, e5) ← (Sx.s7.ops true .fixed).tryInsert m2 ⟨((List.range 20).map (BitVec.ofNat 7)), 20, some 20⟩ 15
    Res.assert (decide (e5 = (some .bufferOverflow)))
    pure () : Res Unit) = .ok () := by decide +kernel

-- sysex7.rs:2365 insert_payload_fixed_size_buffer_fail_bytes
example : (do
    let m1 ← Sxb.newArray 41
    let (m2, e3) ← (Sxb.ops .fixed).trySetPayload m1 ⟨((List.range 20).map (BitVec.ofNat 7)), 20, some 20⟩
    Res.assert (decide (e3 = none))
    let (m4, e5) ← (Sxb.ops .fixed).tryInsert m2 ⟨((List.range 20).map (BitVec.ofNat 7)), 20, some 20⟩ 15
    Res.assert (decide (e5 = (some .bufferOverflow)))
    pure () : Res Unit) = .ok () := by decide +kernel

-- sysex7.rs:2389 append_byte_ump
example : (do
    let m1 ← Sx.s7.newVec
    let m2 ← (Sx.s7.ops true .vec).setPayload m1 ⟨((List.range 20).map (BitVec.ofNat 7)), 20, some 20⟩
    let m3 ← (Sx.s7.ops true .vec).appendByte m2 (0x0 : BitVec 7)
    let m4 ← (Sx.s7.ops true .vec).appendByte m3 (0x1 : BitVec 7)
    let m5 ← (Sx.s7.ops true .vec).appendByte m4 (0x2 : BitVec 7)
    let m6 ← (Sx.s7.ops true .vec).appendByte m5 (0x3 : BitVec 7)
    let m7 ← (Sx.s7.ops true .vec).appendByte m6 (0x4 : BitVec 7)
    let m8 ← (Sx.s7.ops true .vec).appendByte m7 (0x5 : BitVec 7)
    let m9 ← (Sx.s7.ops true .vec).appendByte m8 (0x6 : BitVec 7)
    let m10 ← (Sx.s7.ops true .vec).appendByte m9 (0x7 : BitVec 7)
    let m11 ← (Sx.s7.ops true .vec).appendByte m10 (0x8 : BitVec 7)
    let m12 ← (Sx.s7.ops true .vec).appendByte m11 (0x9 : BitVec 7)
    let m13 ← (Sx.s7.ops true .vec).appendByte m12 (0xA : BitVec 7)
    let m14 ← (Sx.s7.ops true .vec).appendByte m13 (0xB : BitVec 7)
    let m15 ← (Sx.s7.ops true .vec).appendByte m14 (0xC : BitVec 7)
    let m16 ← (Sx.s7.ops true .vec).appendByte m15 (0xD : BitVec 7)
    let m17 ← (Sx.s7.ops true .vec).appendByte m16 (0xE : BitVec 7)
    let m18 ← (Sx.s7.ops true .vec).appendByte m17 (0xF : BitVec 7)
    let m19 ← (Sx.s7.ops true .vec).appendByte m18 (0x10 : BitVec 7)
    let m20 ← (Sx.s7.ops true .vec).appendByte m19 (0x11 : BitVec 7)
    let m21 ← (Sx.s7.ops true .vec).appendByte m20 (0x12 : BitVec 7)
    let m22 ← (Sx.s7.ops true .vec).appendByte m21 (0x13 : BitVec 7)
    let it23 ← Sx.s7.payload m22
    let x24 ← Sx.s7.collect m22 (it23.cache + 1) it23
    Res.assert (decide (x24 = ([0x0, 0x1, 0x2, 0x3, 0x4, 0x5, 0x6, 0x7, 0x8, 0x9, 0xA, 0xB, 0xC, 0xD, 0xE, 0xF, 0x10, 0x11, 0x12, 0x13, 0x0, 0x1, 0x2, 0x3, 0x4, 0x5, 0x6, 0x7, 0x8, 0x9, 0xA, 0xB, 0xC, 0xD, 0xE, 0xF, 0x10, 0x11, 0x12, 0x13] : List (BitVec 7))))
    pure () : Res Unit) = .ok () := by decide +kernel

-- sysex7.rs:2394 append_byte_bytes
example : (do
    let m1 ← Sxb.newVec
    let m2 ← (Sxb.ops .vec).setPayload m1 ⟨((List.range 20).map (BitVec.ofNat 7)), 20, some 20⟩
    let m3 ← (Sxb.ops .vec).appendByte m2 (0x0 : BitVec 7)
    let m4 ← (Sxb.ops .vec).appendByte m3 (0x1 : BitVec 7)
    let m5 ← (Sxb.ops .vec).appendByte m4 (0x2 : BitVec 7)
    let m6 ← (Sxb.ops .vec).appendByte m5 (0x3 : BitVec 7)
    let m7 ← (Sxb.ops .vec).appendByte m6 (0x4 : BitVec 7)
    let m8 ← (Sxb.ops .vec).appendByte m7 (0x5 : BitVec 7)
    let m9 ← (Sxb.ops .vec).appendByte m8 (0x6 : BitVec 7)
    let m10 ← (Sxb.ops .vec).appendByte m9 (0x7 : BitVec 7)
    let m11 ← (Sxb.ops .vec).appendByte m10 (0x8 : BitVec 7)
    let m12 ← (Sxb.ops .vec).appendByte m11 (0x9 : BitVec 7)
    let m13 ← (Sxb.ops .vec).appendByte m12 (0xA : BitVec 7)
    let m14 ← (Sxb.ops .vec).appendByte m13 (0xB : BitVec 7)
    let m15 ← (Sxb.ops .vec).appendByte m14 (0xC : BitVec 7)
    let m16 ← (Sxb.ops .vec).appendByte m15 (0xD : BitVec 7)
    let m17 ← (Sxb.ops .vec).appendByte m16 (0xE : BitVec 7)
    let m18 ← (Sxb.ops .vec).appendByte m17 (0xF : BitVec 7)
    let m19 ← (Sxb.ops .vec).appendByte m18 (0x10 : BitVec 7)
    let m20 ← (Sxb.ops .vec).appendByte m19 (0x11 : BitVec 7)
    let m21 ← (Sxb.ops .vec).appendByte m20 (0x12 : BitVec 7)
    let m22 ← (Sxb.ops .vec).appendByte m21 (0x13 : BitVec 7)
    let it23 ← Sxb.payload m22
    let x24 ← Sxb.collect (it23.data.length + 1) it23
    Res.assert (decide (x24 = ([0x0, 0x1, 0x2, 0x3, 0x4, 0x5, 0x6, 0x7, 0x8, 0x9, 0xA, 0xB, 0xC, 0xD, 0xE, 0xF, 0x10, 0x11, 0x12, 0x13, 0x0, 0x1, 0x2, 0x3, 0x4, 0x5, 0x6, 0x7, 0x8, 0x9, 0xA, 0xB, 0xC, 0xD, 0xE, 0xF, 0x10, 0x11, 0x12, 0x13] : List (BitVec 7))))
    pure () : Res Unit) = .ok () := by decide +kernel

-- sysex7.rs:2416 append_payload_ump
example : (do
    let m1 ← Sx.s7.newVec
    let m2 ← (Sx.s7.ops true .vec).setPayload m1 ⟨((List.range 20).map (BitVec.ofNat 7)), 20, some 20⟩
    let m3 ← (Sx.s7.ops true .vec).append m2 ⟨((List.range 20).map (BitVec.ofNat 7)), 20, some 20⟩
    let it4 ← Sx.s7.payload m3
    let x5 ← Sx.s7.collect m3 (it4.cache + 1) it4
    Res.assert (decide (x5 = ([0x0, 0x1, 0x2, 0x3, 0x4, 0x5, 0x6, 0x7, 0x8, 0x9, 0xA, 0xB, 0xC, 0xD, 0xE, 0xF, 0x10, 0x11, 0x12, 0x13, 0x0, 0x1, 0x2, 0x3, 0x4, 0x5, 0x6, 0x7, 0x8, 0x9, 0xA, 0xB, 0xC, 0xD, 0xE, 0xF, 0x10, 0x11, 0x12, 0x13] : List (BitVec 7))))
    pure () : Res Unit) = .ok () := by decide +kernel

-- sysex7.rs:2421 append_payload_bytes
example : (do
    let m1 ← Sxb.newVec
    let m2 ← (Sxb.ops .vec).setPayload m1 ⟨((List.range 20).map (BitVec.ofNat 7)), 20, some 20⟩
    let m3 ← (Sxb.ops .vec).append m2 ⟨((List.range 20).map (BitVec.ofNat 7)), 20, some 20⟩
    let it4 ← Sxb.payload m3
    let x5 ← Sxb.collect (it4.data.length + 1) it4
    Res.assert (decide (x5 = ([0x0, 0x1, 0x2, 0x3, 0x4, 0x5, 0x6, 0x7, 0x8, 0x9, 0xA, 0xB, 0xC, 0xD, 0xE, 0xF, 0x10, 0x11, 0x12, 0x13, 0x0, 0x1, 0x2, 0x3, 0x4, 0x5, 0x6, 0x7, 0x8, 0x9, 0xA, 0xB, 0xC, 0xD, 0xE, 0xF, 0x10, 0x11, 0x12, 0x13] : List (BitVec 7))))
    pure () : Res Unit) = .ok () := by decide +kernel

-- sysex7.rs:2444 splice_payload_ump
example : (do
    let m1 ← Sx.s7.newVec
    let m2 ← (Sx.s7.ops true .vec).setPayload m1 ⟨((List.range 20).map (BitVec.ofNat 7)), 20, some 20⟩
    let m3 ← (Sx.s7.ops true .vec).splice m2 ⟨(List.replicate 30 (0x7F : BitVec 7)), 30, some 30⟩ (.included 5) (.excluded 10)
    let it4 ← Sx.s7.payload m3
    let x5 ← Sx.s7.collect m3 (it4.cache + 1) it4
    Res.assert (decide (x5 = ([0x0, 0x1, 0x2, 0x3, 0x4, 0x7F, 0x7F, 0x7F, 0x7F, 0x7F, 0x7F, 0x7F, 0x7F, 0x7F, 0x7F, 0x7F, 0x7F, 0x7F, 0x7F, 0x7F, 0x7F, 0x7F, 0x7F, 0x7F, 0x7F, 0x7F, 0x7F, 0x7F, 0x7F, 0x7F, 0x7F, 0x7F, 0x7F, 0x7F, 0x7F, 0xA, 0xB, 0xC, 0xD, 0xE, 0xF, 0x10, 0x11, 0x12, 0x13] : List (BitVec 7))))
    pure () : Res Unit) = .ok () := by decide +kernel

-- sysex7.rs:2449 splice_payload_bytes
example : (do
    let m1 ← Sxb.newVec
    let m2 ← (Sxb.ops .vec).setPayload m1 ⟨((List.range 20).map (BitVec.ofNat 7)), 20, some 20⟩
    let m3 ← (Sxb.ops .vec).splice m2 ⟨(List.replicate 30 (0x7F : BitVec 7)), 30, some 30⟩ (.included 5) (.excluded 10)
    let it4 ← Sxb.payload m3
    let x5 ← Sxb.collect (it4.data.length + 1) it4
    Res.assert (decide (x5 = ([0x0, 0x1, 0x2, 0x3, 0x4, 0x7F, 0x7F, 0x7F, 0x7F, 0x7F, 0x7F, 0x7F, 0x7F, 0x7F, 0x7F, 0x7F, 0x7F, 0x7F, 0x7F, 0x7F, 0x7F, 0x7F, 0x7F, 0x7F, 0x7F, 0x7F, 0x7F, 0x7F, 0x7F, 0x7F, 0x7F, 0x7F, 0x7F, 0x7F, 0x7F, 0xA, 0xB, 0xC, 0xD, 0xE, 0xF, 0x10, 0x11, 0x12, 0x13] : List (BitVec 7))))
    pure () : Res Unit) = .ok () := by decide +kernel

-- sysex7.rs:2473 splice_rubbish_payload_ump
example : (do
    let m1 ← Sx.s7.newVec
    let m2 ← (Sx.s7.ops true .vec).setPayload m1 ⟨((List.range 20).map (BitVec.ofNat 7)), 20, some 20⟩
    let m3 ← (Sx.s7.ops true .vec).splice m2 ⟨((List.range 50).map (BitVec.ofNat 7)), 0, none⟩ (.included 7) (.excluded 16)
    let it4 ← Sx.s7.payload m3
    let x5 ← Sx.s7.collect m3 (it4.cache + 1) it4
    Res.assert (decide (x5 = ([0x0, 0x1, 0x2, 0x3, 0x4, 0x5, 0x6, 0x0, 0x1, 0x2, 0x3, 0x4, 0x5, 0x6, 0x7, 0x8, 0x9, 0xA, 0xB, 0xC, 0xD, 0xE, 0xF, 0x10, 0x11, 0x12, 0x13, 0x14, 0x15, 0x16, 0x17, 0x18, 0x19, 0x1A, 0x1B, 0x1C, 0x1D, 0x1E, 0x1F, 0x20, 0x21, 0x22, 0x23, 0x24, 0x25, 0x26, 0x27, 0x28, 0x29, 0x2A, 0x2B, 0x2C, 0x2D, 0x2E, 0x2F, 0x30, 0x31, 0x10, 0x11, 0x12, 0x13] : List (BitVec 7))))
    pure () : Res Unit) = .ok () := by decide +kernel

-- sysex7.rs:2478 splice_rubbish_payload_bytes
example : (do
    let m1 ← Sxb.newVec
    let m2 ← (Sxb.ops .vec).setPayload m1 ⟨((List.range 20).map (BitVec.ofNat 7)), 20, some 20⟩
    let m3 ← (Sxb.ops .vec).splice m2 ⟨((List.range 50).map (BitVec.ofNat 7)), 0, none⟩ (.included 7) (.excluded 16)
    let it4 ← Sxb.payload m3
    let x5 ← Sxb.collect (it4.data.length + 1) it4
    Res.assert (decide (x5 = ([0x0, 0x1, 0x2, 0x3, 0x4, 0x5, 0x6, 0x0, 0x1, 0x2, 0x3, 0x4, 0x5, 0x6, 0x7, 0x8, 0x9, 0xA, 0xB, 0xC, 0xD, 0xE, 0xF, 0x10, 0x11, 0x12, 0x13, 0x14, 0x15, 0x16, 0x17, 0x18, 0x19, 0x1A, 0x1B, 0x1C, 0x1D, 0x1E, 0x1F, 0x20, 0x21, 0x22, 0x23, 0x24, 0x25, 0x26, 0x27, 0x28, 0x29, 0x2A, 0x2B, 0x2C, 0x2D, 0x2E, 0x2F, 0x30, 0x31, 0x10, 0x11, 0x12, 0x13] : List (BitVec 7))))
    pure () : Res Unit) = .ok () := by decide +kernel

-- sysex7.rs:2503 splice_rubbish_payload_front_ump
example : (do
    let m1 ← Sx.s7.newVec
    let m2 ← (Sx.s7.ops true .vec).setPayload m1 ⟨((List.range 20).map (BitVec.ofNat 7)), 20, some 20⟩
    let m3 ← (Sx.s7.ops true .vec).splice m2 ⟨((List.range 50).map (BitVec.ofNat 7)), 0, none⟩ (.included 0) (.excluded 2)
    let it4 ← Sx.s7.payload m3
    let x5 ← Sx.s7.collect m3 (it4.cache + 1) it4
    Res.assert (decide (x5 = ([0x0, 0x1, 0x2, 0x3, 0x4, 0x5, 0x6, 0x7, 0x8, 0x9, 0xA, 0xB, 0xC, 0xD, 0xE, 0xF, 0x10, 0x11, 0x12, 0x13, 0x14, 0x15, 0x16, 0x17, 0x18, 0x19, 0x1A, 0x1B, 0x1C, 0x1D, 0x1E, 0x1F, 0x20, 0x21, 0x22, 0x23, 0x24, 0x25, 0x26, 0x27, 0x28, 0x29, 0x2A, 0x2B, 0x2C, 0x2D, 0x2E, 0x2F, 0x30, 0x31, 0x2, 0x3, 0x4, 0x5, 0x6, 0x7, 0x8, 0x9, 0xA, 0xB, 0xC, 0xD, 0xE, 0xF, 0x10, 0x11, 0x12, 0x13] : List (BitVec 7))))
    pure () : Res Unit) = .ok () := by decide +kernel

-- sysex7.rs:2508 splice_rubbish_payload_front_bytes
example : (do
    let m1 ← Sxb.newVec
    let m2 ← (Sxb.ops .vec).setPayload m1 ⟨((List.range 20).map (BitVec.ofNat 7)), 20, some 20⟩
    let m3 ← (Sxb.ops .vec).splice m2 ⟨((List.range 50).map (BitVec.ofNat 7)), 0, none⟩ (.included 0) (.excluded 2)
    let it4 ← Sxb.payload m3
    let x5 ← Sxb.collect (it4.data.length + 1) it4
    Res.assert (decide (x5 = ([0x0, 0x1, 0x2, 0x3, 0x4, 0x5, 0x6, 0x7, 0x8, 0x9, 0xA, 0xB, 0xC, 0xD, 0xE, 0xF, 0x10, 0x11, 0x12, 0x13, 0x14, 0x15, 0x16, 0x17, 0x18, 0x19, 0x1A, 0x1B, 0x1C, 0x1D, 0x1E, 0x1F, 0x20, 0x21, 0x22, 0x23, 0x24, 0x25, 0x26, 0x27, 0x28, 0x29, 0x2A, 0x2B, 0x2C, 0x2D, 0x2E, 0x2F, 0x30, 0x31, 0x2, 0x3, 0x4, 0x5, 0x6, 0x7, 0x8, 0x9, 0xA, 0xB, 0xC, 0xD, 0xE, 0xF, 0x10, 0x11, 0x12, 0x13] : List (BitVec 7))))
    pure () : Res Unit) = .ok () := by decide +kernel

-- sysex7.rs:2533 splice_rubbish_payload_end_ump
example : (do
    let m1 ← Sx.s7.newVec
    let m2 ← (Sx.s7.ops true .vec).setPayload m1 ⟨((List.range 20).map (BitVec.ofNat 7)), 20, some 20⟩
    let m3 ← (Sx.s7.ops true .vec).splice m2 ⟨((List.range 50).map (BitVec.ofNat 7)), 0, none⟩ (.included 19) (.excluded 20)
    let it4 ← Sx.s7.payload m3
    let x5 ← Sx.s7.collect m3 (it4.cache + 1) it4
    Res.assert (decide (x5 = ([0x0, 0x1, 0x2, 0x3, 0x4, 0x5, 0x6, 0x7, 0x8, 0x9, 0xA, 0xB, 0xC, 0xD, 0xE, 0xF, 0x10, 0x11, 0x12, 0x0, 0x1, 0x2, 0x3, 0x4, 0x5, 0x6, 0x7, 0x8, 0x9, 0xA, 0xB, 0xC, 0xD, 0xE, 0xF, 0x10, 0x11, 0x12, 0x13, 0x14, 0x15, 0x16, 0x17, 0x18, 0x19, 0x1A, 0x1B, 0x1C, 0x1D, 0x1E, 0x1F, 0x20, 0x21, 0x22, 0x23, 0x24, 0x25, 0x26, 0x27, 0x28, 0x29, 0x2A, 0x2B, 0x2C, 0x2D, 0x2E, 0x2F, 0x30, 0x31] : List (BitVec 7))))
    pure () : Res Unit) = .ok () := by decide +kernel

-- sysex7.rs:2538 splice_rubbish_payload_end_bytes
example : (do
    let m1 ← Sxb.newVec
    let m2 ← (Sxb.ops .vec).setPayload m1 ⟨((List.range 20).map (BitVec.ofNat 7)), 20, some 20⟩
    let m3 ← (Sxb.ops .vec).splice m2 ⟨((List.range 50).map (BitVec.ofNat 7)), 0, none⟩ (.included 19) (.excluded 20)
    let it4 ← Sxb.payload m3
    let x5 ← Sxb.collect (it4.data.length + 1) it4
    Res.assert (decide (x5 = ([0x0, 0x1, 0x2, 0x3, 0x4, 0x5, 0x6, 0x7, 0x8, 0x9, 0xA, 0xB, 0xC, 0xD, 0xE, 0xF, 0x10, 0x11, 0x12, 0x0, 0x1, 0x2, 0x3, 0x4, 0x5, 0x6, 0x7, 0x8, 0x9, 0xA, 0xB, 0xC, 0xD, 0xE, 0xF, 0x10, 0x11, 0x12, 0x13, 0x14, 0x15, 0x16, 0x17, 0x18, 0x19, 0x1A, 0x1B, 0x1C, 0x1D, 0x1E, 0x1F, 0x20, 0x21, 0x22, 0x23, 0x24, 0x25, 0x26, 0x27, 0x28, 0x29, 0x2A, 0x2B, 0x2C, 0x2D, 0x2E, 0x2F, 0x30, 0x31] : List (BitVec 7))))
    pure () : Res Unit) = .ok () := by decide +kernel

-- sysex7/packet.rs:163 construction
example : (do
    let x1 ← (PacketKind.tryFrom .sysex7 ([0x30000000, 0x0] : List (BitVec 32))).unwrap
    Res.assert (decide (x1 = ([0x30000000, 0x0] : List (BitVec 32))))
    pure () : Res Unit) = .ok () := by decide +kernel

-- sysex7/packet.rs:171 construction_long_slice
example : (do
    let x1 ← (PacketKind.tryFrom .sysex7 ([0x30000000, 0x0, 0x0, 0x0] : List (BitVec 32))).unwrap
    Res.assert (decide (x1 = ([0x30000000, 0x0] : List (BitVec 32))))
    pure () : Res Unit) = .ok () := by decide +kernel

-- sysex7/packet.rs:179 construction_short_slice
example : (do
    Res.assert (decide ((PacketKind.tryFrom .sysex7 ([0x30000000] : List (BitVec 32))) = (.err .invalidData)))
    pure () : Res Unit) = .ok () := by decide +kernel

-- sysex7/packet.rs:189 construction_wrong_ump_type
example : (do
    Res.assert (decide ((PacketKind.tryFrom .sysex7 ([0x0, 0x0] : List (BitVec 32))) = (.err .invalidData)))
    pure () : Res Unit) = .ok () := by decide +kernel

-- sysex7/packet.rs:199 construction_invalid_payload_size
example : (do
    Res.assert (decide ((PacketKind.tryFrom .sysex7 ([0x30070000, 0x0, 0x0, 0x0] : List (BitVec 32))) = (.err .invalidData)))
    pure () : Res Unit) = .ok () := by decide +kernel

-- sysex7/packet.rs:207 construction_complete
example : (do
    let x1 ← (PacketKind.tryFrom .sysex7 ([0x30000000, 0x0] : List (BitVec 32))).unwrap
    let x2 ← Packet.sysexStatus .s7 x1
    Res.assert (decide (x2 = PacketStatus.complete))
    pure () : Res Unit) = .ok () := by decide +kernel

-- sysex7/packet.rs:217 construction_start
example : (do
    let x1 ← (PacketKind.tryFrom .sysex7 ([0x30100000, 0x0] : List (BitVec 32))).unwrap
    let x2 ← Packet.sysexStatus .s7 x1
    Res.assert (decide (x2 = PacketStatus.start))
    pure () : Res Unit) = .ok () := by decide +kernel

-- sysex7/packet.rs:227 construction_continue
example : (do
    let x1 ← (PacketKind.tryFrom .sysex7 ([0x30200000, 0x0] : List (BitVec 32))).unwrap
    let x2 ← Packet.sysexStatus .s7 x1
    Res.assert (decide (x2 = PacketStatus.continue_))
    pure () : Res Unit) = .ok () := by decide +kernel

-- sysex7/packet.rs:237 construction_end
example : (do
    let x1 ← (PacketKind.tryFrom .sysex7 ([0x30300000, 0x0] : List (BitVec 32))).unwrap
    let x2 ← Packet.sysexStatus .s7 x1
    Res.assert (decide (x2 = PacketStatus.end_))
    pure () : Res Unit) = .ok () := by decide +kernel

-- sysex7/packet.rs:247 payload_empty
example : (do
    let x1 ← (PacketKind.tryFrom .sysex7 ([0x30000000, 0x0] : List (BitVec 32))).unwrap
    let x2 ← Packet.collect true .s7 x1 20 0
    Res.assert (decide (x2 = ([] : List (BitVec 7))))
    pure () : Res Unit) = .ok () := by decide +kernel

-- sysex7/packet.rs:258 payload_one_item
example : (do
    let x1 ← (PacketKind.tryFrom .sysex7 ([0x30017F00, 0x0] : List (BitVec 32))).unwrap
    let x2 ← Packet.collect true .s7 x1 20 0
    Res.assert (decide (x2 = ([0x7F] : List (BitVec 7))))
    pure () : Res Unit) = .ok () := by decide +kernel

-- sysex7/packet.rs:269 payload_two_items
example : (do
    let x1 ← (PacketKind.tryFrom .sysex7 ([0x30020102, 0x0] : List (BitVec 32))).unwrap
    let x2 ← Packet.collect true .s7 x1 20 0
    Res.assert (decide (x2 = ([0x1, 0x2] : List (BitVec 7))))
    pure () : Res Unit) = .ok () := by decide +kernel

-- sysex7/packet.rs:280 payload_full_payload
example : (do
    let x1 ← (PacketKind.tryFrom .sysex7 ([0x30060102, 0x3040506] : List (BitVec 32))).unwrap
    let x2 ← Packet.collect true .s7 x1 20 0
    Res.assert (decide (x2 = ([0x1, 0x2, 0x3, 0x4, 0x5, 0x6] : List (BitVec 7))))
    pure () : Res Unit) = .ok () := by decide +kernel

-- sysex7/packet.rs:299 payload_nth_0
example : (do
    let x1 ← (PacketKind.tryFrom .sysex7 ([0x30060102, 0x3040506] : List (BitVec 32))).unwrap
    let (x2, i3) ← Packet.nth true .s7 x1 0 0
    Res.assert (decide (x2 = (some (0x1 : BitVec 7))))
    pure () : Res Unit) = .ok () := by decide +kernel

-- sysex7/packet.rs:310 payload_nth_1
example : (do
    let x1 ← (PacketKind.tryFrom .sysex7 ([0x30060102, 0x3040506] : List (BitVec 32))).unwrap
    let (x2, i3) ← Packet.nth true .s7 x1 1 0
    Res.assert (decide (x2 = (some (0x2 : BitVec 7))))
    pure () : Res Unit) = .ok () := by decide +kernel

-- sysex7/packet.rs:321 payload_nth_5
example : (do
    let x1 ← (PacketKind.tryFrom .sysex7 ([0x30060102, 0x3040506] : List (BitVec 32))).unwrap
    let (x2, i3) ← Packet.nth true .s7 x1 5 0
    Res.assert (decide (x2 = (some (0x6 : BitVec 7))))
    pure () : Res Unit) = .ok () := by decide +kernel

-- sysex7/packet.rs:332 payload_nth_6
example : (do
    let x1 ← (PacketKind.tryFrom .sysex7 ([0x30060102, 0x3040506] : List (BitVec 32))).unwrap
    let (x2, i3) ← Packet.nth true .s7 x1 6 0
    Res.assert (decide (x2 = none))
    pure () : Res Unit) = .ok () := by decide +kernel

-- sysex7/packet.rs:343 payload_nth_6_followed_by_next_should_return_none
example : (do
    let x1 ← (PacketKind.tryFrom .sysex7 ([0x30060102, 0x3040506] : List (BitVec 32))).unwrap
    let (x2, i3) ← Packet.nth true .s7 x1 6 0
    Res.assert (decide (x2 = none))
    let (x4, i5) ← Packet.next true .s7 x1 i3
    Res.assert (decide (x4 = none))
    pure () : Res Unit) = .ok () := by decide +kernel

-- sysex7/packet.rs:352 payload_call_next_and_the_iterator_length_should_be_one_fewer
example : (do
    let x1 ← (PacketKind.tryFrom .sysex7 ([0x30060102, 0x3040506] : List (BitVec 32))).unwrap
    let x2 ← Packet.len true .s7 x1 0
    Res.assert (decide (x2 = 6))
    let (x3, i4) ← Packet.next true .s7 x1 0
    let x5 ← Packet.len true .s7 x1 i4
    Res.assert (decide (x5 = 5))
    pure () : Res Unit) = .ok () := by decide +kernel

-- sysex7/packet.rs:362 payload_exhaustive_nth_should_leave_iter_length_0
example : (do
    let x1 ← (PacketKind.tryFrom .sysex7 ([0x30060102, 0x3040506] : List (BitVec 32))).unwrap
    let x2 ← Packet.len true .s7 x1 0
    Res.assert (decide (x2 = 6))
    let (x3, i4) ← Packet.nth true .s7 x1 6 0
    let x5 ← Packet.len true .s7 x1 i4
    Res.assert (decide (x5 = 0))
    pure () : Res Unit) = .ok () := by decide +kernel

-- sysex7/packet.rs:372 payload_over_exhaustive_nth_should_leave_iter_length_0
example : (do
    let x1 ← (PacketKind.tryFrom .sysex7 ([0x30060102, 0x3040506] : List (BitVec 32))).unwrap
    let x2 ← Packet.len true .s7 x1 0
    Res.assert (decide (x2 = 6))
    let (x3, i4) ← Packet.nth true .s7 x1 7 0
    let x5 ← Packet.len true .s7 x1 i4
    Res.assert (decide (x5 = 0))
    pure () : Res Unit) = .ok () := by decide +kernel

-- sysex7/packet.rs:382 payload_nth_should_leave_iter_with_n_fewer_length
example : (do
    let x1 ← (PacketKind.tryFrom .sysex7 ([0x30060102, 0x3040506] : List (BitVec 32))).unwrap
    let x2 ← Packet.len true .s7 x1 0
    Res.assert (decide (x2 = 6))
    let (x3, i4) ← Packet.nth true .s7 x1 2 0
    let x5 ← Packet.len true .s7 x1 i4
    Res.assert (decide (x5 = 3))
    pure () : Res Unit) = .ok () := by decide +kernel

end Midi2.Replay
