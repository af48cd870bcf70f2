import Verif.Check.Replay

/-!
# Replay of the unit tests of sysex8

Generated by /verif/replay from the Rust source; see `Verif.Check.Replay`.  These are
87 tests over literals, not proofs.
-/

set_option linter.unusedVariables false

namespace Midi2.Replay

-- sysex8.rs:654 new
example : (do
    let m1 ← Sx.s8.newVec
    Res.assert (decide (m1 = ([0x50010000, 0x0, 0x0, 0x0] : List (BitVec 32))))
    pure () : Res Unit) = .ok () := by decide +kernel

-- sysex8.rs:662 try_new_with_buffer
example : (do
    let x1 ← (Sx.s8.tryNewWithBuffer (List.replicate 16 (0x0 : BitVec 32))).unwrap
    let x2 ← Sx.s8.data x1
    Res.assert (decide (x2 = ([0x50010000, 0x0, 0x0, 0x0] : List (BitVec 32))))
    pure () : Res Unit) = .ok () := by decide +kernel

-- sysex8.rs:672 try_new_with_buffer_undersized_buffer
example : (do
    Res.assert (decide ((Sx.s8.tryNewWithBuffer ([0x0, 0x0] : List (BitVec 32))) = (.err .bufferOverflow)))
    pure () : Res Unit) = .ok () := by decide +kernel

-- sysex8.rs:679 try_new_with_buffer_write_payload
example : (do
    let x1 ← (Sx.s8.tryNewWithBuffer (List.replicate 16 (0x0 : BitVec 32))).unwrap
    let (m2, e3) ← (Sx.s8.ops true .fixed).trySetPayload x1 ⟨((List.range 10).map (BitVec.ofNat 8)), 10, some 10⟩
    Res.assert (decide (e3 = none))
    let x4 ← Sx.s8.data m2
    Res.assert (decide (x4 = ([0x500B0000, 0x1020304, 0x5060708, 0x9000000] : List (BitVec 32))))
    pure () : Res Unit) = .ok () := by decide +kernel

-- sysex8.rs:690 new_with_buffer_buffer_is_zeroed
example : (do
    let m1 ← (Sx.s8.newWithBuffer ([0x0, 0x1, 0x2, 0x3] : List (BitVec 32)))
    Res.assert (decide (m1 = ([0x50010000, 0x0, 0x0, 0x0] : List (BitVec 32))))
    pure () : Res Unit) = .ok () := by decide +kernel

-- sysex8.rs:697 new_set_group
example : (do
    let m1 ← Sx.s8.newVec
    Res.assert (decide ((Sx.s8.setGroup m1 (0xC : BitVec 4)) = ([0x5C010000, 0x0, 0x0, 0x0] : List (BitVec 32))))
    pure () : Res Unit) = .ok () := by decide +kernel

-- sysex8.rs:707 try_from_slice
example : (do
    Res.assert (decide ((Sx.s8.tryFrom ([0x541EBB00, 0x1020304, 0x5060708, 0x90A0B0C, 0x542EBB0D, 0xE0F1011, 0x12131415, 0x16171819, 0x542EBB1A, 0x1B1C1D1E, 0x1F202122, 0x23242526, 0x543CBB27, 0x28292A2B, 0x2C2D2E2F, 0x30310000] : List (BitVec 32))) = (.ok ([0x541EBB00, 0x1020304, 0x5060708, 0x90A0B0C, 0x542EBB0D, 0xE0F1011, 0x12131415, 0x16171819, 0x542EBB1A, 0x1B1C1D1E, 0x1F202122, 0x23242526, 0x543CBB27, 0x28292A2B, 0x2C2D2E2F, 0x30310000] : List (BitVec 32)))))
    pure () : Res Unit) = .ok () := by decide +kernel

-- sysex8.rs:753 try_from_slice_invalid_packet_size
example : (do
    Res.assert (decide ((Sx.s8.tryFrom ([0x541EBB00, 0x1020304, 0x5060708, 0x90A0B0C, 0x542FBB0D, 0xE0F1011, 0x12131415, 0x16171819, 0x542EBB1A, 0x1B1C1D1E, 0x1F202122, 0x23242526, 0x543CBB27, 0x28292A2B, 0x2C2D2E2F, 0x30310000] : List (BitVec 32))) = (.err .invalidData)))
    pure () : Res Unit) = .ok () := by decide +kernel

-- sysex8.rs:782 try_from_slice_inconsistent_groups
example : (do
    Res.assert (decide ((Sx.s8.tryFrom ([0x541EBB00, 0x1020304, 0x5060708, 0x90A0B0C, 0x512EBB0D, 0xE0F1011, 0x12131415, 0x16171819, 0x542EBB1A, 0x1B1C1D1E, 0x1F202122, 0x23242526, 0x543CBB27, 0x28292A2B, 0x2C2D2E2F, 0x30310000] : List (BitVec 32))) = (.err .invalidData)))
    pure () : Res Unit) = .ok () := by decide +kernel

-- sysex8.rs:811 try_from_slice_inconsistent_stream_id
example : (do
    Res.assert (decide ((Sx.s8.tryFrom ([0x541EBB00, 0x1020304, 0x5060708, 0x90A0B0C, 0x542ECC0D, 0xE0F1011, 0x12131415, 0x16171819, 0x542EBB1A, 0x1B1C1D1E, 0x1F202122, 0x23242526, 0x543CBB27, 0x28292A2B, 0x2C2D2E2F, 0x30310000] : List (BitVec 32))) = (.err .invalidData)))
    pure () : Res Unit) = .ok () := by decide +kernel

-- sysex8.rs:838 try_from_slice_expected_start
example : (do
    Res.assert (decide ((Sx.s8.tryFrom ([0x540EBB00, 0x1020304, 0x5060708, 0x90A0B0C, 0x542EBB0D, 0xE0F1011, 0x12131415, 0x16171819, 0x542EBB1A, 0x1B1C1D1E, 0x1F202122, 0x23242526, 0x543CBB27, 0x28292A2B, 0x2C2D2E2F, 0x30310000] : List (BitVec 32))) = (.err .invalidData)))
    pure () : Res Unit) = .ok () := by decide +kernel

-- sysex8.rs:867 try_from_slice_expected_continue
example : (do
    Res.assert (decide ((Sx.s8.tryFrom ([0x541EBB00, 0x1020304, 0x5060708, 0x90A0B0C, 0x541EBB0D, 0xE0F1011, 0x12131415, 0x16171819, 0x542EBB1A, 0x1B1C1D1E, 0x1F202122, 0x23242526, 0x543CBB27, 0x28292A2B, 0x2C2D2E2F, 0x30310000] : List (BitVec 32))) = (.err .invalidData)))
    pure () : Res Unit) = .ok () := by decide +kernel

-- sysex8.rs:896 try_from_slice_expected_end
example : (do
    Res.assert (decide ((Sx.s8.tryFrom ([0x541EBB00, 0x1020304, 0x5060708, 0x90A0B0C, 0x542EBB0D, 0xE0F1011, 0x12131415, 0x16171819, 0x542EBB1A, 0x1B1C1D1E, 0x1F202122, 0x23242526, 0x542CBB27, 0x28292A2B, 0x2C2D2E2F, 0x30310000] : List (BitVec 32))) = (.err .invalidData)))
    pure () : Res Unit) = .ok () := by decide +kernel

-- sysex8.rs:925 try_from_slice_expected_complete
example : (do
    Res.assert (decide ((Sx.s8.tryFrom ([0x541CBB00, 0x1020304, 0x5060708, 0x90A0B00] : List (BitVec 32))) = (.err .invalidData)))
    pure () : Res Unit) = .ok () := by decide +kernel

-- sysex8.rs:935 group
example : (do
    let x1 ← (Sx.s8.tryFrom ([0x541EBB00, 0x1020304, 0x5060708, 0x90A0B0C, 0x542EBB0D, 0xE0F1011, 0x12131415, 0x16171819, 0x542EBB1A, 0x1B1C1D1E, 0x1F202122, 0x23242526, 0x543CBB27, 0x28292A2B, 0x2C2D2E2F, 0x30310000] : List (BitVec 32))).unwrap
    let x2 ← Sx.group x1
    Res.assert (decide (x2 = (0x4 : BitVec 4)))
    pure () : Res Unit) = .ok () := by decide +kernel

-- sysex8.rs:966 stream_id
example : (do
    let x1 ← (Sx.s8.tryFrom ([0x541EBB00, 0x1020304, 0x5060708, 0x90A0B0C, 0x542EBB0D, 0xE0F1011, 0x12131415, 0x16171819, 0x542EBB1A, 0x1B1C1D1E, 0x1F202122, 0x23242526, 0x543CBB27, 0x28292A2B, 0x2C2D2E2F, 0x30310000] : List (BitVec 32))).unwrap
    let x2 ← Sx.streamId x1
    Res.assert (decide (x2 = (0xBB : BitVec 8)))
    pure () : Res Unit) = .ok () := by decide +kernel

-- sysex8.rs:995 payload
example : (do
    let x1 ← (Sx.s8.tryFrom ([0x541EBB00, 0x1020304, 0x5060708, 0x90A0B0C, 0x542EBB0D, 0xE0F1011, 0x12131415, 0x16171819, 0x542EBB1A, 0x1B1C1D1E, 0x1F202122, 0x23242526, 0x543CBB27, 0x28292A2B, 0x2C2D2E2F, 0x30310000] : List (BitVec 32))).unwrap
    let it2 ← Sx.s8.payload x1
    let x3 ← Sx.s8.collect x1 (it2.cache + 1) it2
    Res.assert (decide (x3 = ((List.range 50).map (BitVec.ofNat 8))))
    pure () : Res Unit) = .ok () := by decide +kernel

-- sysex8.rs:1030 payload_nth
example : (do
    let x1 ← (Sx.s8.tryFrom ([0x541EBB00, 0x1020304, 0x5060708, 0x90A0B0C, 0x542EBB0D, 0xE0F1011, 0x12131415, 0x16171819, 0x542EBB1A, 0x1B1C1D1E, 0x1F202122, 0x23242526, 0x543CBB27, 0x28292A2B, 0x2C2D2E2F, 0x30310000] : List (BitVec 32))).unwrap
    let it2 ← Sx.s8.payload x1
    Res.assert (decide ((Sx.len it2) = 50))
    let (x3, i4) ← Sx.s8.nth x1 13 it2
    Res.assert (decide (x3 = (some (0xD : BitVec 8))))
    Res.assert (decide ((Sx.len i4) = 36))
    let (x5, i6) ← Sx.s8.nth x1 11 i4
    Res.assert (decide (x5 = (some (0x19 : BitVec 8))))
    Res.assert (decide ((Sx.len i6) = 24))
    let (x7, i8) ← Sx.s8.nth x1 11 i6
    Res.assert (decide (x7 = (some (0x25 : BitVec 8))))
    Res.assert (decide ((Sx.len i8) = 12))
    let (x9, i10) ← Sx.s8.nth x1 4 i8
    Res.assert (decide (x9 = (some (0x2A : BitVec 8))))
    Res.assert (decide ((Sx.len i10) = 7))
    let (x11, i12) ← Sx.s8.nth x1 5 i10
    Res.assert (decide (x11 = (some (0x30 : BitVec 8))))
    Res.assert (decide ((Sx.len i12) = 1))
    let (x13, i14) ← Sx.s8.next x1 i12
    Res.assert (decide (x13 = (some (0x31 : BitVec 8))))
    Res.assert (decide ((Sx.len i14) = 0))
    let (x15, i16) ← Sx.s8.next x1 i14
    Res.assert (decide (x15 = none))
    pure () : Res Unit) = .ok () := by decide +kernel

-- sysex8.rs:1070 payload_nth_non_contiguous_payload
example : (do
    let x1 ← (Sx.s8.tryFrom ([0x5411BB00, 0x0, 0x0, 0x0, 0x5422BB00, 0x0, 0x0, 0x0, 0x5423BB01, 0x2000000, 0x0, 0x0, 0x5421BB00, 0x0, 0x0, 0x0, 0x5421BB00, 0x0, 0x0, 0x0, 0x5424BB03, 0x4050000, 0x0, 0x0, 0x5425BB06, 0x7080900, 0x0, 0x0, 0x5426BB0A, 0xB0C0D0E, 0x0, 0x0, 0x5427BB0F, 0x10111213, 0x14000000, 0x0, 0x5428BB15, 0x16171819, 0x1A1B0000, 0x0, 0x5429BB1C, 0x1D1E1F20, 0x21222300, 0x0, 0x542ABB24, 0x25262728, 0x292A2B2C, 0x0, 0x5436BB2D, 0x2E2F3031, 0x0, 0x0] : List (BitVec 32))).unwrap
    let it2 ← Sx.s8.payload x1
    Res.assert (decide ((Sx.len it2) = 50))
    let (x3, i4) ← Sx.s8.nth x1 13 it2
    Res.assert (decide (x3 = (some (0xD : BitVec 8))))
    Res.assert (decide ((Sx.len i4) = 36))
    let (x5, i6) ← Sx.s8.nth x1 11 i4
    Res.assert (decide (x5 = (some (0x19 : BitVec 8))))
    Res.assert (decide ((Sx.len i6) = 24))
    let (x7, i8) ← Sx.s8.nth x1 11 i6
    Res.assert (decide (x7 = (some (0x25 : BitVec 8))))
    Res.assert (decide ((Sx.len i8) = 12))
    let (x9, i10) ← Sx.s8.nth x1 4 i8
    Res.assert (decide (x9 = (some (0x2A : BitVec 8))))
    Res.assert (decide ((Sx.len i10) = 7))
    let (x11, i12) ← Sx.s8.nth x1 5 i10
    Res.assert (decide (x11 = (some (0x30 : BitVec 8))))
    Res.assert (decide ((Sx.len i12) = 1))
    let (x13, i14) ← Sx.s8.next x1 i12
    Res.assert (decide (x13 = (some (0x31 : BitVec 8))))
    Res.assert (decide ((Sx.len i14) = 0))
    let (x15, i16) ← Sx.s8.next x1 i14
    Res.assert (decide (x15 = none))
    pure () : Res Unit) = .ok () := by decide +kernel

-- sysex8.rs:1149 payload_next_non_contiguous_payload
example : (do
    let x1 ← (Sx.s8.tryFrom ([0x5411BB00, 0x0, 0x0, 0x0, 0x5422BB00, 0x0, 0x0, 0x0, 0x5423BB01, 0x2000000, 0x0, 0x0, 0x5421BB00, 0x0, 0x0, 0x0, 0x5421BB00, 0x0, 0x0, 0x0, 0x5424BB03, 0x4050000, 0x0, 0x0, 0x5425BB06, 0x7080900, 0x0, 0x0, 0x5426BB0A, 0xB0C0D0E, 0x0, 0x0, 0x5427BB0F, 0x10111213, 0x14000000, 0x0, 0x5428BB15, 0x16171819, 0x1A1B0000, 0x0, 0x5429BB1C, 0x1D1E1F20, 0x21222300, 0x0, 0x542ABB24, 0x25262728, 0x292A2B2C, 0x0, 0x5436BB2D, 0x2E2F3031, 0x0, 0x0] : List (BitVec 32))).unwrap
    let it2 ← Sx.s8.payload x1
    Res.assert (decide ((Sx.len it2) = 50))
    let (x3, i4) ← Sx.s8.next x1 it2
    Res.assert (decide (x3 = (some (0x0 : BitVec 8))))
    Res.assert (decide ((Sx.len i4) = 49))
    let (x5, i6) ← Sx.s8.next x1 i4
    Res.assert (decide (x5 = (some (0x1 : BitVec 8))))
    Res.assert (decide ((Sx.len i6) = 48))
    let (x7, i8) ← Sx.s8.next x1 i6
    Res.assert (decide (x7 = (some (0x2 : BitVec 8))))
    Res.assert (decide ((Sx.len i8) = 47))
    let (x9, i10) ← Sx.s8.next x1 i8
    Res.assert (decide (x9 = (some (0x3 : BitVec 8))))
    Res.assert (decide ((Sx.len i10) = 46))
    let (x11, i12) ← Sx.s8.next x1 i10
    Res.assert (decide (x11 = (some (0x4 : BitVec 8))))
    Res.assert (decide ((Sx.len i12) = 45))
    let (x13, i14) ← Sx.s8.next x1 i12
    Res.assert (decide (x13 = (some (0x5 : BitVec 8))))
    Res.assert (decide ((Sx.len i14) = 44))
    let (x15, i16) ← Sx.s8.next x1 i14
    Res.assert (decide (x15 = (some (0x6 : BitVec 8))))
    Res.assert (decide ((Sx.len i16) = 43))
    let (x17, i18) ← Sx.s8.next x1 i16
    Res.assert (decide (x17 = (some (0x7 : BitVec 8))))
    Res.assert (decide ((Sx.len i18) = 42))
    let (x19, i20) ← Sx.s8.next x1 i18
    Res.assert (decide (x19 = (some (0x8 : BitVec 8))))
    Res.assert (decide ((Sx.len i20) = 41))
    let (x21, i22) ← Sx.s8.next x1 i20
    Res.assert (decide (x21 = (some (0x9 : BitVec 8))))
    Res.assert (decide ((Sx.len i22) = 40))
    let (x23, i24) ← Sx.s8.next x1 i22
    Res.assert (decide (x23 = (some (0xA : BitVec 8))))
    Res.assert (decide ((Sx.len i24) = 39))
    let (x25, i26) ← Sx.s8.next x1 i24
    Res.assert (decide (x25 = (some (0xB : BitVec 8))))
    Res.assert (decide ((Sx.len i26) = 38))
    let (x27, i28) ← Sx.s8.next x1 i26
    Res.assert (decide (x27 = (some (0xC : BitVec 8))))
    Res.assert (decide ((Sx.len i28) = 37))
    let (x29, i30) ← Sx.s8.next x1 i28
    Res.assert (decide (x29 = (some (0xD : BitVec 8))))
    Res.assert (decide ((Sx.len i30) = 36))
    let (x31, i32) ← Sx.s8.next x1 i30
    Res.assert (decide (x31 = (some (0xE : BitVec 8))))
    Res.assert (decide ((Sx.len i32) = 35))
    let (x33, i34) ← Sx.s8.next x1 i32
    Res.assert (decide (x33 = (some (0xF : BitVec 8))))
    Res.assert (decide ((Sx.len i34) = 34))
    let (x35, i36) ← Sx.s8.next x1 i34
    Res.assert (decide (x35 = (some (0x10 : BitVec 8))))
    Res.assert (decide ((Sx.len i36) = 33))
    let (x37, i38) ← Sx.s8.next x1 i36
    Res.assert (decide (x37 = (some (0x11 : BitVec 8))))
    Res.assert (decide ((Sx.len i38) = 32))
    let (x39, i40) ← Sx.s8.next x1 i38
    Res.assert (decide (x39 = (some (0x12 : BitVec 8))))
    Res.assert (decide ((Sx.len i40) = 31))
    let (x41, i42) ← Sx.s8.next x1 i40
    Res.assert (decide (x41 = (some (0x13 : BitVec 8))))
    Res.assert (decide ((Sx.len i42) = 30))
    let (x43, i44) ← Sx.s8.next x1 i42
    Res.assert (decide (x43 = (some (0x14 : BitVec 8))))
    Res.assert (decide ((Sx.len i44) = 29))
    let (x45, i46) ← Sx.s8.next x1 i44
    Res.assert (decide (x45 = (some (0x15 : BitVec 8))))
    Res.assert (decide ((Sx.len i46) = 28))
    let (x47, i48) ← Sx.s8.next x1 i46
    Res.assert (decide (x47 = (some (0x16 : BitVec 8))))
    Res.assert (decide ((Sx.len i48) = 27))
    let (x49, i50) ← Sx.s8.next x1 i48
    Res.assert (decide (x49 = (some (0x17 : BitVec 8))))
    Res.assert (decide ((Sx.len i50) = 26))
    let (x51, i52) ← Sx.s8.next x1 i50
    Res.assert (decide (x51 = (some (0x18 : BitVec 8))))
    Res.assert (decide ((Sx.len i52) = 25))
    let (x53, i54) ← Sx.s8.next x1 i52
    Res.assert (decide (x53 = (some (0x19 : BitVec 8))))
    Res.assert (decide ((Sx.len i54) = 24))
    let (x55, i56) ← Sx.s8.next x1 i54
    Res.assert (decide (x55 = (some (0x1A : BitVec 8))))
    Res.assert (decide ((Sx.len i56) = 23))
    let (x57, i58) ← Sx.s8.next x1 i56
    Res.assert (decide (x57 = (some (0x1B : BitVec 8))))
    Res.assert (decide ((Sx.len i58) = 22))
    let (x59, i60) ← Sx.s8.next x1 i58
    Res.assert (decide (x59 = (some (0x1C : BitVec 8))))
    Res.assert (decide ((Sx.len i60) = 21))
    let (x61, i62) ← Sx.s8.next x1 i60
    Res.assert (decide (x61 = (some (0x1D : BitVec 8))))
    Res.assert (decide ((Sx.len i62) = 20))
    let (x63, i64) ← Sx.s8.next x1 i62
    Res.assert (decide (x63 = (some (0x1E : BitVec 8))))
    Res.assert (decide ((Sx.len i64) = 19))
    let (x65, i66) ← Sx.s8.next x1 i64
    Res.assert (decide (x65 = (some (0x1F : BitVec 8))))
    Res.assert (decide ((Sx.len i66) = 18))
    let (x67, i68) ← Sx.s8.next x1 i66
    Res.assert (decide (x67 = (some (0x20 : BitVec 8))))
    Res.assert (decide ((Sx.len i68) = 17))
    let (x69, i70) ← Sx.s8.next x1 i68
    Res.assert (decide (x69 = (some (0x21 : BitVec 8))))
    Res.assert (decide ((Sx.len i70) = 16))
    let (x71, i72) ← Sx.s8.next x1 i70
    Res.assert (decide (x71 = (some (0x22 : BitVec 8))))
    Res.assert (decide ((Sx.len i72) = 15))
    let (x73, i74) ← Sx.s8.next x1 i72
    Res.assert (decide (x73 = (some (0x23 : BitVec 8))))
    Res.assert (decide ((Sx.len i74) = 14))
    let (x75, i76) ← Sx.s8.next x1 i74
    Res.assert (decide (x75 = (some (0x24 : BitVec 8))))
    Res.assert (decide ((Sx.len i76) = 13))
    let (x77, i78) ← Sx.s8.next x1 i76
    Res.assert (decide (x77 = (some (0x25 : BitVec 8))))
    Res.assert (decide ((Sx.len i78) = 12))
    let (x79, i80) ← Sx.s8.next x1 i78
    Res.assert (decide (x79 = (some (0x26 : BitVec 8))))
    Res.assert (decide ((Sx.len i80) = 11))
    let (x81, i82) ← Sx.s8.next x1 i80
    Res.assert (decide (x81 = (some (0x27 : BitVec 8))))
    Res.assert (decide ((Sx.len i82) = 10))
    let (x83, i84) ← Sx.s8.next x1 i82
    Res.assert (decide (x83 = (some (0x28 : BitVec 8))))
    Res.assert (decide ((Sx.len i84) = 9))
    let (x85, i86) ← Sx.s8.next x1 i84
    Res.assert (decide (x85 = (some (0x29 : BitVec 8))))
    Res.assert (decide ((Sx.len i86) = 8))
    let (x87, i88) ← Sx.s8.next x1 i86
    Res.assert (decide (x87 = (some (0x2A : BitVec 8))))
    Res.assert (decide ((Sx.len i88) = 7))
    let (x89, i90) ← Sx.s8.next x1 i88
    Res.assert (decide (x89 = (some (0x2B : BitVec 8))))
    Res.assert (decide ((Sx.len i90) = 6))
    let (x91, i92) ← Sx.s8.next x1 i90
    Res.assert (decide (x91 = (some (0x2C : BitVec 8))))
    Res.assert (decide ((Sx.len i92) = 5))
    let (x93, i94) ← Sx.s8.next x1 i92
    Res.assert (decide (x93 = (some (0x2D : BitVec 8))))
    Res.assert (decide ((Sx.len i94) = 4))
    let (x95, i96) ← Sx.s8.next x1 i94
    Res.assert (decide (x95 = (some (0x2E : BitVec 8))))
    Res.assert (decide ((Sx.len i96) = 3))
    let (x97, i98) ← Sx.s8.next x1 i96
    Res.assert (decide (x97 = (some (0x2F : BitVec 8))))
    Res.assert (decide ((Sx.len i98) = 2))
    let (x99, i100) ← Sx.s8.next x1 i98
    Res.assert (decide (x99 = (some (0x30 : BitVec 8))))
    Res.assert (decide ((Sx.len i100) = 1))
    let (x101, i102) ← Sx.s8.next x1 i100
    Res.assert (decide (x101 = (some (0x31 : BitVec 8))))
    pure () : Res Unit) = .ok () := by decide +kernel

-- sysex8.rs:1218 collect_payload_non_contiguous
example : (do
    let x1 ← (Sx.s8.tryFrom ([0x5411BB00, 0x0, 0x0, 0x0, 0x5422BB00, 0x0, 0x0, 0x0, 0x5423BB01, 0x2000000, 0x0, 0x0, 0x5421BB00, 0x0, 0x0, 0x0, 0x5421BB00, 0x0, 0x0, 0x0, 0x5424BB03, 0x4050000, 0x0, 0x0, 0x5425BB06, 0x7080900, 0x0, 0x0, 0x5426BB0A, 0xB0C0D0E, 0x0, 0x0, 0x5427BB0F, 0x10111213, 0x14000000, 0x0, 0x5428BB15, 0x16171819, 0x1A1B0000, 0x0, 0x5429BB1C, 0x1D1E1F20, 0x21222300, 0x0, 0x542ABB24, 0x25262728, 0x292A2B2C, 0x0, 0x5436BB2D, 0x2E2F3031, 0x0, 0x0] : List (BitVec 32))).unwrap
    let it2 ← Sx.s8.payload x1
    let x3 ← Sx.s8.collect x1 (it2.cache + 1) it2
    Res.assert (decide (x3 = ((List.range 50).map (BitVec.ofNat 8))))
    pure () : Res Unit) = .ok () := by decide +kernel

-- sysex8.rs:1290 set_payload
example : (do
    let m1 ← Sx.s8.newVec
    let m2 ← (Sx.s8.ops true .vec).setPayload m1 ⟨((List.range 20).map (BitVec.ofNat 8)), 20, some 20⟩
    Res.assert (decide (m2 = ([0x501E0000, 0x1020304, 0x5060708, 0x90A0B0C, 0x5038000D, 0xE0F1011, 0x12130000, 0x0] : List (BitVec 32))))
    pure () : Res Unit) = .ok () := by decide +kernel

-- sysex8.rs:1309 set_rubbish_payload
example : (do
    let m1 ← Sx.s8.newVec
    let m2 ← (Sx.s8.ops true .vec).setPayload m1 ⟨((List.range 50).map (BitVec.ofNat 8)), 0, none⟩
    Res.assert (decide (m2 = ([0x501E0000, 0x1020304, 0x5060708, 0x90A0B0C, 0x502E000D, 0xE0F1011, 0x12131415, 0x16171819, 0x502E001A, 0x1B1C1D1E, 0x1F202122, 0x23242526, 0x503C0027, 0x28292A2B, 0x2C2D2E2F, 0x30310000] : List (BitVec 32))))
    pure () : Res Unit) = .ok () := by decide +kernel

-- sysex8.rs:1337 set_rubbish_payload_to_fixed_size_buffer
example : (do
    let m1 ← Sx.s8.newArray 16
    let (m2, e3) ← (Sx.s8.ops true .fixed).trySetPayload m1 ⟨((List.range 50).map (BitVec.ofNat 8)), 0, none⟩
    Res.assert (decide (e3 = none))
    Res.assert (decide (m2 = ([0x501E0000, 0x1020304, 0x5060708, 0x90A0B0C, 0x502E000D, 0xE0F1011, 0x12131415, 0x16171819, 0x502E001A, 0x1B1C1D1E, 0x1F202122, 0x23242526, 0x503C0027, 0x28292A2B, 0x2C2D2E2F, 0x30310000] : List (BitVec 32))))
    pure () : Res Unit) = .ok () := by decide +kernel

-- sysex8.rs:1368 set_and_reset_payload_decreasing
example : (do
    let m1 ← Sx.s8.newVec
    let m2 ← (Sx.s8.ops true .vec).setPayload m1 ⟨((List.range 30).map (BitVec.ofNat 8)), 30, some 30⟩
    let m3 ← (Sx.s8.ops true .vec).setPayload m2 ⟨((List.range 20).map (BitVec.ofNat 8)), 20, some 20⟩
    Res.assert (decide (m3 = ([0x501E0000, 0x1020304, 0x5060708, 0x90A0B0C, 0x5038000D, 0xE0F1011, 0x12130000, 0x0] : List (BitVec 32))))
    pure () : Res Unit) = .ok () := by decide +kernel

-- sysex8.rs:1388 set_and_reset_payload_fixed_size_buffer
example : (do
    let m1 ← Sx.s8.newArray 13
    let (m2, e3) ← (Sx.s8.ops true .fixed).trySetPayload m1 ⟨((List.range 30).map (BitVec.ofNat 8)), 30, some 30⟩
    Res.assert (decide (e3 = none))
    let (m4, e5) ← (Sx.s8.ops true .fixed).trySetPayload m2 ⟨((List.range 20).map (BitVec.ofNat 8)), 20, some 20⟩
    Res.assert (decide (e5 = none))
    let x6 ← Sx.s8.data m4
    Res.assert (decide (x6 = ([0x501E0000, 0x1020304, 0x5060708, 0x90A0B0C, 0x5038000D, 0xE0F1011, 0x12130000, 0x0] : List (BitVec 32))))
    pure () : Res Unit) = .ok () := by decide +kernel

-- sysex8.rs:1408 insert_payload
example : (do
    let m1 ← Sx.s8.newVec
    let m2 ← (Sx.s8.ops true .vec).setPayload m1 ⟨((List.range 20).map (BitVec.ofNat 8)), 20, some 20⟩
    let m3 ← (Sx.s8.ops true .vec).insert m2 ⟨((List.range 10).map (BitVec.ofNat 8)), 10, some 10⟩ 10
    let it4 ← Sx.s8.payload m3
    let x5 ← Sx.s8.collect m3 (it4.cache + 1) it4
    Res.assert (decide (x5 = ([0x0, 0x1, 0x2, 0x3, 0x4, 0x5, 0x6, 0x7, 0x8, 0x9, 0x0, 0x1, 0x2, 0x3, 0x4, 0x5, 0x6, 0x7, 0x8, 0x9, 0xA, 0xB, 0xC, 0xD, 0xE, 0xF, 0x10, 0x11, 0x12, 0x13] : List (BitVec 8))))
    pure () : Res Unit) = .ok () := by decide +kernel

-- sysex8.rs:1422 insert_rubbish_payload
example : (do
    let m1 ← Sx.s8.newVec
    let m2 ← (Sx.s8.ops true .vec).setPayload m1 ⟨((List.range 20).map (BitVec.ofNat 8)), 20, some 20⟩
    let m3 ← (Sx.s8.ops true .vec).insert m2 ⟨((List.range 50).map (BitVec.ofNat 8)), 0, none⟩ 10
    let it4 ← Sx.s8.payload m3
    let x5 ← Sx.s8.collect m3 (it4.cache + 1) it4
    Res.assert (decide (x5 = ([0x0, 0x1, 0x2, 0x3, 0x4, 0x5, 0x6, 0x7, 0x8, 0x9, 0x0, 0x1, 0x2, 0x3, 0x4, 0x5, 0x6, 0x7, 0x8, 0x9, 0xA, 0xB, 0xC, 0xD, 0xE, 0xF, 0x10, 0x11, 0x12, 0x13, 0x14, 0x15, 0x16, 0x17, 0x18, 0x19, 0x1A, 0x1B, 0x1C, 0x1D, 0x1E, 0x1F, 0x20, 0x21, 0x22, 0x23, 0x24, 0x25, 0x26, 0x27, 0x28, 0x29, 0x2A, 0x2B, 0x2C, 0x2D, 0x2E, 0x2F, 0x30, 0x31, 0xA, 0xB, 0xC, 0xD, 0xE, 0xF, 0x10, 0x11, 0x12, 0x13] : List (BitVec 8))))
    pure () : Res Unit) = .ok () := by decide +kernel

-- sysex8.rs:1439 insert_rubbish_payload_front
example : (do
    let m1 ← Sx.s8.newVec
    let m2 ← (Sx.s8.ops true .vec).setPayload m1 ⟨((List.range 20).map (BitVec.ofNat 8)), 20, some 20⟩
    let m3 ← (Sx.s8.ops true .vec).insert m2 ⟨((List.range 50).map (BitVec.ofNat 8)), 0, none⟩ 0
    let it4 ← Sx.s8.payload m3
    let x5 ← Sx.s8.collect m3 (it4.cache + 1) it4
    Res.assert (decide (x5 = ([0x0, 0x1, 0x2, 0x3, 0x4, 0x5, 0x6, 0x7, 0x8, 0x9, 0xA, 0xB, 0xC, 0xD, 0xE, 0xF, 0x10, 0x11, 0x12, 0x13, 0x14, 0x15, 0x16, 0x17, 0x18, 0x19, 0x1A, 0x1B, 0x1C, 0x1D, 0x1E, 0x1F, 0x20, 0x21, 0x22, 0x23, 0x24, 0x25, 0x26, 0x27, 0x28, 0x29, 0x2A, 0x2B, 0x2C, 0x2D, 0x2E, 0x2F, 0x30, 0x31, 0x0, 0x1, 0x2, 0x3, 0x4, 0x5, 0x6, 0x7, 0x8, 0x9, 0xA, 0xB, 0xC, 0xD, 0xE, 0xF, 0x10, 0x11, 0x12, 0x13] : List (BitVec 8))))
    pure () : Res Unit) = .ok () := by decide +kernel

-- sysex8.rs:1456 insert_rubbish_payload_back
example : (do
    let m1 ← Sx.s8.newVec
    let m2 ← (Sx.s8.ops true .vec).setPayload m1 ⟨((List.range 20).map (BitVec.ofNat 8)), 20, some 20⟩
    let m3 ← (Sx.s8.ops true .vec).insert m2 ⟨((List.range 50).map (BitVec.ofNat 8)), 0, none⟩ 20
    let it4 ← Sx.s8.payload m3
    let x5 ← Sx.s8.collect m3 (it4.cache + 1) it4
    Res.assert (decide (x5 = ([0x0, 0x1, 0x2, 0x3, 0x4, 0x5, 0x6, 0x7, 0x8, 0x9, 0xA, 0xB, 0xC, 0xD, 0xE, 0xF, 0x10, 0x11, 0x12, 0x13, 0x0, 0x1, 0x2, 0x3, 0x4, 0x5, 0x6, 0x7, 0x8, 0x9, 0xA, 0xB, 0xC, 0xD, 0xE, 0xF, 0x10, 0x11, 0x12, 0x13, 0x14, 0x15, 0x16, 0x17, 0x18, 0x19, 0x1A, 0x1B, 0x1C, 0x1D, 0x1E, 0x1F, 0x20, 0x21, 0x22, 0x23, 0x24, 0x25, 0x26, 0x27, 0x28, 0x29, 0x2A, 0x2B, 0x2C, 0x2D, 0x2E, 0x2F, 0x30, 0x31] : List (BitVec 8))))
    pure () : Res Unit) = .ok () := by decide +kernel

-- sysex8.rs:1473 set_payload_to_fixed_size_buffer_with_overflow
example : (do
    let m1 ← Sx.s8.newArray 16
    let (m2, e3) ← (Sx.s8.ops true .fixed).trySetPayload m1 ⟨((List.range 60).map (BitVec.ofNat 8)), 60, some 60⟩
    Res.assert (decide (e3 = (some .bufferOverflow)))
    pure () : Res Unit) = .ok () := by decide +kernel

-- sysex8.rs:1482 default_constructed_message
example : (do
    let m1 ← Sx.s8.newVec
    Res.assert (decide (m1 = ([0x50010000, 0x0, 0x0, 0x0] : List (BitVec 32))))
    pure () : Res Unit) = .ok () := by decide +kernel

-- sysex8.rs:1490 payload_of_empty_message
example : (do
    let m1 ← Sx.s8.newVec
    let it2 ← Sx.s8.payload m1
    let x3 ← Sx.s8.collect m1 (it2.cache + 1) it2
    Res.assert (decide (x3 = ([] : List (BitVec 8))))
    pure () : Res Unit) = .ok () := by decide +kernel

-- sysex8.rs:1497 packets
example : (do
    let x1 ← (Sx.s8.tryFrom ([0x501E0000, 0x1020304, 0x5060708, 0x90A0B0C, 0x502E000D, 0xE0F1011, 0x12131415, 0x16171819, 0x502E001A, 0x1B1C1D1E, 0x1F202122, 0x23242526, 0x503C0027, 0x28292A2B, 0x2C2D2E2F, 0x30310000] : List (BitVec 32))).unwrap
    let x2 ← Sx.s8.dataPackets x1
    let (x3, c4) ← Packet.itNext x2
    let x5 ← unwrapO x3
    Res.assert (decide (x5.2 = ([0x501E0000, 0x1020304, 0x5060708, 0x90A0B0C] : List (BitVec 32))))
    let (x6, c7) ← Packet.itNext c4
    let x8 ← unwrapO x6
    Res.assert (decide (x8.2 = ([0x502E000D, 0xE0F1011, 0x12131415, 0x16171819] : List (BitVec 32))))
    let (x9, c10) ← Packet.itNext c7
    let x11 ← unwrapO x9
    Res.assert (decide (x11.2 = ([0x502E001A, 0x1B1C1D1E, 0x1F202122, 0x23242526] : List (BitVec 32))))
    let (x12, c13) ← Packet.itNext c10
    let x14 ← unwrapO x12
    Res.assert (decide (x14.2 = ([0x503C0027, 0x28292A2B, 0x2C2D2E2F, 0x30310000] : List (BitVec 32))))
    let (x15, c16) ← Packet.itNext c13
    Res.assert x15.isNone
    pure () : Res Unit) = .ok () := by decide +kernel

-- sysex8.rs:1543 packets_empty
example : (do
    let m1 ← Sx.s8.newArray 4
    let x2 ← Sx.s8.dataPackets m1
    let (x3, c4) ← Packet.itNext x2
    let x5 ← unwrapO x3
    Res.assert (decide (x5.2 = ([0x50010000, 0x0, 0x0, 0x0] : List (BitVec 32))))
    let (x6, c7) ← Packet.itNext c4
    Res.assert x6.isNone
    pure () : Res Unit) = .ok () := by decide +kernel

-- sysex8.rs:1553 reformat_empty_packet_is_noop
example : (do
    let m1 ← Sx.s8.compact ([0x5001BB00, 0x0, 0x0, 0x0] : List (BitVec 32))
    let x2 ← Sx.s8.data m1
    Res.assert (decide (x2 = ([0x5001BB00, 0x0, 0x0, 0x0] : List (BitVec 32))))
    pure () : Res Unit) = .ok () := by decide +kernel

-- sysex8.rs:1568 reformat_complete_packet_is_noop
example : (do
    let m1 ← Sx.s8.compact ([0x5003BB00, 0x1000000, 0x0, 0x0] : List (BitVec 32))
    let x2 ← Sx.s8.data m1
    Res.assert (decide (x2 = ([0x5003BB00, 0x1000000, 0x0, 0x0] : List (BitVec 32))))
    pure () : Res Unit) = .ok () := by decide +kernel

-- sysex8.rs:1583 reformat_two_empty_packets_to_one_empty_packet
example : (do
    let m1 ← Sx.s8.compact ([0x5011BB00, 0x1000000, 0x0, 0x0, 0x5031BB00, 0x1000000, 0x0, 0x0] : List (BitVec 32))
    let x2 ← Sx.s8.data m1
    Res.assert (decide (x2 = ([0x5001BB00, 0x1000000, 0x0, 0x0] : List (BitVec 32))))
    pure () : Res Unit) = .ok () := by decide +kernel

-- sysex8.rs:1602 empty_packet_is_compact
example : (do
    Res.assert ((Sx.s8.isCompact ([0x5001BB00, 0x0, 0x0, 0x0] : List (BitVec 32))))
    pure () : Res Unit) = .ok () := by decide +kernel

-- sysex8.rs:1612 two_empty_packets_are_not_compact
example : (do
    Res.assert ((!(Sx.s8.isCompact ([0x5011BB00, 0x0, 0x0, 0x0, 0x5031BB00, 0x0, 0x0, 0x0] : List (BitVec 32)))))
    pure () : Res Unit) = .ok () := by decide +kernel

-- sysex8.rs:1626 non_full_complete_message_is_compact
example : (do
    Res.assert ((Sx.s8.isCompact ([0x5002BB00, 0x0, 0x0, 0x0] : List (BitVec 32))))
    pure () : Res Unit) = .ok () := by decide +kernel

-- sysex8.rs:1636 two_full_packets_is_compact
example : (do
    Res.assert ((Sx.s8.isCompact ([0x501EBB00, 0x0, 0x0, 0x0, 0x503EBB00, 0x0, 0x0, 0x0] : List (BitVec 32))))
    pure () : Res Unit) = .ok () := by decide +kernel

-- sysex8.rs:1650 non_full_start_is_not_compact
example : (do
    Res.assert ((!(Sx.s8.isCompact ([0x5012BB00, 0x0, 0x0, 0x0, 0x503EBB00, 0x0, 0x0, 0x0] : List (BitVec 32)))))
    pure () : Res Unit) = .ok () := by decide +kernel

-- sysex8.rs:1664 compact_non_contiguous_payload
example : (do
    let m1 ← Sx.s8.compact ([0x5412BB00, 0x0, 0x0, 0x0, 0x5423BB01, 0x2000000, 0x0, 0x0, 0x5421BB00, 0x0, 0x0, 0x0, 0x5421BB00, 0x0, 0x0, 0x0, 0x5424BB03, 0x4050000, 0x0, 0x0, 0x5425BB06, 0x7080900, 0x0, 0x0, 0x5421BB00, 0x0, 0x0, 0x0, 0x5426BB0A, 0xB0C0D0E, 0x0, 0x0, 0x5421BB00, 0x0, 0x0, 0x0, 0x5421BB00, 0x0, 0x0, 0x0, 0x5421BB00, 0x0, 0x0, 0x0, 0x5427BB0F, 0x10111213, 0x14000000, 0x0, 0x5428BB15, 0x16171819, 0x1A1B0000, 0x0, 0x5429BB1C, 0x1D1E1F20, 0x21222300, 0x0, 0x542ABB24, 0x25262728, 0x292A2B2C, 0x0, 0x5436BB2D, 0x2E2F3031, 0x0, 0x0] : List (BitVec 32))
    let x2 ← Sx.s8.data m1
    Res.assert (decide (x2 = ([0x541EBB00, 0x1020304, 0x5060708, 0x90A0B0C, 0x542EBB0D, 0xE0F1011, 0x12131415, 0x16171819, 0x542EBB1A, 0x1B1C1D1E, 0x1F202122, 0x23242526, 0x543CBB27, 0x28292A2B, 0x2C2D2E2F, 0x30310000] : List (BitVec 32))))
    pure () : Res Unit) = .ok () := by decide +kernel

-- sysex8.rs:1762 move_payload_tail_no_op
example : (do
    let m1 ← Sx.s8.newVec
    let m2 ← (Sx.s8.ops true .vec).setPayload m1 ⟨([0x0, 0x1, 0x2, 0x3, 0x4, 0x5, 0x6, 0x7, 0x8, 0x9, 0xA, 0xB, 0xC, 0xD, 0xE, 0xF, 0x10, 0x11, 0x12, 0x13, 0x0, 0x0, 0x0, 0x0, 0x0, 0x0, 0x0, 0x0, 0x0, 0x0, 0x0, 0x0, 0x0, 0x0, 0x0, 0x0, 0x0, 0x0, 0x0, 0x0] : List (BitVec 8)), 40, some 40⟩
    let m3 ← (Sx.s8.ops true .vec).moveTail m2 0 0
    let it4 ← Sx.s8.payload m3
    Res.assert (decide ((Sx.len it4) = 40))
    let x5 ← Sx.s8.collect m3 (it4.cache + 1) it4
    Res.assert (decide (x5 = ([0x0, 0x1, 0x2, 0x3, 0x4, 0x5, 0x6, 0x7, 0x8, 0x9, 0xA, 0xB, 0xC, 0xD, 0xE, 0xF, 0x10, 0x11, 0x12, 0x13, 0x0, 0x0, 0x0, 0x0, 0x0, 0x0, 0x0, 0x0, 0x0, 0x0, 0x0, 0x0, 0x0, 0x0, 0x0, 0x0, 0x0, 0x0, 0x0, 0x0] : List (BitVec 8))))
    pure () : Res Unit) = .ok () := by decide +kernel

-- sysex8.rs:1778 move_entire_payload_one_place
example : (do
    let m1 ← Sx.s8.newVec
    let m2 ← (Sx.s8.ops true .vec).setPayload m1 ⟨([0x0, 0x1, 0x2, 0x3, 0x4, 0x5, 0x6, 0x7, 0x8, 0x9, 0xA, 0xB, 0xC, 0xD, 0xE, 0xF, 0x10, 0x11, 0x12, 0x13, 0x0, 0x0, 0x0, 0x0, 0x0, 0x0, 0x0, 0x0, 0x0, 0x0, 0x0, 0x0, 0x0, 0x0, 0x0, 0x0, 0x0, 0x0, 0x0, 0x0] : List (BitVec 8)), 40, some 40⟩
    let m3 ← (Sx.s8.ops true .vec).moveTail m2 0 1
    let it4 ← Sx.s8.payload m3
    Res.assert (decide ((Sx.len it4) = 40))
    let x5 ← Sx.s8.collect m3 (it4.cache + 1) it4
    Res.assert (decide (x5 = ([0x0, 0x0, 0x1, 0x2, 0x3, 0x4, 0x5, 0x6, 0x7, 0x8, 0x9, 0xA, 0xB, 0xC, 0xD, 0xE, 0xF, 0x10, 0x11, 0x12, 0x13, 0x0, 0x0, 0x0, 0x0, 0x0, 0x0, 0x0, 0x0, 0x0, 0x0, 0x0, 0x0, 0x0, 0x0, 0x0, 0x0, 0x0, 0x0, 0x0] : List (BitVec 8))))
    pure () : Res Unit) = .ok () := by decide +kernel

-- sysex8.rs:1794 move_half_payload_one_place
example : (do
    let m1 ← Sx.s8.newVec
    let m2 ← (Sx.s8.ops true .vec).setPayload m1 ⟨([0x0, 0x1, 0x2, 0x3, 0x4, 0x5, 0x6, 0x7, 0x8, 0x9, 0xA, 0xB, 0xC, 0xD, 0xE, 0xF, 0x10, 0x11, 0x12, 0x13, 0x0, 0x0, 0x0, 0x0, 0x0, 0x0, 0x0, 0x0, 0x0, 0x0, 0x0, 0x0, 0x0, 0x0, 0x0, 0x0, 0x0, 0x0, 0x0, 0x0] : List (BitVec 8)), 40, some 40⟩
    let m3 ← (Sx.s8.ops true .vec).moveTail m2 10 11
    let it4 ← Sx.s8.payload m3
    Res.assert (decide ((Sx.len it4) = 40))
    let x5 ← Sx.s8.collect m3 (it4.cache + 1) it4
    Res.assert (decide (x5 = ([0x0, 0x1, 0x2, 0x3, 0x4, 0x5, 0x6, 0x7, 0x8, 0x9, 0xA, 0xA, 0xB, 0xC, 0xD, 0xE, 0xF, 0x10, 0x11, 0x12, 0x13, 0x0, 0x0, 0x0, 0x0, 0x0, 0x0, 0x0, 0x0, 0x0, 0x0, 0x0, 0x0, 0x0, 0x0, 0x0, 0x0, 0x0, 0x0, 0x0] : List (BitVec 8))))
    pure () : Res Unit) = .ok () := by decide +kernel

-- sysex8.rs:1810 move_half_payload_one_place_back
example : (do
    let m1 ← Sx.s8.newVec
    let m2 ← (Sx.s8.ops true .vec).setPayload m1 ⟨([0x0, 0x1, 0x2, 0x3, 0x4, 0x5, 0x6, 0x7, 0x8, 0x9, 0xA, 0xB, 0xC, 0xD, 0xE, 0xF, 0x10, 0x11, 0x12, 0x13, 0x0, 0x0, 0x0, 0x0, 0x0, 0x0, 0x0, 0x0, 0x0, 0x0, 0x0, 0x0, 0x0, 0x0, 0x0, 0x0, 0x0, 0x0, 0x0, 0x0] : List (BitVec 8)), 40, some 40⟩
    let m3 ← (Sx.s8.ops true .vec).moveTail m2 10 9
    let it4 ← Sx.s8.payload m3
    Res.assert (decide ((Sx.len it4) = 40))
    let x5 ← Sx.s8.collect m3 (it4.cache + 1) it4
    Res.assert (decide (x5 = ([0x0, 0x1, 0x2, 0x3, 0x4, 0x5, 0x6, 0x7, 0x8, 0xA, 0xB, 0xC, 0xD, 0xE, 0xF, 0x10, 0x11, 0x12, 0x13, 0x0, 0x0, 0x0, 0x0, 0x0, 0x0, 0x0, 0x0, 0x0, 0x0, 0x0, 0x0, 0x0, 0x0, 0x0, 0x0, 0x0, 0x0, 0x0, 0x0, 0x0] : List (BitVec 8))))
    pure () : Res Unit) = .ok () := by decide +kernel

-- sysex8.rs:1826 move_half_payload_to_front
example : (do
    let m1 ← Sx.s8.newVec
    let m2 ← (Sx.s8.ops true .vec).setPayload m1 ⟨([0x0, 0x1, 0x2, 0x3, 0x4, 0x5, 0x6, 0x7, 0x8, 0x9, 0xA, 0xB, 0xC, 0xD, 0xE, 0xF, 0x10, 0x11, 0x12, 0x13, 0x0, 0x0, 0x0, 0x0, 0x0, 0x0, 0x0, 0x0, 0x0, 0x0, 0x0, 0x0, 0x0, 0x0, 0x0, 0x0, 0x0, 0x0, 0x0, 0x0] : List (BitVec 8)), 40, some 40⟩
    let m3 ← (Sx.s8.ops true .vec).moveTail m2 10 0
    let it4 ← Sx.s8.payload m3
    Res.assert (decide ((Sx.len it4) = 40))
    let x5 ← Sx.s8.collect m3 (it4.cache + 1) it4
    Res.assert (decide (x5 = ([0xA, 0xB, 0xC, 0xD, 0xE, 0xF, 0x10, 0x11, 0x12, 0x13, 0x0, 0x0, 0x0, 0x0, 0x0, 0x0, 0x0, 0x0, 0x0, 0x0, 0x0, 0x0, 0x0, 0x0, 0x0, 0x0, 0x0, 0x0, 0x0, 0x0, 0x0, 0x0, 0x0, 0x0, 0x0, 0x0, 0x0, 0x0, 0x0, 0x0] : List (BitVec 8))))
    pure () : Res Unit) = .ok () := by decide +kernel

-- sysex8.rs:1842 move_end_to_front
example : (do
    let m1 ← Sx.s8.newVec
    let m2 ← (Sx.s8.ops true .vec).setPayload m1 ⟨([0x0, 0x1, 0x2, 0x3, 0x4, 0x5, 0x6, 0x7, 0x8, 0x9, 0xA, 0xB, 0xC, 0xD, 0xE, 0xF, 0x10, 0x11, 0x12, 0x13, 0x0, 0x0, 0x0, 0x0, 0x0, 0x0, 0x0, 0x0, 0x0, 0x0, 0x0, 0x0, 0x0, 0x0, 0x0, 0x0, 0x0, 0x0, 0x0, 0x0] : List (BitVec 8)), 40, some 40⟩
    let m3 ← (Sx.s8.ops true .vec).moveTail m2 30 0
    let it4 ← Sx.s8.payload m3
    Res.assert (decide ((Sx.len it4) = 40))
    let x5 ← Sx.s8.collect m3 (it4.cache + 1) it4
    Res.assert (decide (x5 = ([0x0, 0x0, 0x0, 0x0, 0x0, 0x0, 0x0, 0x0, 0x0, 0x0, 0xA, 0xB, 0xC, 0xD, 0xE, 0xF, 0x10, 0x11, 0x12, 0x13, 0x0, 0x0, 0x0, 0x0, 0x0, 0x0, 0x0, 0x0, 0x0, 0x0, 0x0, 0x0, 0x0, 0x0, 0x0, 0x0, 0x0, 0x0, 0x0, 0x0] : List (BitVec 8))))
    pure () : Res Unit) = .ok () := by decide +kernel

-- sysex8.rs:1858 set_byte_non_compact_payload
example : (do
    let m1 ← Sx.s8.setByte ([0x5411BB00, 0x0, 0x0, 0x0, 0x5422BB00, 0x0, 0x0, 0x0, 0x5423BB01, 0x2000000, 0x0, 0x0, 0x5421BB00, 0x0, 0x0, 0x0, 0x5421BB00, 0x0, 0x0, 0x0, 0x5424BB03, 0x4050000, 0x0, 0x0, 0x5425BB06, 0x7080900, 0x0, 0x0, 0x5426BB0A, 0xB0C0D0E, 0x0, 0x0, 0x5427BB0F, 0x10111213, 0x14000000, 0x0, 0x5428BB15, 0x16171819, 0x1A1B0000, 0x0, 0x5429BB1C, 0x1D1E1F20, 0x21222300, 0x0, 0x542ABB24, 0x25262728, 0x292A2B2C, 0x0, 0x5436BB2D, 0x2E2F3031, 0x0, 0x0] : List (BitVec 32)) (0xFF : BitVec 8) 0
    let m2 ← Sx.s8.setByte m1 (0xFE : BitVec 8) 10
    let m3 ← Sx.s8.setByte m2 (0xFD : BitVec 8) 20
    let m4 ← Sx.s8.setByte m3 (0xFC : BitVec 8) 30
    let it5 ← Sx.s8.payload m4
    let x6 ← Sx.s8.collect m4 (it5.cache + 1) it5
    let x7 ← at' x6 0
    Res.assert (decide (x7 = (0xFF : BitVec 8)))
    let x8 ← Sx.s8.collect m4 (it5.cache + 1) it5
    let x9 ← at' x8 10
    Res.assert (decide (x9 = (0xFE : BitVec 8)))
    let x10 ← Sx.s8.collect m4 (it5.cache + 1) it5
    let x11 ← at' x10 20
    Res.assert (decide (x11 = (0xFD : BitVec 8)))
    let x12 ← Sx.s8.collect m4 (it5.cache + 1) it5
    let x13 ← at' x12 30
    Res.assert (decide (x13 = (0xFC : BitVec 8)))
    pure () : Res Unit) = .ok () := by decide +kernel

-- sysex8.rs:1929 append_byte
example : (do
    let m1 ← Sx.s8.newVec
    let m2 ← (Sx.s8.ops true .vec).setPayload m1 ⟨((List.range 20).map (BitVec.ofNat 8)), 20, some 20⟩
    let m3 ← (Sx.s8.ops true .vec).appendByte m2 (0x0 : BitVec 8)
    let m4 ← (Sx.s8.ops true .vec).appendByte m3 (0x1 : BitVec 8)
    let m5 ← (Sx.s8.ops true .vec).appendByte m4 (0x2 : BitVec 8)
    let m6 ← (Sx.s8.ops true .vec).appendByte m5 (0x3 : BitVec 8)
    let m7 ← (Sx.s8.ops true .vec).appendByte m6 (0x4 : BitVec 8)
    let m8 ← (Sx.s8.ops true .vec).appendByte m7 (0x5 : BitVec 8)
    let m9 ← (Sx.s8.ops true .vec).appendByte m8 (0x6 : BitVec 8)
    let m10 ← (Sx.s8.ops true .vec).appendByte m9 (0x7 : BitVec 8)
    let m11 ← (Sx.s8.ops true .vec).appendByte m10 (0x8 : BitVec 8)
    let m12 ← (Sx.s8.ops true .vec).appendByte m11 (0x9 : BitVec 8)
    let m13 ← (Sx.s8.ops true .vec).appendByte m12 (0xA : BitVec 8)
    let m14 ← (Sx.s8.ops true .vec).appendByte m13 (0xB : BitVec 8)
    let m15 ← (Sx.s8.ops true .vec).appendByte m14 (0xC : BitVec 8)
    let m16 ← (Sx.s8.ops true .vec).appendByte m15 (0xD : BitVec 8)
    let m17 ← (Sx.s8.ops true .vec).appendByte m16 (0xE : BitVec 8)
    let m18 ← (Sx.s8.ops true .vec).appendByte m17 (0xF : BitVec 8)
    let m19 ← (Sx.s8.ops true .vec).appendByte m18 (0x10 : BitVec 8)
    let m20 ← (Sx.s8.ops true .vec).appendByte m19 (0x11 : BitVec 8)
    let m21 ← (Sx.s8.ops true .vec).appendByte m20 (0x12 : BitVec 8)
    let m22 ← (Sx.s8.ops true .vec).appendByte m21 (0x13 : BitVec 8)
    let it23 ← Sx.s8.payload m22
    let x24 ← Sx.s8.collect m22 (it23.cache + 1) it23
    Res.assert (decide (x24 = ([0x0, 0x1, 0x2, 0x3, 0x4, 0x5, 0x6, 0x7, 0x8, 0x9, 0xA, 0xB, 0xC, 0xD, 0xE, 0xF, 0x10, 0x11, 0x12, 0x13, 0x0, 0x1, 0x2, 0x3, 0x4, 0x5, 0x6, 0x7, 0x8, 0x9, 0xA, 0xB, 0xC, 0xD, 0xE, 0xF, 0x10, 0x11, 0x12, 0x13] : List (BitVec 8))))
    pure () : Res Unit) = .ok () := by decide +kernel

-- sysex8.rs:1945 append_payload
example : (do
    let m1 ← Sx.s8.newVec
    let m2 ← (Sx.s8.ops true .vec).setPayload m1 ⟨((List.range 20).map (BitVec.ofNat 8)), 20, some 20⟩
    let m3 ← (Sx.s8.ops true .vec).append m2 ⟨((List.range 20).map (BitVec.ofNat 8)), 20, some 20⟩
    let it4 ← Sx.s8.payload m3
    let x5 ← Sx.s8.collect m3 (it4.cache + 1) it4
    Res.assert (decide (x5 = ([0x0, 0x1, 0x2, 0x3, 0x4, 0x5, 0x6, 0x7, 0x8, 0x9, 0xA, 0xB, 0xC, 0xD, 0xE, 0xF, 0x10, 0x11, 0x12, 0x13, 0x0, 0x1, 0x2, 0x3, 0x4, 0x5, 0x6, 0x7, 0x8, 0x9, 0xA, 0xB, 0xC, 0xD, 0xE, 0xF, 0x10, 0x11, 0x12, 0x13] : List (BitVec 8))))
    pure () : Res Unit) = .ok () := by decide +kernel

-- sysex8.rs:1959 try_append_payload
example : (do
    let m1 ← Sx.s8.newArray 16
    let (m2, e3) ← (Sx.s8.ops true .fixed).trySetPayload m1 ⟨((List.range 20).map (BitVec.ofNat 8)), 20, some 20⟩
    Res.assert (decide (e3 = none))
    let (m4, e5) ← (Sx.s8.ops true .fixed).tryAppend m2 ⟨((List.range 20).map (BitVec.ofNat 8)), 20, some 20⟩
    Res.assert (decide (e5 = none))
    let it6 ← Sx.s8.payload m4
    let x7 ← Sx.s8.collect m4 (it6.cache + 1) it6
    Res.assert (decide (x7 = ([0x0, 0x1, 0x2, 0x3, 0x4, 0x5, 0x6, 0x7, 0x8, 0x9, 0xA, 0xB, 0xC, 0xD, 0xE, 0xF, 0x10, 0x11, 0x12, 0x13, 0x0, 0x1, 0x2, 0x3, 0x4, 0x5, 0x6, 0x7, 0x8, 0x9, 0xA, 0xB, 0xC, 0xD, 0xE, 0xF, 0x10, 0x11, 0x12, 0x13] : List (BitVec 8))))
    pure () : Res Unit) = .ok () := by decide +kernel

-- sysex8.rs:1973 try_append_payload_fail
example : (do
    let m1 ← Sx.s8.newArray 15
    let (m2, e3) ← (Sx.s8.ops true .fixed).trySetPayload m1 ⟨((List.range 20).map (BitVec.ofNat 8)), 20, some 20⟩
    Res.assert (decide (e3 = none))
    let (m4, e5) ← (Sx.s8.ops true .fixed).tryAppend m2 ⟨((List.range 20).map (BitVec.ofNat 8)), 20, some 20⟩
    Res.assert (decide (e5 = (some .bufferOverflow)))
    pure () : Res Unit) = .ok () := by decide +kernel

-- sysex8.rs:1983 fill_and_empty_payload_then_payload_size_should_be_zero
example : (do
    let m1 ← Sx.s8.newArray 16
    let (m2, e3) ← (Sx.s8.ops true .fixed).trySetPayload m1 ⟨((List.range 40).map (BitVec.ofNat 8)), 40, some 40⟩
    Res.assert (decide (e3 = none))
    let (m4, e5) ← (Sx.s8.ops true .fixed).trySetPayload m2 ⟨([] : List (BitVec 8)), 0, some 0⟩
    Res.assert (decide (e5 = none))
    let x6 ← Sx.s8.payloadSize m4
    Res.assert (decide (x6 = 0))
    pure () : Res Unit) = .ok () := by decide +kernel

-- sysex8.rs:1991 splice_payload_inserted_data_exceeds_replaced
example : (do
    let m1 ← Sx.s8.newVec
    let m2 ← (Sx.s8.ops true .vec).setPayload m1 ⟨((List.range 20).map (BitVec.ofNat 8)), 20, some 20⟩
    let m3 ← (Sx.s8.ops true .vec).splice m2 ⟨(List.replicate 10 (0x6 : BitVec 8)), 10, some 10⟩ (.included 5) (.excluded 10)
    let it4 ← Sx.s8.payload m3
    let x5 ← Sx.s8.collect m3 (it4.cache + 1) it4
    Res.assert (decide (x5 = ([0x0, 0x1, 0x2, 0x3, 0x4, 0x6, 0x6, 0x6, 0x6, 0x6, 0x6, 0x6, 0x6, 0x6, 0x6, 0xA, 0xB, 0xC, 0xD, 0xE, 0xF, 0x10, 0x11, 0x12, 0x13] : List (BitVec 8))))
    pure () : Res Unit) = .ok () := by decide +kernel

-- sysex8.rs:2005 splice_payload_inserted_data_less_than_replaced
example : (do
    let m1 ← Sx.s8.newVec
    let m2 ← (Sx.s8.ops true .vec).setPayload m1 ⟨((List.range 20).map (BitVec.ofNat 8)), 20, some 20⟩
    let m3 ← (Sx.s8.ops true .vec).splice m2 ⟨([0x6, 0x6, 0x6] : List (BitVec 8)), 3, some 3⟩ (.included 5) (.excluded 10)
    let it4 ← Sx.s8.payload m3
    let x5 ← Sx.s8.collect m3 (it4.cache + 1) it4
    Res.assert (decide (x5 = ([0x0, 0x1, 0x2, 0x3, 0x4, 0x6, 0x6, 0x6, 0xA, 0xB, 0xC, 0xD, 0xE, 0xF, 0x10, 0x11, 0x12, 0x13] : List (BitVec 8))))
    pure () : Res Unit) = .ok () := by decide +kernel

-- sysex8.rs:2016 splice_payload_inserted_data_equal_in_length_to_replaced
example : (do
    let m1 ← Sx.s8.newVec
    let m2 ← (Sx.s8.ops true .vec).setPayload m1 ⟨((List.range 20).map (BitVec.ofNat 8)), 20, some 20⟩
    let m3 ← (Sx.s8.ops true .vec).splice m2 ⟨(List.replicate 5 (0x6 : BitVec 8)), 5, some 5⟩ (.included 5) (.excluded 10)
    let it4 ← Sx.s8.payload m3
    let x5 ← Sx.s8.collect m3 (it4.cache + 1) it4
    Res.assert (decide (x5 = ([0x0, 0x1, 0x2, 0x3, 0x4, 0x6, 0x6, 0x6, 0x6, 0x6, 0xA, 0xB, 0xC, 0xD, 0xE, 0xF, 0x10, 0x11, 0x12, 0x13] : List (BitVec 8))))
    pure () : Res Unit) = .ok () := by decide +kernel

-- sysex8.rs:2027 splice_rubbish_payload
example : (do
    let m1 ← Sx.s8.newVec
    let m2 ← (Sx.s8.ops true .vec).setPayload m1 ⟨((List.range 20).map (BitVec.ofNat 8)), 20, some 20⟩
    let m3 ← (Sx.s8.ops true .vec).splice m2 ⟨((List.range 50).map (BitVec.ofNat 8)), 0, none⟩ (.included 5) (.excluded 10)
    let it4 ← Sx.s8.payload m3
    let x5 ← Sx.s8.collect m3 (it4.cache + 1) it4
    Res.assert (decide (x5 = ([0x0, 0x1, 0x2, 0x3, 0x4, 0x0, 0x1, 0x2, 0x3, 0x4, 0x5, 0x6, 0x7, 0x8, 0x9, 0xA, 0xB, 0xC, 0xD, 0xE, 0xF, 0x10, 0x11, 0x12, 0x13, 0x14, 0x15, 0x16, 0x17, 0x18, 0x19, 0x1A, 0x1B, 0x1C, 0x1D, 0x1E, 0x1F, 0x20, 0x21, 0x22, 0x23, 0x24, 0x25, 0x26, 0x27, 0x28, 0x29, 0x2A, 0x2B, 0x2C, 0x2D, 0x2E, 0x2F, 0x30, 0x31, 0xA, 0xB, 0xC, 0xD, 0xE, 0xF, 0x10, 0x11, 0x12, 0x13] : List (BitVec 8))))
    pure () : Res Unit) = .ok () := by decide +kernel

-- sysex8.rs:2043 splice_rubbish_payload_at_the_end
example : (do
    let m1 ← Sx.s8.newVec
    let m2 ← (Sx.s8.ops true .vec).setPayload m1 ⟨((List.range 20).map (BitVec.ofNat 8)), 20, some 20⟩
    let m3 ← (Sx.s8.ops true .vec).splice m2 ⟨((List.range 50).map (BitVec.ofNat 8)), 0, none⟩ (.included 15) (.excluded 20)
    let it4 ← Sx.s8.payload m3
    let x5 ← Sx.s8.collect m3 (it4.cache + 1) it4
    Res.assert (decide (x5 = ([0x0, 0x1, 0x2, 0x3, 0x4, 0x5, 0x6, 0x7, 0x8, 0x9, 0xA, 0xB, 0xC, 0xD, 0xE, 0x0, 0x1, 0x2, 0x3, 0x4, 0x5, 0x6, 0x7, 0x8, 0x9, 0xA, 0xB, 0xC, 0xD, 0xE, 0xF, 0x10, 0x11, 0x12, 0x13, 0x14, 0x15, 0x16, 0x17, 0x18, 0x19, 0x1A, 0x1B, 0x1C, 0x1D, 0x1E, 0x1F, 0x20, 0x21, 0x22, 0x23, 0x24, 0x25, 0x26, 0x27, 0x28, 0x29, 0x2A, 0x2B, 0x2C, 0x2D, 0x2E, 0x2F, 0x30, 0x31] : List (BitVec 8))))
    pure () : Res Unit) = .ok () := by decide +kernel

-- sysex8.rs:2059 splice_rubbish_payload_at_the_start
example : (do
    let m1 ← Sx.s8.newVec
    let m2 ← (Sx.s8.ops true .vec).setPayload m1 ⟨((List.range 20).map (BitVec.ofNat 8)), 20, some 20⟩
    let m3 ← (Sx.s8.ops true .vec).splice m2 ⟨((List.range 50).map (BitVec.ofNat 8)), 0, none⟩ (.included 0) (.excluded 5)
    let it4 ← Sx.s8.payload m3
    let x5 ← Sx.s8.collect m3 (it4.cache + 1) it4
    Res.assert (decide (x5 = ([0x0, 0x1, 0x2, 0x3, 0x4, 0x5, 0x6, 0x7, 0x8, 0x9, 0xA, 0xB, 0xC, 0xD, 0xE, 0xF, 0x10, 0x11, 0x12, 0x13, 0x14, 0x15, 0x16, 0x17, 0x18, 0x19, 0x1A, 0x1B, 0x1C, 0x1D, 0x1E, 0x1F, 0x20, 0x21, 0x22, 0x23, 0x24, 0x25, 0x26, 0x27, 0x28, 0x29, 0x2A, 0x2B, 0x2C, 0x2D, 0x2E, 0x2F, 0x30, 0x31, 0x5, 0x6, 0x7, 0x8, 0x9, 0xA, 0xB, 0xC, 0xD, 0xE, 0xF, 0x10, 0x11, 0x12, 0x13] : List (BitVec 8))))
    pure () : Res Unit) = .ok () := by decide +kernel

-- sysex8/packet.rs:181 construction
example : (do
    Res.assert ((PacketKind.tryFrom .sysex8 ([0x50010000, 0x0, 0x0, 0x0] : List (BitVec 32))).isOk)
    pure () : Res Unit) = .ok () := by decide +kernel

-- sysex8/packet.rs:188 construction_long_slice
example : (do
    Res.assert ((PacketKind.tryFrom .sysex8 ([0x50010000, 0x0, 0x0, 0x0, 0x0] : List (BitVec 32))).isOk)
    pure () : Res Unit) = .ok () := by decide +kernel

-- sysex8/packet.rs:196 construction_short_slice
example : (do
    Res.assert (decide ((PacketKind.tryFrom .sysex8 ([0x50010000, 0x0, 0x0] : List (BitVec 32))) = (.err .invalidData)))
    pure () : Res Unit) = .ok () := by decide +kernel

-- sysex8/packet.rs:206 construction_incorrect_ump_type
example : (do
    Res.assert (decide ((PacketKind.tryFrom .sysex8 ([0x10000, 0x0, 0x0, 0x0] : List (BitVec 32))) = (.err .invalidData)))
    pure () : Res Unit) = .ok () := by decide +kernel

-- sysex8/packet.rs:216 complete
example : (do
    let x1 ← (PacketKind.tryFrom .sysex8 ([0x50010000, 0x0, 0x0, 0x0] : List (BitVec 32))).unwrap
    let x2 ← Packet.sysexStatus .s8 x1
    Res.assert (decide (x2 = PacketStatus.complete))
    pure () : Res Unit) = .ok () := by decide +kernel

-- sysex8/packet.rs:226 start
example : (do
    let x1 ← (PacketKind.tryFrom .sysex8 ([0x50110000, 0x0, 0x0, 0x0] : List (BitVec 32))).unwrap
    let x2 ← Packet.sysexStatus .s8 x1
    Res.assert (decide (x2 = PacketStatus.start))
    pure () : Res Unit) = .ok () := by decide +kernel

-- sysex8/packet.rs:236 cont
example : (do
    let x1 ← (PacketKind.tryFrom .sysex8 ([0x50210000, 0x0, 0x0, 0x0] : List (BitVec 32))).unwrap
    let x2 ← Packet.sysexStatus .s8 x1
    Res.assert (decide (x2 = PacketStatus.continue_))
    pure () : Res Unit) = .ok () := by decide +kernel

-- sysex8/packet.rs:246 end
example : (do
    let x1 ← (PacketKind.tryFrom .sysex8 ([0x50320001, 0x0, 0x0, 0x0] : List (BitVec 32))).unwrap
    let x2 ← Packet.sysexStatus .s8 x1
    Res.assert (decide (x2 = PacketStatus.end_))
    pure () : Res Unit) = .ok () := by decide +kernel

-- sysex8/packet.rs:256 unexpected_end_valid_data
example : (do
    let x1 ← (PacketKind.tryFrom .sysex8 ([0x50310000, 0x0, 0x0, 0x0] : List (BitVec 32))).unwrap
    let x2 ← Packet.sysexStatus .s8 x1
    Res.assert (decide (x2 = (PacketStatus.unexpectedEnd true)))
    pure () : Res Unit) = .ok () := by decide +kernel

-- sysex8/packet.rs:266 unexpected_end_invalid_data
example : (do
    let x1 ← (PacketKind.tryFrom .sysex8 ([0x503F0000, 0x0, 0x0, 0x0] : List (BitVec 32))).unwrap
    let x2 ← Packet.sysexStatus .s8 x1
    Res.assert (decide (x2 = (PacketStatus.unexpectedEnd false)))
    pure () : Res Unit) = .ok () := by decide +kernel

-- sysex8/packet.rs:276 stream_id
example : (do
    let x1 ← (PacketKind.tryFrom .sysex8 ([0x50010100, 0x0, 0x0, 0x0] : List (BitVec 32))).unwrap
    let x2 ← Packet.streamId x1
    Res.assert (decide (x2 = (0x1 : BitVec 8)))
    pure () : Res Unit) = .ok () := by decide +kernel

-- sysex8/packet.rs:286 group
example : (do
    let x1 ← (PacketKind.tryFrom .sysex8 ([0x5A010000, 0x0, 0x0, 0x0] : List (BitVec 32))).unwrap
    let x2 ← Packet.group x1
    Res.assert (decide (x2 = (0xA : BitVec 4)))
    pure () : Res Unit) = .ok () := by decide +kernel

-- sysex8/packet.rs:298 payload_empty
example : (do
    let x1 ← (PacketKind.tryFrom .sysex8 ([0x50010000, 0x0, 0x0, 0x0] : List (BitVec 32))).unwrap
    let x2 ← Packet.collect true .s8 x1 20 0
    Res.assert (decide (x2 = ([] : List (BitVec 8))))
    pure () : Res Unit) = .ok () := by decide +kernel

-- sysex8/packet.rs:309 payload_one_item
example : (do
    let x1 ← (PacketKind.tryFrom .sysex8 ([0x50020001, 0x0, 0x0, 0x0] : List (BitVec 32))).unwrap
    let x2 ← Packet.collect true .s8 x1 20 0
    Res.assert (decide (x2 = ([0x1] : List (BitVec 8))))
    pure () : Res Unit) = .ok () := by decide +kernel

-- sysex8/packet.rs:320 payload_two_items
example : (do
    let x1 ← (PacketKind.tryFrom .sysex8 ([0x50030001, 0x2000000, 0x0, 0x0] : List (BitVec 32))).unwrap
    let x2 ← Packet.collect true .s8 x1 20 0
    Res.assert (decide (x2 = ([0x1, 0x2] : List (BitVec 8))))
    pure () : Res Unit) = .ok () := by decide +kernel

-- sysex8/packet.rs:331 payload_full
example : (do
    let x1 ← (PacketKind.tryFrom .sysex8 ([0x500E0001, 0x2030405, 0x6070809, 0xA0B0C0D] : List (BitVec 32))).unwrap
    let x2 ← Packet.collect true .s8 x1 20 0
    Res.assert (decide (x2 = ((List.range' 1 13).map (BitVec.ofNat 8))))
    pure () : Res Unit) = .ok () := by decide +kernel

-- sysex8/packet.rs:345 payload_nth_0
example : (do
    let x1 ← (PacketKind.tryFrom .sysex8 ([0x500E0001, 0x2030405, 0x6070809, 0xA0B0C0D] : List (BitVec 32))).unwrap
    let (x2, i3) ← Packet.nth true .s8 x1 0 0
    Res.assert (decide (x2 = (some (0x1 : BitVec 8))))
    pure () : Res Unit) = .ok () := by decide +kernel

-- sysex8/packet.rs:356 payload_nth_1
example : (do
    let x1 ← (PacketKind.tryFrom .sysex8 ([0x500E0001, 0x2030405, 0x6070809, 0xA0B0C0D] : List (BitVec 32))).unwrap
    let (x2, i3) ← Packet.nth true .s8 x1 1 0
    Res.assert (decide (x2 = (some (0x2 : BitVec 8))))
    pure () : Res Unit) = .ok () := by decide +kernel

-- sysex8/packet.rs:367 payload_nth_5
example : (do
    let x1 ← (PacketKind.tryFrom .sysex8 ([0x500E0001, 0x2030405, 0x6070809, 0xA0B0C0D] : List (BitVec 32))).unwrap
    let (x2, i3) ← Packet.nth true .s8 x1 5 0
    Res.assert (decide (x2 = (some (0x6 : BitVec 8))))
    pure () : Res Unit) = .ok () := by decide +kernel

-- sysex8/packet.rs:378 payload_nth_8
example : (do
    let x1 ← (PacketKind.tryFrom .sysex8 ([0x500E0001, 0x2030405, 0x6070809, 0xA0B0C0D] : List (BitVec 32))).unwrap
    let (x2, i3) ← Packet.nth true .s8 x1 8 0
    Res.assert (decide (x2 = (some (0x9 : BitVec 8))))
    pure () : Res Unit) = .ok () := by decide +kernel

-- sysex8/packet.rs:389 payload_nth_11
example : (do
    let x1 ← (PacketKind.tryFrom .sysex8 ([0x500E0001, 0x2030405, 0x6070809, 0xA0B0C0D] : List (BitVec 32))).unwrap
    let (x2, i3) ← Packet.nth true .s8 x1 11 0
    Res.assert (decide (x2 = (some (0xC : BitVec 8))))
    pure () : Res Unit) = .ok () := by decide +kernel

-- sysex8/packet.rs:400 payload_nth_12
example : (do
    let x1 ← (PacketKind.tryFrom .sysex8 ([0x500E0001, 0x2030405, 0x6070809, 0xA0B0C0D] : List (BitVec 32))).unwrap
    let (x2, i3) ← Packet.nth true .s8 x1 12 0
    Res.assert (decide (x2 = (some (0xD : BitVec 8))))
    pure () : Res Unit) = .ok () := by decide +kernel

-- sysex8/packet.rs:411 payload_nth_13
example : (do
    let x1 ← (PacketKind.tryFrom .sysex8 ([0x500E0001, 0x2030405, 0x6070809, 0xA0B0C0D] : List (BitVec 32))).unwrap
    let (x2, i3) ← Packet.nth true .s8 x1 13 0
    Res.assert (decide (x2 = none))
    pure () : Res Unit) = .ok () := by decide +kernel

-- sysex8/packet.rs:422 payload_nth_13_followed_by_next_should_return_none
example : (do
    let x1 ← (PacketKind.tryFrom .sysex8 ([0x500E0001, 0x2030405, 0x6070809, 0xA0B0C0D] : List (BitVec 32))).unwrap
    let (x2, i3) ← Packet.nth true .s8 x1 13 0
    Res.assert (decide (x2 = none))
    let (x4, i5) ← Packet.next true .s8 x1 i3
    Res.assert (decide (x4 = none))
    pure () : Res Unit) = .ok () := by decide +kernel

-- sysex8/packet.rs:431 payload_call_next_and_the_iterator_length_should_be_one_fewer
example : (do
    let x1 ← (PacketKind.tryFrom .sysex8 ([0x500E0001, 0x2030405, 0x6070809, 0xA0B0C0D] : List (BitVec 32))).unwrap
    let x2 ← Packet.len true .s8 x1 0
    Res.assert (decide (x2 = 13))
    let (x3, i4) ← Packet.next true .s8 x1 0
    let x5 ← Packet.len true .s8 x1 i4
    Res.assert (decide (x5 = 12))
    pure () : Res Unit) = .ok () := by decide +kernel

end Midi2.Replay
