import Verif.Check.Replay

/-!
# Replay of the unit tests of ci

Generated by /verif/replay from the Rust source; see `Verif.Check.Replay`.  These are
25 tests over literals, not proofs.
-/

set_option linter.unusedVariables false

namespace Midi2.Replay

-- ci/discovery.rs:293 setters
example : (do
    let m1 ← Ci.newVec 2
    let m2 ← Ci.set .source m1 ((0xB48D9D9 : BitVec 28) : BitVec 28)
    let m3 ← Ci.set .deviceManufacturer m2 (((0x21 : BitVec 7), (0x66 : BitVec 7), (0x61 : BitVec 7)) : BitVec 7 × BitVec 7 × BitVec 7)
    let m4 ← Ci.set .deviceFamily m3 ((0x278A : BitVec 14) : BitVec 14)
    let m5 ← Ci.set .modelNumber m4 ((0x2269 : BitVec 14) : BitVec 14)
    let m6 ← Ci.set .softwareVersion m5 (((0x30 : BitVec 7), (0x49 : BitVec 7), (0xB : BitVec 7), (0x63 : BitVec 7)) : BitVec 7 × BitVec 7 × BitVec 7 × BitVec 7)
    let m7 ← Ci.set .processInquirySupported m6 (true : Bool)
    let m8 ← Ci.set .propertyExchangeSupported m7 (true : Bool)
    let m9 ← Ci.set .profileConfigurationSupported m8 (true : Bool)
    let m10 ← Ci.set .protocolNegotiationSupported m9 (true : Bool)
    let m11 ← Ci.set .maxSysexSize m10 ((0xEF6EFE2 : BitVec 28) : BitVec 28)
    let m12 ← Ci.set .outputPathId m11 ((0x25 : BitVec 7) : BitVec 7)
    let x13 ← Ci.data m12
    Res.assert (decide (x13 = ([0xF0, 0x7E, 0x7F, 0xD, 0x70, 0x2, 0x59, 0x33, 0x23, 0x5A, 0x7F, 0x7F, 0x7F, 0x7F, 0x21, 0x66, 0x61, 0xA, 0x4F, 0x69, 0x44, 0x30, 0x49, 0xB, 0x63, 0x1E, 0x62, 0x5F, 0x5B, 0x77, 0x25, 0xF7] : List (BitVec 8))))
    pure () : Res Unit) = .ok () := by decide +kernel

-- ci/discovery.rs:354 new
example : (do
    let m1 ← Ci.newVec 2
    let x2 ← Ci.data m1
    Res.assert (decide (x2 = ([0xF0, 0x7E, 0x7F, 0xD, 0x70, 0x2, 0x0, 0x0, 0x0, 0x0, 0x7F, 0x7F, 0x7F, 0x7F, 0x0, 0x0, 0x0, 0x0, 0x0, 0x0, 0x0, 0x0, 0x0, 0x0, 0x0, 0x0, 0x0, 0x0, 0x0, 0x0, 0x0, 0xF7] : List (BitVec 8))))
    pure () : Res Unit) = .ok () := by decide +kernel

-- ci/discovery.rs:369 try_new_with_buffer
example : (do
    let x1 ← (Ci.tryNewWithBuffer 2 (List.replicate 50 (0x0 : BitVec 8))).unwrap
    let x2 ← Ci.data x1
    Res.assert (decide (x2 = ([0xF0, 0x7E, 0x7F, 0xD, 0x70, 0x2, 0x0, 0x0, 0x0, 0x0, 0x7F, 0x7F, 0x7F, 0x7F, 0x0, 0x0, 0x0, 0x0, 0x0, 0x0, 0x0, 0x0, 0x0, 0x0, 0x0, 0x0, 0x0, 0x0, 0x0, 0x0, 0x0, 0xF7] : List (BitVec 8))))
    pure () : Res Unit) = .ok () := by decide +kernel

-- ci/discovery.rs:385 new_with_buffer_dirty
example : (do
    let m1 ← (Ci.newWithBuffer 2 ((List.range 50).map (BitVec.ofNat 8)))
    let x2 ← Ci.data m1
    Res.assert (decide (x2 = ([0xF0, 0x7E, 0x7F, 0xD, 0x70, 0x2, 0x0, 0x0, 0x0, 0x0, 0x7F, 0x7F, 0x7F, 0x7F, 0x0, 0x0, 0x0, 0x0, 0x0, 0x0, 0x0, 0x0, 0x0, 0x0, 0x0, 0x0, 0x0, 0x0, 0x0, 0x0, 0x0, 0xF7] : List (BitVec 8))))
    pure () : Res Unit) = .ok () := by decide +kernel

-- ci/discovery.rs:401 try_new
example : (do
    let x1 ← (Ci.tryNew 2 32).unwrap
    let x2 ← Ci.data x1
    Res.assert (decide (x2 = ([0xF0, 0x7E, 0x7F, 0xD, 0x70, 0x2, 0x0, 0x0, 0x0, 0x0, 0x7F, 0x7F, 0x7F, 0x7F, 0x0, 0x0, 0x0, 0x0, 0x0, 0x0, 0x0, 0x0, 0x0, 0x0, 0x0, 0x0, 0x0, 0x0, 0x0, 0x0, 0x0, 0xF7] : List (BitVec 8))))
    pure () : Res Unit) = .ok () := by decide +kernel

-- ci/discovery.rs:416 try_new_v1
example : (do
    let x1 ← (Ci.tryNew 1 31).unwrap
    let x2 ← Ci.data x1
    Res.assert (decide (x2 = ([0xF0, 0x7E, 0x7F, 0xD, 0x70, 0x1, 0x0, 0x0, 0x0, 0x0, 0x7F, 0x7F, 0x7F, 0x7F, 0x0, 0x0, 0x0, 0x0, 0x0, 0x0, 0x0, 0x0, 0x0, 0x0, 0x0, 0x0, 0x0, 0x0, 0x0, 0x0, 0xF7] : List (BitVec 8))))
    pure () : Res Unit) = .ok () := by decide +kernel

-- ci/discovery.rs:431 new_v1
example : (do
    let m1 ← Ci.newVec 1
    let x2 ← Ci.data m1
    Res.assert (decide (x2 = ([0xF0, 0x7E, 0x7F, 0xD, 0x70, 0x1, 0x0, 0x0, 0x0, 0x0, 0x7F, 0x7F, 0x7F, 0x7F, 0x0, 0x0, 0x0, 0x0, 0x0, 0x0, 0x0, 0x0, 0x0, 0x0, 0x0, 0x0, 0x0, 0x0, 0x0, 0x0, 0xF7] : List (BitVec 8))))
    pure () : Res Unit) = .ok () := by decide +kernel

-- ci/discovery.rs:446 try_from_slice
example : (do
    let x1 ← (Ci.tryFrom 2 ([0xF0, 0x7E, 0x7F, 0xD, 0x70, 0x2, 0x0, 0x0, 0x0, 0x0, 0x7F, 0x7F, 0x7F, 0x7F, 0x0, 0x0, 0x0, 0x0, 0x0, 0x0, 0x0, 0x0, 0x0, 0x0, 0x0, 0x0, 0x0, 0x0, 0x0, 0x0, 0x0, 0xF7] : List (BitVec 8))).unwrap
    pure () : Res Unit) = .ok () := by decide +kernel

-- ci/discovery.rs:458 rebuffer_from
example : (do
    let x1 ← (Ci.tryFrom 2 ([0xF0, 0x7E, 0x7F, 0xD, 0x70, 0x2, 0x0, 0x0, 0x0, 0x0, 0x7F, 0x7F, 0x7F, 0x7F, 0x0, 0x0, 0x0, 0x0, 0x0, 0x0, 0x0, 0x0, 0x0, 0x0, 0x0, 0x0, 0x0, 0x0, 0x0, 0x0, 0x0, 0xF7] : List (BitVec 8))).unwrap
    let m2 ← ((BytesKind.sysex7).rebufferFrom x1)
    let x3 ← Ci.data x1
    let x4 ← Ci.data m2
    Res.assert (decide (x3 = x4))
    pure () : Res Unit) = .ok () := by decide +kernel

-- ci/discovery.rs:476 try_rebuffer_from
example : (do
    let x1 ← (Ci.tryFrom 2 ([0xF0, 0x7E, 0x7F, 0xD, 0x70, 0x2, 0x0, 0x0, 0x0, 0x0, 0x7F, 0x7F, 0x7F, 0x7F, 0x0, 0x0, 0x0, 0x0, 0x0, 0x0, 0x0, 0x0, 0x0, 0x0, 0x0, 0x0, 0x0, 0x0, 0x0, 0x0, 0x0, 0xF7] : List (BitVec 8))).unwrap
    let x2 ← ((BytesKind.sysex7).tryRebufferArray 32 x1).unwrap
    let x3 ← Ci.data x1
    let x4 ← Ci.data x2
    Res.assert (decide (x3 = x4))
    pure () : Res Unit) = .ok () := by decide +kernel

-- ci/discovery.rs:495 try_from_slice_v1
example : (do
    let x1 ← (Ci.tryFrom 1 ([0xF0, 0x7E, 0x7F, 0xD, 0x70, 0x1, 0x0, 0x0, 0x0, 0x0, 0x7F, 0x7F, 0x7F, 0x7F, 0x0, 0x0, 0x0, 0x0, 0x0, 0x0, 0x0, 0x0, 0x0, 0x0, 0x0, 0x0, 0x0, 0x0, 0x0, 0x0, 0xF7] : List (BitVec 8))).unwrap
    pure () : Res Unit) = .ok () := by decide +kernel

-- ci/discovery.rs:507 source
example : (do
    let m1 ← Ci.newVec 2
    let m2 ← Ci.set .source m1 ((0xEAEB42D : BitVec 28) : BitVec 28)
    let x3 : BitVec 28 ← Ci.get .source m2
    Res.assert (decide (x3 = (0xEAEB42D : BitVec 28)))
    pure () : Res Unit) = .ok () := by decide +kernel

-- ci/discovery.rs:515 destination
example : (do
    let m1 ← Ci.newVec 2
    let x2 ← Ci.destination m1
    Res.assert (decide (x2 = (0xFFFFFFF : BitVec 28)))
    pure () : Res Unit) = .ok () := by decide +kernel

-- ci/discovery.rs:522 device_id
example : (do
    let m1 ← Ci.newVec 2
    let x2 ← Ci.deviceId m1
    Res.assert (decide (x2 = DeviceId.functionBlock))
    pure () : Res Unit) = .ok () := by decide +kernel

-- ci/discovery.rs:529 device_manufactuter
example : (do
    let m1 ← Ci.newVec 2
    let m2 ← Ci.set .deviceManufacturer m1 (((0x47 : BitVec 7), (0x13 : BitVec 7), (0x1 : BitVec 7)) : BitVec 7 × BitVec 7 × BitVec 7)
    let x3 : BitVec 7 × BitVec 7 × BitVec 7 ← Ci.get .deviceManufacturer m2
    Res.assert (decide (x3 = ((0x47 : BitVec 7), (0x13 : BitVec 7), (0x1 : BitVec 7))))
    let x4 ← Ci.data m2
    Res.assert (decide (((x4.take 17).drop 14) = ([0x47, 0x13, 0x1] : List (BitVec 8))))
    pure () : Res Unit) = .ok () := by decide +kernel

-- ci/discovery.rs:542 device_manufactuter_v1
example : (do
    let m1 ← Ci.newVec 1
    let m2 ← Ci.set .deviceManufacturer m1 (((0x47 : BitVec 7), (0x13 : BitVec 7), (0x1 : BitVec 7)) : BitVec 7 × BitVec 7 × BitVec 7)
    let x3 : BitVec 7 × BitVec 7 × BitVec 7 ← Ci.get .deviceManufacturer m2
    Res.assert (decide (x3 = ((0x47 : BitVec 7), (0x13 : BitVec 7), (0x1 : BitVec 7))))
    let x4 ← Ci.data m2
    Res.assert (decide (((x4.take 17).drop 14) = ([0x47, 0x13, 0x1] : List (BitVec 8))))
    pure () : Res Unit) = .ok () := by decide +kernel

-- ci/discovery.rs:554 device_family
example : (do
    let m1 ← Ci.newVec 2
    let m2 ← Ci.set .deviceFamily m1 ((0x15FE : BitVec 14) : BitVec 14)
    let x3 : BitVec 14 ← Ci.get .deviceFamily m2
    Res.assert (decide (x3 = (0x15FE : BitVec 14)))
    let x4 ← Ci.data m2
    Res.assert (decide (((x4.take 19).drop 17) = ([0x7E, 0x2B] : List (BitVec 8))))
    pure () : Res Unit) = .ok () := by decide +kernel

-- ci/discovery.rs:566 device_model_number
example : (do
    let m1 ← Ci.newVec 2
    let m2 ← Ci.set .modelNumber m1 ((0x6B8 : BitVec 14) : BitVec 14)
    let x3 : BitVec 14 ← Ci.get .modelNumber m2
    Res.assert (decide (x3 = (0x6B8 : BitVec 14)))
    let x4 ← Ci.data m2
    Res.assert (decide (((x4.take 21).drop 19) = ([0x38, 0xD] : List (BitVec 8))))
    pure () : Res Unit) = .ok () := by decide +kernel

-- ci/discovery.rs:578 software_version
example : (do
    let m1 ← Ci.newVec 2
    let m2 ← Ci.set .softwareVersion m1 (((0x53 : BitVec 7), (0x15 : BitVec 7), (0x75 : BitVec 7), (0x19 : BitVec 7)) : BitVec 7 × BitVec 7 × BitVec 7 × BitVec 7)
    let x3 : BitVec 7 × BitVec 7 × BitVec 7 × BitVec 7 ← Ci.get .softwareVersion m2
    Res.assert (decide (x3 = ((0x53 : BitVec 7), (0x15 : BitVec 7), (0x75 : BitVec 7), (0x19 : BitVec 7))))
    let x4 ← Ci.data m2
    Res.assert (decide (((x4.take 25).drop 21) = ([0x53, 0x15, 0x75, 0x19] : List (BitVec 8))))
    pure () : Res Unit) = .ok () := by decide +kernel

-- ci/discovery.rs:595 process_inquiry_supported
example : (do
    let m1 ← Ci.newVec 2
    let x2 : Bool ← Ci.get .processInquirySupported m1
    Res.assert ((!x2))
    let m3 ← Ci.set .processInquirySupported m1 (true : Bool)
    let x4 : Bool ← Ci.get .processInquirySupported m3
    Res.assert (x4)
    let x5 ← Ci.data m3
    let x6 ← at' x5 25
    Res.assert (decide (x6 = (0x10 : BitVec 8)))
    pure () : Res Unit) = .ok () := by decide +kernel

-- ci/discovery.rs:608 profile_configuration_supported
example : (do
    let m1 ← Ci.newVec 2
    let x2 : Bool ← Ci.get .profileConfigurationSupported m1
    Res.assert ((!x2))
    let m3 ← Ci.set .profileConfigurationSupported m1 (true : Bool)
    let x4 : Bool ← Ci.get .profileConfigurationSupported m3
    Res.assert (x4)
    let x5 ← Ci.data m3
    let x6 ← at' x5 25
    Res.assert (decide (x6 = (0x4 : BitVec 8)))
    pure () : Res Unit) = .ok () := by decide +kernel

-- ci/discovery.rs:621 property_exchange_supported
example : (do
    let m1 ← Ci.newVec 2
    let x2 : Bool ← Ci.get .propertyExchangeSupported m1
    Res.assert ((!x2))
    let m3 ← Ci.set .propertyExchangeSupported m1 (true : Bool)
    let x4 : Bool ← Ci.get .propertyExchangeSupported m3
    Res.assert (x4)
    let x5 ← Ci.data m3
    let x6 ← at' x5 25
    Res.assert (decide (x6 = (0x8 : BitVec 8)))
    pure () : Res Unit) = .ok () := by decide +kernel

-- ci/discovery.rs:634 protocol_negotiation_supported
example : (do
    let m1 ← Ci.newVec 2
    let x2 : Bool ← Ci.get .protocolNegotiationSupported m1
    Res.assert ((!x2))
    let m3 ← Ci.set .protocolNegotiationSupported m1 (true : Bool)
    let x4 : Bool ← Ci.get .protocolNegotiationSupported m3
    Res.assert (x4)
    let x5 ← Ci.data m3
    let x6 ← at' x5 25
    Res.assert (decide (x6 = (0x2 : BitVec 8)))
    pure () : Res Unit) = .ok () := by decide +kernel

-- ci/discovery.rs:647 max_sysex_size
example : (do
    let m1 ← Ci.newVec 2
    let m2 ← Ci.set .maxSysexSize m1 ((0xB3ABD1C : BitVec 28) : BitVec 28)
    let x3 : BitVec 28 ← Ci.get .maxSysexSize m2
    Res.assert (decide (x3 = (0xB3ABD1C : BitVec 28)))
    let x4 ← Ci.data m2
    Res.assert (decide (((x4.take 30).drop 26) = ([0x1C, 0x7A, 0x6A, 0x59] : List (BitVec 8))))
    pure () : Res Unit) = .ok () := by decide +kernel

-- ci/discovery.rs:659 output_path_id
example : (do
    let m1 ← Ci.newVec 2
    let m2 ← Ci.set .outputPathId m1 ((0x8 : BitVec 7) : BitVec 7)
    let x3 : BitVec 7 ← Ci.get .outputPathId m2
    Res.assert (decide (x3 = (0x8 : BitVec 7)))
    let x4 ← Ci.data m2
    let x5 ← at' x4 30
    Res.assert (decide (x5 = ((0x8 : BitVec 7).setWidth 8)))
    pure () : Res Unit) = .ok () := by decide +kernel

end Midi2.Replay
