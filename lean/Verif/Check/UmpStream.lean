import Verif.Check.Replay

/-!
# Replay of the unit tests of ump_stream

Generated by /verif/replay from the Rust source; see `Verif.Check.Replay`.  These are
71 tests over literals, not proofs.
-/

set_option linter.unusedVariables false

namespace Midi2.Replay

-- ump_stream.rs:443 try_from_data
example : (do
    let x1 ← (StreamText.endpointName.tryFrom ([0xF4035268, 0x7974686D, 0x52657665, 0x6C617469, 0xF8036F6E, 0x3A204265, 0x61747320, 0x4265796F, 0xF8036E64, 0x20426F75, 0x6E646172, 0x696573F0, 0xFC039F8C, 0x8DF09FA5, 0x81F09F9A, 0x80000000] : List (BitVec 32))).unwrap
    Res.assert (decide ((UmpStream.tryFrom ([0xF4035268, 0x7974686D, 0x52657665, 0x6C617469, 0xF8036F6E, 0x3A204265, 0x61747320, 0x4265796F, 0xF8036E64, 0x20426F75, 0x6E646172, 0x696573F0, 0xFC039F8C, 0x8DF09FA5, 0x81F09F9A, 0x80000000] : List (BitVec 32))) = (.ok (UmpKind.streamText StreamText.endpointName, x1))))
    pure () : Res Unit) = .ok () := by decide +kernel

-- ump_stream.rs:492 packets
example : (do
    let x1 ← (UmpStream.tryFrom ([0xF4035268, 0x7974686D, 0x52657665, 0x6C617469, 0xF8036F6E, 0x3A204265, 0x61747320, 0x4265796F, 0xF8036E64, 0x20426F75, 0x6E646172, 0x696573F0, 0xFC039F8C, 0x8DF09FA5, 0x81F09F9A, 0x80000000] : List (BitVec 32))).unwrap
    let x2 ← x1.1.packets x1.2
    let (x3, c4) ← Packet.itNext x2
    let x5 ← unwrapO x3
    Res.assert (decide (x5.2 = ([0xF4035268, 0x7974686D, 0x52657665, 0x6C617469] : List (BitVec 32))))
    let (x6, c7) ← Packet.itNext c4
    let x8 ← unwrapO x6
    Res.assert (decide (x8.2 = ([0xF8036F6E, 0x3A204265, 0x61747320, 0x4265796F] : List (BitVec 32))))
    let (x9, c10) ← Packet.itNext c7
    let x11 ← unwrapO x9
    Res.assert (decide (x11.2 = ([0xF8036E64, 0x20426F75, 0x6E646172, 0x696573F0] : List (BitVec 32))))
    let (x12, c13) ← Packet.itNext c10
    let x14 ← unwrapO x12
    Res.assert (decide (x14.2 = ([0xFC039F8C, 0x8DF09FA5, 0x81F09F9A, 0x80000000] : List (BitVec 32))))
    let (x15, c16) ← Packet.itNext c13
    Res.assert x15.isNone
    pure () : Res Unit) = .ok () := by decide +kernel

-- ump_stream/device_identity.rs:70 builder
example : (do
    let m1 ← Msg.streamDeviceIdentity.newArray .ump 4
    let m2 ← Fld.write .ump (.schema .u7x3 ⟨0, 0x007F7F7F, 0, 0⟩) m1 (((0xF : BitVec 7), (0x33 : BitVec 7), (0x28 : BitVec 7)) : BitVec 7 × BitVec 7 × BitVec 7)
    let m3 ← Fld.write .ump (.schema .u14 ⟨0, 0, 0x7F7F0000, 0⟩) m2 ((0xF4A : BitVec 14) : BitVec 14)
    let m4 ← Fld.write .ump (.schema .u14 ⟨0, 0, 0x00007F7F, 0⟩) m3 ((0x3818 : BitVec 14) : BitVec 14)
    let m5 ← Fld.write .ump (.schema .u7x4 ⟨0, 0, 0, 0x7F7F7F7F⟩) m4 (((0x43 : BitVec 7), (0x54 : BitVec 7), (0x32 : BitVec 7), (0x1 : BitVec 7)) : BitVec 7 × BitVec 7 × BitVec 7 × BitVec 7)
    Res.assert (decide (m5 = ([0xF0020000, 0xF3328, 0x4A1E1870, 0x43543201] : List (BitVec 32))))
    pure () : Res Unit) = .ok () := by decide +kernel

-- ump_stream/device_identity.rs:83 device_manufacturer
example : (do
    let x1 ← (Msg.streamDeviceIdentity.tryFrom .ump ([0xF0020000, 0xF3328, 0x4A1E1870, 0x43543201] : List (BitVec 32))).unwrap
    let x2 : BitVec 7 × BitVec 7 × BitVec 7 ← Fld.read .ump (.schema .u7x3 ⟨0, 0x007F7F7F, 0, 0⟩) x1
    Res.assert (decide (x2 = ((0xF : BitVec 7), (0x33 : BitVec 7), (0x28 : BitVec 7))))
    pure () : Res Unit) = .ok () := by decide +kernel

-- ump_stream/device_identity.rs:93 device_family
example : (do
    let x1 ← (Msg.streamDeviceIdentity.tryFrom .ump ([0xF0020000, 0xF3328, 0x4A1E1870, 0x43543201] : List (BitVec 32))).unwrap
    let x2 : BitVec 14 ← Fld.read .ump (.schema .u14 ⟨0, 0, 0x7F7F0000, 0⟩) x1
    Res.assert (decide (x2 = (0xF4A : BitVec 14)))
    pure () : Res Unit) = .ok () := by decide +kernel

-- ump_stream/device_identity.rs:103 device_family_model_number
example : (do
    let x1 ← (Msg.streamDeviceIdentity.tryFrom .ump ([0xF0020000, 0xF3328, 0x4A1E1870, 0x43543201] : List (BitVec 32))).unwrap
    let x2 : BitVec 14 ← Fld.read .ump (.schema .u14 ⟨0, 0, 0x00007F7F, 0⟩) x1
    Res.assert (decide (x2 = (0x3818 : BitVec 14)))
    pure () : Res Unit) = .ok () := by decide +kernel

-- ump_stream/device_identity.rs:113 software_version
example : (do
    let x1 ← (Msg.streamDeviceIdentity.tryFrom .ump ([0xF0020000, 0xF3328, 0x4A1E1870, 0x43543201] : List (BitVec 32))).unwrap
    let x2 : BitVec 7 × BitVec 7 × BitVec 7 × BitVec 7 ← Fld.read .ump (.schema .u7x4 ⟨0, 0, 0, 0x7F7F7F7F⟩) x1
    Res.assert (decide (x2 = ((0x43 : BitVec 7), (0x54 : BitVec 7), (0x32 : BitVec 7), (0x1 : BitVec 7))))
    pure () : Res Unit) = .ok () := by decide +kernel

-- ump_stream/device_identity.rs:123 packets
example : (do
    let x1 ← (Msg.streamDeviceIdentity.tryFrom .ump ([0xF0020000, 0xF3328, 0x4A1E1870, 0x43543201] : List (BitVec 32))).unwrap
    let x2 ← Msg.streamDeviceIdentity.packets x1
    let (x3, c4) ← Packet.itNext x2
    let x5 ← unwrapO x3
    Res.assert (decide (x5.2 = ([0xF0020000, 0xF3328, 0x4A1E1870, 0x43543201] : List (BitVec 32))))
    let (x6, c7) ← Packet.itNext c4
    Res.assert x6.isNone
    pure () : Res Unit) = .ok () := by decide +kernel

-- ump_stream/end_of_clip.rs:21 setters
example : (do
    let m1 ← Msg.streamEndOfClip.newArray .ump 4
    Res.assert (decide (m1 = ([0xF0210000, 0x0, 0x0, 0x0] : List (BitVec 32))))
    pure () : Res Unit) = .ok () := by decide +kernel

-- ump_stream/end_of_clip.rs:29 from_data
example : (do
    Res.assert (decide ((Msg.streamEndOfClip.tryFrom .ump ([0xF0210000, 0x0, 0x0, 0x0] : List (BitVec 32))) = (.ok ([0xF0210000, 0x0, 0x0, 0x0] : List (BitVec 32)))))
    pure () : Res Unit) = .ok () := by decide +kernel

-- ump_stream/endpoint_discovery.rs:39 builder
example : (do
    let m1 ← Msg.streamEndpointDiscovery.newArray .ump 4
    let m2 ← Fld.write .ump (.schema .u8 ⟨0x0000FF00, 0, 0, 0⟩) m1 ((0x1 : BitVec 8) : BitVec 8)
    let m3 ← Fld.write .ump (.schema .u8 ⟨0x000000FF, 0, 0, 0⟩) m2 ((0x1 : BitVec 8) : BitVec 8)
    let m4 ← Fld.write .ump (.schema .bool ⟨0, 0x00000001, 0, 0⟩) m3 (true : Bool)
    let m5 ← Fld.write .ump (.schema .bool ⟨0, 0x00000002, 0, 0⟩) m4 (true : Bool)
    let m6 ← Fld.write .ump (.schema .bool ⟨0, 0x00000004, 0, 0⟩) m5 (true : Bool)
    let m7 ← Fld.write .ump (.schema .bool ⟨0, 0x00000008, 0, 0⟩) m6 (true : Bool)
    let m8 ← Fld.write .ump (.schema .bool ⟨0, 0x00000010, 0, 0⟩) m7 (true : Bool)
    Res.assert (decide (m8 = ([0xF0000101, 0x1F, 0x0, 0x0] : List (BitVec 32))))
    pure () : Res Unit) = .ok () := by decide +kernel

-- ump_stream/endpoint_discovery.rs:55 ump_version_major
example : (do
    let x1 ← (Msg.streamEndpointDiscovery.tryFrom .ump ([0xF0000101, 0x1F, 0x0, 0x0] : List (BitVec 32))).unwrap
    let x2 : BitVec 8 ← Fld.read .ump (.schema .u8 ⟨0x0000FF00, 0, 0, 0⟩) x1
    Res.assert (decide (x2 = (0x1 : BitVec 8)))
    pure () : Res Unit) = .ok () := by decide +kernel

-- ump_stream/endpoint_discovery.rs:65 ump_version_minor
example : (do
    let x1 ← (Msg.streamEndpointDiscovery.tryFrom .ump ([0xF0000101, 0x1F, 0x0, 0x0] : List (BitVec 32))).unwrap
    let x2 : BitVec 8 ← Fld.read .ump (.schema .u8 ⟨0x000000FF, 0, 0, 0⟩) x1
    Res.assert (decide (x2 = (0x1 : BitVec 8)))
    pure () : Res Unit) = .ok () := by decide +kernel

-- ump_stream/endpoint_discovery.rs:75 request_endpoint_info
example : (do
    let x1 ← (Msg.streamEndpointDiscovery.tryFrom .ump ([0xF0000101, 0x1F, 0x0, 0x0] : List (BitVec 32))).unwrap
    let x2 : Bool ← Fld.read .ump (.schema .bool ⟨0, 0x00000001, 0, 0⟩) x1
    Res.assert (decide (x2 = true))
    pure () : Res Unit) = .ok () := by decide +kernel

-- ump_stream/endpoint_discovery.rs:85 request_device_identity
example : (do
    let x1 ← (Msg.streamEndpointDiscovery.tryFrom .ump ([0xF0000101, 0x1F, 0x0, 0x0] : List (BitVec 32))).unwrap
    let x2 : Bool ← Fld.read .ump (.schema .bool ⟨0, 0x00000002, 0, 0⟩) x1
    Res.assert (decide (x2 = true))
    pure () : Res Unit) = .ok () := by decide +kernel

-- ump_stream/endpoint_discovery.rs:95 request_endpoint_name
example : (do
    let x1 ← (Msg.streamEndpointDiscovery.tryFrom .ump ([0xF0000101, 0x1F, 0x0, 0x0] : List (BitVec 32))).unwrap
    let x2 : Bool ← Fld.read .ump (.schema .bool ⟨0, 0x00000004, 0, 0⟩) x1
    Res.assert (decide (x2 = true))
    pure () : Res Unit) = .ok () := by decide +kernel

-- ump_stream/endpoint_discovery.rs:105 request_product_instance_id
example : (do
    let x1 ← (Msg.streamEndpointDiscovery.tryFrom .ump ([0xF0000101, 0x1F, 0x0, 0x0] : List (BitVec 32))).unwrap
    let x2 : Bool ← Fld.read .ump (.schema .bool ⟨0, 0x00000008, 0, 0⟩) x1
    Res.assert (decide (x2 = true))
    pure () : Res Unit) = .ok () := by decide +kernel

-- ump_stream/endpoint_discovery.rs:115 request_stream_configuration
example : (do
    let x1 ← (Msg.streamEndpointDiscovery.tryFrom .ump ([0xF0000101, 0x1F, 0x0, 0x0] : List (BitVec 32))).unwrap
    let x2 : Bool ← Fld.read .ump (.schema .bool ⟨0, 0x00000010, 0, 0⟩) x1
    Res.assert (decide (x2 = true))
    pure () : Res Unit) = .ok () := by decide +kernel

-- ump_stream/endpoint_info.rs:42 builder
example : (do
    let m1 ← Msg.streamEndpointInfo.newArray .ump 4
    let m2 ← Fld.write .ump (.schema .u8 ⟨0x0000FF00, 0, 0, 0⟩) m1 ((0x1 : BitVec 8) : BitVec 8)
    let m3 ← Fld.write .ump (.schema .u8 ⟨0x000000FF, 0, 0, 0⟩) m2 ((0x1 : BitVec 8) : BitVec 8)
    let m4 ← Fld.write .ump (.schema .bool ⟨0, 0x80000000, 0, 0⟩) m3 (true : Bool)
    let m5 ← Fld.write .ump (.schema .u7 ⟨0, 0x7F000000, 0, 0⟩) m4 ((0x20 : BitVec 7) : BitVec 7)
    let m6 ← Fld.write .ump (.schema .bool ⟨0, 0x00000200, 0, 0⟩) m5 (true : Bool)
    let m7 ← Fld.write .ump (.schema .bool ⟨0, 0x00000100, 0, 0⟩) m6 (true : Bool)
    let m8 ← Fld.write .ump (.schema .bool ⟨0, 0x00000001, 0, 0⟩) m7 (true : Bool)
    let m9 ← Fld.write .ump (.schema .bool ⟨0, 0x00000002, 0, 0⟩) m8 (true : Bool)
    Res.assert (decide (m9 = ([0xF0010101, 0xA0000303, 0x0, 0x0] : List (BitVec 32))))
    pure () : Res Unit) = .ok () := by decide +kernel

-- ump_stream/endpoint_info.rs:65 ump_version_major
example : (do
    let x1 ← (Msg.streamEndpointInfo.tryFrom .ump ([0xF0010101, 0xA0000303, 0x0, 0x0] : List (BitVec 32))).unwrap
    let x2 : BitVec 8 ← Fld.read .ump (.schema .u8 ⟨0x0000FF00, 0, 0, 0⟩) x1
    Res.assert (decide (x2 = (0x1 : BitVec 8)))
    pure () : Res Unit) = .ok () := by decide +kernel

-- ump_stream/endpoint_info.rs:82 ump_version_minor
example : (do
    let x1 ← (Msg.streamEndpointInfo.tryFrom .ump ([0xF0010101, 0xA0000303, 0x0, 0x0] : List (BitVec 32))).unwrap
    let x2 : BitVec 8 ← Fld.read .ump (.schema .u8 ⟨0x000000FF, 0, 0, 0⟩) x1
    Res.assert (decide (x2 = (0x1 : BitVec 8)))
    pure () : Res Unit) = .ok () := by decide +kernel

-- ump_stream/endpoint_info.rs:99 static_function_blocks
example : (do
    let x1 ← (Msg.streamEndpointInfo.tryFrom .ump ([0xF0010101, 0xA0000303, 0x0, 0x0] : List (BitVec 32))).unwrap
    let x2 : Bool ← Fld.read .ump (.schema .bool ⟨0, 0x80000000, 0, 0⟩) x1
    Res.assert (decide (x2 = true))
    pure () : Res Unit) = .ok () := by decide +kernel

-- ump_stream/endpoint_info.rs:116 number_of_function_blocks
example : (do
    let x1 ← (Msg.streamEndpointInfo.tryFrom .ump ([0xF0010101, 0xA0000303, 0x0, 0x0] : List (BitVec 32))).unwrap
    let x2 : BitVec 7 ← Fld.read .ump (.schema .u7 ⟨0, 0x7F000000, 0, 0⟩) x1
    Res.assert (decide (x2 = (0x20 : BitVec 7)))
    pure () : Res Unit) = .ok () := by decide +kernel

-- ump_stream/endpoint_info.rs:133 supports_midi2_protocol
example : (do
    let x1 ← (Msg.streamEndpointInfo.tryFrom .ump ([0xF0010101, 0xA0000303, 0x0, 0x0] : List (BitVec 32))).unwrap
    let x2 : Bool ← Fld.read .ump (.schema .bool ⟨0, 0x00000200, 0, 0⟩) x1
    Res.assert (decide (x2 = true))
    pure () : Res Unit) = .ok () := by decide +kernel

-- ump_stream/endpoint_info.rs:150 supports_midi1_protocol
example : (do
    let x1 ← (Msg.streamEndpointInfo.tryFrom .ump ([0xF0010101, 0xA0000303, 0x0, 0x0] : List (BitVec 32))).unwrap
    let x2 : Bool ← Fld.read .ump (.schema .bool ⟨0, 0x00000100, 0, 0⟩) x1
    Res.assert (decide (x2 = true))
    pure () : Res Unit) = .ok () := by decide +kernel

-- ump_stream/endpoint_info.rs:167 supports_sending_jr_timestamps
example : (do
    let x1 ← (Msg.streamEndpointInfo.tryFrom .ump ([0xF0010101, 0xA0000303, 0x0, 0x0] : List (BitVec 32))).unwrap
    let x2 : Bool ← Fld.read .ump (.schema .bool ⟨0, 0x00000001, 0, 0⟩) x1
    Res.assert (decide (x2 = true))
    pure () : Res Unit) = .ok () := by decide +kernel

-- ump_stream/endpoint_info.rs:184 supports_receiving_jr_timestamps
example : (do
    let x1 ← (Msg.streamEndpointInfo.tryFrom .ump ([0xF0010101, 0xA0000303, 0x0, 0x0] : List (BitVec 32))).unwrap
    let x2 : Bool ← Fld.read .ump (.schema .bool ⟨0, 0x00000002, 0, 0⟩) x1
    Res.assert (decide (x2 = true))
    pure () : Res Unit) = .ok () := by decide +kernel

-- ump_stream/endpoint_name.rs:38 data
example : (do
    let x1 ← (StreamText.endpointName.tryFrom ([0xF4034769, 0x6D6D6520, 0x736F6D65, 0x20736967, 0xFC036E61, 0x6C20F09F, 0x948A20F0, 0x9F998C00] : List (BitVec 32))).unwrap
    let x2 ← StreamText.data x1
    Res.assert (decide (x2 = ([0xF4034769, 0x6D6D6520, 0x736F6D65, 0x20736967, 0xFC036E61, 0x6C20F09F, 0x948A20F0, 0x9F998C00] : List (BitVec 32))))
    pure () : Res Unit) = .ok () := by decide +kernel

-- ump_stream/endpoint_name.rs:69 set_name_and_clear_name
example : (do
    let m1 ← StreamText.endpointName.newVec
    let m2 ← StreamText.endpointName.setText m1 "Gimme some signal 🔊 🙌"
    let m3 ← StreamText.endpointName.setText m2 ""
    Res.assert (decide (m3 = ([0xF0030000, 0x0, 0x0, 0x0] : List (BitVec 32))))
    pure () : Res Unit) = .ok () := by decide +kernel

-- ump_stream/endpoint_name.rs:86 get_name
example : (do
    let x1 ← (StreamText.endpointName.tryFrom ([0xF4034769, 0x6D6D6520, 0x736F6D65, 0x20736967, 0xFC036E61, 0x6C20F09F, 0x948A20F0, 0x9F998C00] : List (BitVec 32))).unwrap
    let x2 ← StreamText.endpointName.text x1
    Res.assert (decide (x2 = "Gimme some signal 🔊 🙌"))
    pure () : Res Unit) = .ok () := by decide +kernel

-- ump_stream/endpoint_name.rs:102 read_empty_bytes
example : (do
    let m1 ← StreamText.endpointName.newVec
    let x2 ← StreamText.endpointName.textBytes m1
    Res.assert (decide (x2 = ([] : List (BitVec 8))))
    pure () : Res Unit) = .ok () := by decide +kernel

-- ump_stream/endpoint_name.rs:112 packets
example : (do
    let x1 ← (StreamText.endpointName.tryFrom ([0xF4034769, 0x6D6D6520, 0x736F6D65, 0x20736967, 0xFC036E61, 0x6C20F09F, 0x948A20F0, 0x9F998C00] : List (BitVec 32))).unwrap
    let x2 ← StreamText.packets x1
    let (x3, c4) ← Packet.itNext x2
    let x5 ← unwrapO x3
    Res.assert (decide (x5.2 = ([0xF4034769, 0x6D6D6520, 0x736F6D65, 0x20736967] : List (BitVec 32))))
    let (x6, c7) ← Packet.itNext c4
    let x8 ← unwrapO x6
    Res.assert (decide (x8.2 = ([0xFC036E61, 0x6C20F09F, 0x948A20F0, 0x9F998C00] : List (BitVec 32))))
    let (x9, c10) ← Packet.itNext c7
    Res.assert x9.isNone
    pure () : Res Unit) = .ok () := by decide +kernel

-- ump_stream/function_block_discovery.rs:32 setters
example : (do
    let m1 ← Msg.streamFunctionBlockDiscovery.newArray .ump 4
    let m2 ← Fld.write .ump (.schema .u8 ⟨0x0000FF00, 0, 0, 0⟩) m1 ((0x9 : BitVec 8) : BitVec 8)
    let m3 ← Fld.write .ump (.schema .bool ⟨0x00000002, 0, 0, 0⟩) m2 (true : Bool)
    let m4 ← Fld.write .ump (.schema .bool ⟨0x00000001, 0, 0, 0⟩) m3 (true : Bool)
    Res.assert (decide (m4 = ([0xF0100903, 0x0, 0x0, 0x0] : List (BitVec 32))))
    pure () : Res Unit) = .ok () := by decide +kernel

-- ump_stream/function_block_discovery.rs:44 function_block_number
example : (do
    let x1 ← (Msg.streamFunctionBlockDiscovery.tryFrom .ump ([0xF0100903] : List (BitVec 32))).unwrap
    let x2 : BitVec 8 ← Fld.read .ump (.schema .u8 ⟨0x0000FF00, 0, 0, 0⟩) x1
    Res.assert (decide (x2 = (0x9 : BitVec 8)))
    pure () : Res Unit) = .ok () := by decide +kernel

-- ump_stream/function_block_discovery.rs:54 requesting_function_block_info
example : (do
    let x1 ← (Msg.streamFunctionBlockDiscovery.tryFrom .ump ([0xF0100903] : List (BitVec 32))).unwrap
    let x2 : Bool ← Fld.read .ump (.schema .bool ⟨0x00000002, 0, 0, 0⟩) x1
    Res.assert (decide (x2 = true))
    pure () : Res Unit) = .ok () := by decide +kernel

-- ump_stream/function_block_discovery.rs:64 requesting_function_block_name
example : (do
    let x1 ← (Msg.streamFunctionBlockDiscovery.tryFrom .ump ([0xF0100903] : List (BitVec 32))).unwrap
    let x2 : Bool ← Fld.read .ump (.schema .bool ⟨0x00000001, 0, 0, 0⟩) x1
    Res.assert (decide (x2 = true))
    pure () : Res Unit) = .ok () := by decide +kernel

-- ump_stream/function_block_info.rs:244 builder
example : (do
    let m1 ← Msg.streamFunctionBlockInfo.newArray .ump 4
    let m2 ← Fld.write .ump (.schema .bool ⟨0x00008000, 0, 0, 0⟩) m1 (true : Bool)
    let m3 ← Fld.write .ump (.schema .u7 ⟨0x00007F00, 0, 0, 0⟩) m2 ((0x11 : BitVec 7) : BitVec 7)
    let m4 ← Fld.write .ump (.schema .u4 ⟨0, 0x0F000000, 0, 0⟩) m3 ((0xD : BitVec 4) : BitVec 4)
    let m5 ← Fld.write .ump (.schema .u8 ⟨0, 0x00FF0000, 0, 0⟩) m4 ((0x8 : BitVec 8) : BitVec 8)
    let m6 ← Fld.write .ump (.schema .u8 ⟨0, 0x0000FF00, 0, 0⟩) m5 ((0x1 : BitVec 8) : BitVec 8)
    let m7 ← Fld.write .ump (.schema .u8 ⟨0, 0x000000FF, 0, 0⟩) m6 ((0x20 : BitVec 8) : BitVec 8)
    let m8 ← Fld.write .ump (.uiHint) m7 (UiHint.senderReceiver : UiHint)
    let m9 ← Fld.write .ump (.midi1Port) m8 ((some Midi1Port.dontRestrictBandwidth) : Option (Midi1Port))
    let m10 ← Fld.write .ump (.direction) m9 (Direction.output : Direction)
    Res.assert (decide (m10 = ([0xF0119136, 0xD080120, 0x0, 0x0] : List (BitVec 32))))
    pure () : Res Unit) = .ok () := by decide +kernel

-- ump_stream/function_block_info.rs:263 active
example : (do
    let x1 ← (Msg.streamFunctionBlockInfo.tryFrom .ump ([0xF0119136, 0xD080120, 0x0, 0x0] : List (BitVec 32))).unwrap
    let x2 : Bool ← Fld.read .ump (.schema .bool ⟨0x00008000, 0, 0, 0⟩) x1
    Res.assert (decide (x2 = true))
    pure () : Res Unit) = .ok () := by decide +kernel

-- ump_stream/function_block_info.rs:273 function_block_number
example : (do
    let x1 ← (Msg.streamFunctionBlockInfo.tryFrom .ump ([0xF0119136, 0xD080120, 0x0, 0x0] : List (BitVec 32))).unwrap
    let x2 : BitVec 7 ← Fld.read .ump (.schema .u7 ⟨0x00007F00, 0, 0, 0⟩) x1
    Res.assert (decide (x2 = (0x11 : BitVec 7)))
    pure () : Res Unit) = .ok () := by decide +kernel

-- ump_stream/function_block_info.rs:283 first_group
example : (do
    let x1 ← (Msg.streamFunctionBlockInfo.tryFrom .ump ([0xF0119136, 0xD080120, 0x0, 0x0] : List (BitVec 32))).unwrap
    let x2 : BitVec 4 ← Fld.read .ump (.schema .u4 ⟨0, 0x0F000000, 0, 0⟩) x1
    Res.assert (decide (x2 = (0xD : BitVec 4)))
    pure () : Res Unit) = .ok () := by decide +kernel

-- ump_stream/function_block_info.rs:293 number_of_groups_spanned
example : (do
    let x1 ← (Msg.streamFunctionBlockInfo.tryFrom .ump ([0xF0119136, 0xD080120, 0x0, 0x0] : List (BitVec 32))).unwrap
    let x2 : BitVec 8 ← Fld.read .ump (.schema .u8 ⟨0, 0x00FF0000, 0, 0⟩) x1
    Res.assert (decide (x2 = (0x8 : BitVec 8)))
    pure () : Res Unit) = .ok () := by decide +kernel

-- ump_stream/function_block_info.rs:303 midi_ci_version
example : (do
    let x1 ← (Msg.streamFunctionBlockInfo.tryFrom .ump ([0xF0119136, 0xD080120, 0x0, 0x0] : List (BitVec 32))).unwrap
    let x2 : BitVec 8 ← Fld.read .ump (.schema .u8 ⟨0, 0x0000FF00, 0, 0⟩) x1
    Res.assert (decide (x2 = (0x1 : BitVec 8)))
    pure () : Res Unit) = .ok () := by decide +kernel

-- ump_stream/function_block_info.rs:313 max_number_of_midi_ci_streams
example : (do
    let x1 ← (Msg.streamFunctionBlockInfo.tryFrom .ump ([0xF0119136, 0xD080120, 0x0, 0x0] : List (BitVec 32))).unwrap
    let x2 : BitVec 8 ← Fld.read .ump (.schema .u8 ⟨0, 0x000000FF, 0, 0⟩) x1
    Res.assert (decide (x2 = (0x20 : BitVec 8)))
    pure () : Res Unit) = .ok () := by decide +kernel

-- ump_stream/function_block_info.rs:323 ui_hint
example : (do
    let x1 ← (Msg.streamFunctionBlockInfo.tryFrom .ump ([0xF0119136, 0xD080120, 0x0, 0x0] : List (BitVec 32))).unwrap
    let x2 : UiHint ← Fld.read .ump (.uiHint) x1
    Res.assert (decide (x2 = UiHint.senderReceiver))
    pure () : Res Unit) = .ok () := by decide +kernel

-- ump_stream/function_block_info.rs:333 midi1_port
example : (do
    let x1 ← (Msg.streamFunctionBlockInfo.tryFrom .ump ([0xF0119136, 0xD080120, 0x0, 0x0] : List (BitVec 32))).unwrap
    let x2 : Option (Midi1Port) ← Fld.read .ump (.midi1Port) x1
    Res.assert (decide (x2 = (some Midi1Port.dontRestrictBandwidth)))
    pure () : Res Unit) = .ok () := by decide +kernel

-- ump_stream/function_block_info.rs:343 direction
example : (do
    let x1 ← (Msg.streamFunctionBlockInfo.tryFrom .ump ([0xF0119136, 0xD080120, 0x0, 0x0] : List (BitVec 32))).unwrap
    let x2 : Direction ← Fld.read .ump (.direction) x1
    Res.assert (decide (x2 = Direction.output))
    pure () : Res Unit) = .ok () := by decide +kernel

-- ump_stream/function_block_name.rs:132 set_name
example : (do
    let m1 ← StreamText.functionBlockName.newVec
    let m2 ← StreamText.functionBlockName.setText m1 "SynthWave🌊²"
    Res.assert (decide ((StreamText.setBlock m2 (0x9 : BitVec 8)) = ([0xF4120953, 0x796E7468, 0x57617665, 0xF09F8C8A, 0xFC1209C2, 0xB2000000, 0x0, 0x0] : List (BitVec 32))))
    pure () : Res Unit) = .ok () := by decide +kernel

-- ump_stream/function_block_name.rs:153 name
example : (do
    let x1 ← (StreamText.functionBlockName.tryFrom ([0xF4120953, 0x796E7468, 0x57617665, 0xF09F8C8A, 0xFC1209C2, 0xB2000000, 0x0, 0x0] : List (BitVec 32))).unwrap
    let x2 ← StreamText.functionBlockName.text x1
    Res.assert (decide (x2 = "SynthWave🌊²"))
    pure () : Res Unit) = .ok () := by decide +kernel

-- ump_stream/function_block_name.rs:174 function_block
example : (do
    let x1 ← (StreamText.functionBlockName.tryFrom ([0xF4120953, 0x796E7468, 0x57617665, 0xF09F8C8A, 0xFC1209C2, 0xB2000000, 0x0, 0x0] : List (BitVec 32))).unwrap
    let x2 ← StreamText.block x1
    Res.assert (decide (x2 = (0x9 : BitVec 8)))
    pure () : Res Unit) = .ok () := by decide +kernel

-- ump_stream/function_block_name.rs:195 read_empty_bytes
example : (do
    let m1 ← StreamText.functionBlockName.newVec
    let x2 ← StreamText.functionBlockName.textBytes m1
    Res.assert (decide (x2 = ([] : List (BitVec 8))))
    pure () : Res Unit) = .ok () := by decide +kernel

-- ump_stream/packet.rs:82 construction
example : (do
    Res.assert ((PacketKind.tryFrom .umpStream ([0xF0000000] : List (BitVec 32))).isOk)
    pure () : Res Unit) = .ok () := by decide +kernel

-- ump_stream/packet.rs:87 construction_long_slice
example : (do
    Res.assert ((PacketKind.tryFrom .umpStream ([0xF0000000, 0x0, 0x0, 0x0] : List (BitVec 32))).isOk)
    pure () : Res Unit) = .ok () := by decide +kernel

-- ump_stream/packet.rs:92 construction_very_long_slice
example : (do
    Res.assert ((PacketKind.tryFrom .umpStream ([0xF0000000, 0x0, 0x0, 0x0, 0x0] : List (BitVec 32))).isOk)
    pure () : Res Unit) = .ok () := by decide +kernel

-- ump_stream/packet.rs:97 construction_short_slice
example : (do
    Res.assert (decide ((PacketKind.tryFrom .umpStream ([] : List (BitVec 32))) = (.err .invalidData)))
    pure () : Res Unit) = .ok () := by decide +kernel

-- ump_stream/packet.rs:107 construction_incorrect_ump_message_type
example : (do
    Res.assert (decide ((PacketKind.tryFrom .umpStream ([0x0, 0x0, 0x0, 0x0] : List (BitVec 32))) = (.err .invalidData)))
    pure () : Res Unit) = .ok () := by decide +kernel

-- ump_stream/packet.rs:117 complete_format
example : (do
    let x1 ← (PacketKind.tryFrom .umpStream ([0xF0000000, 0x0, 0x0, 0x0] : List (BitVec 32))).unwrap
    let x2 ← Packet.streamFormat x1
    Res.assert (decide (x2 = PacketStatus.complete))
    pure () : Res Unit) = .ok () := by decide +kernel

-- ump_stream/packet.rs:127 start_format
example : (do
    let x1 ← (PacketKind.tryFrom .umpStream ([0xF4000000, 0x0, 0x0, 0x0] : List (BitVec 32))).unwrap
    let x2 ← Packet.streamFormat x1
    Res.assert (decide (x2 = PacketStatus.start))
    pure () : Res Unit) = .ok () := by decide +kernel

-- ump_stream/packet.rs:137 continue_format
example : (do
    let x1 ← (PacketKind.tryFrom .umpStream ([0xF8000000, 0x0, 0x0, 0x0] : List (BitVec 32))).unwrap
    let x2 ← Packet.streamFormat x1
    Res.assert (decide (x2 = PacketStatus.continue_))
    pure () : Res Unit) = .ok () := by decide +kernel

-- ump_stream/packet.rs:147 end_format
example : (do
    let x1 ← (PacketKind.tryFrom .umpStream ([0xFC000000, 0x0, 0x0, 0x0] : List (BitVec 32))).unwrap
    let x2 ← Packet.streamFormat x1
    Res.assert (decide (x2 = PacketStatus.end_))
    pure () : Res Unit) = .ok () := by decide +kernel

-- ump_stream/product_instance_id.rs:38 set_id
example : (do
    let m1 ← StreamText.productInstanceId.newVec
    let m2 ← StreamText.productInstanceId.setText m1 "PianoPulse"
    Res.assert (decide (m2 = ([0xF0045069, 0x616E6F50, 0x756C7365, 0x0] : List (BitVec 32))))
    pure () : Res Unit) = .ok () := by decide +kernel

-- ump_stream/product_instance_id.rs:54 id
example : (do
    let x1 ← (StreamText.productInstanceId.tryFrom ([0xF0045069, 0x616E6F50, 0x756C7365, 0x0] : List (BitVec 32))).unwrap
    let x2 ← StreamText.productInstanceId.text x1
    Res.assert (decide (x2 = "PianoPulse"))
    pure () : Res Unit) = .ok () := by decide +kernel

-- ump_stream/start_of_clip.rs:21 builder
example : (do
    let m1 ← Msg.streamStartOfClip.newArray .ump 4
    Res.assert (decide (m1 = ([0xF0200000, 0x0, 0x0, 0x0] : List (BitVec 32))))
    pure () : Res Unit) = .ok () := by decide +kernel

-- ump_stream/start_of_clip.rs:29 from_data
example : (do
    Res.assert (decide ((Msg.streamStartOfClip.tryFrom .ump ([0xF0200000, 0x0, 0x0, 0x0] : List (BitVec 32))) = (.ok ([0xF0200000, 0x0, 0x0, 0x0] : List (BitVec 32)))))
    pure () : Res Unit) = .ok () := by decide +kernel

-- ump_stream/stream_configuration_notification.rs:31 builder
example : (do
    let m1 ← Msg.streamStreamConfigurationNotification.newArray .ump 4
    let m2 ← Fld.write .ump (.schema .u8 ⟨0x0000FF00, 0, 0, 0⟩) m1 ((0x2 : BitVec 8) : BitVec 8)
    let m3 ← Fld.write .ump (.schema .bool ⟨0x00000002, 0, 0, 0⟩) m2 (true : Bool)
    let m4 ← Fld.write .ump (.schema .bool ⟨0x00000001, 0, 0, 0⟩) m3 (true : Bool)
    Res.assert (decide (m4 = ([0xF0060203, 0x0, 0x0, 0x0] : List (BitVec 32))))
    pure () : Res Unit) = .ok () := by decide +kernel

-- ump_stream/stream_configuration_notification.rs:43 protocol
example : (do
    let x1 ← (Msg.streamStreamConfigurationNotification.tryFrom .ump ([0xF0060203, 0x0, 0x0, 0x0] : List (BitVec 32))).unwrap
    let x2 : BitVec 8 ← Fld.read .ump (.schema .u8 ⟨0x0000FF00, 0, 0, 0⟩) x1
    Res.assert (decide (x2 = (0x2 : BitVec 8)))
    pure () : Res Unit) = .ok () := by decide +kernel

-- ump_stream/stream_configuration_notification.rs:53 receive_jr_timestamps
example : (do
    let x1 ← (Msg.streamStreamConfigurationNotification.tryFrom .ump ([0xF0060203, 0x0, 0x0, 0x0] : List (BitVec 32))).unwrap
    let x2 : Bool ← Fld.read .ump (.schema .bool ⟨0x00000002, 0, 0, 0⟩) x1
    Res.assert (decide (x2 = true))
    pure () : Res Unit) = .ok () := by decide +kernel

-- ump_stream/stream_configuration_notification.rs:63 send_jr_timestamps
example : (do
    let x1 ← (Msg.streamStreamConfigurationNotification.tryFrom .ump ([0xF0060203, 0x0, 0x0, 0x0] : List (BitVec 32))).unwrap
    let x2 : Bool ← Fld.read .ump (.schema .bool ⟨0x00000001, 0, 0, 0⟩) x1
    Res.assert (decide (x2 = true))
    pure () : Res Unit) = .ok () := by decide +kernel

-- ump_stream/stream_configuration_request.rs:31 builder
example : (do
    let m1 ← Msg.streamStreamConfigurationRequest.newArray .ump 4
    let m2 ← Fld.write .ump (.schema .u8 ⟨0x0000FF00, 0, 0, 0⟩) m1 ((0x2 : BitVec 8) : BitVec 8)
    let m3 ← Fld.write .ump (.schema .bool ⟨0x00000002, 0, 0, 0⟩) m2 (true : Bool)
    let m4 ← Fld.write .ump (.schema .bool ⟨0x00000001, 0, 0, 0⟩) m3 (true : Bool)
    Res.assert (decide (m4 = ([0xF0050203, 0x0, 0x0, 0x0] : List (BitVec 32))))
    pure () : Res Unit) = .ok () := by decide +kernel

-- ump_stream/stream_configuration_request.rs:43 protocol
example : (do
    let x1 ← (Msg.streamStreamConfigurationRequest.tryFrom .ump ([0xF0050203, 0x0, 0x0, 0x0] : List (BitVec 32))).unwrap
    let x2 : BitVec 8 ← Fld.read .ump (.schema .u8 ⟨0x0000FF00, 0, 0, 0⟩) x1
    Res.assert (decide (x2 = (0x2 : BitVec 8)))
    pure () : Res Unit) = .ok () := by decide +kernel

-- ump_stream/stream_configuration_request.rs:53 receive_jr_timestamps
example : (do
    let x1 ← (Msg.streamStreamConfigurationRequest.tryFrom .ump ([0xF0050203, 0x0, 0x0, 0x0] : List (BitVec 32))).unwrap
    let x2 : Bool ← Fld.read .ump (.schema .bool ⟨0x00000002, 0, 0, 0⟩) x1
    Res.assert (decide (x2 = true))
    pure () : Res Unit) = .ok () := by decide +kernel

-- ump_stream/stream_configuration_request.rs:63 send_jr_timestamps
example : (do
    let x1 ← (Msg.streamStreamConfigurationRequest.tryFrom .ump ([0xF0050203, 0x0, 0x0, 0x0] : List (BitVec 32))).unwrap
    let x2 : Bool ← Fld.read .ump (.schema .bool ⟨0x00000001, 0, 0, 0⟩) x1
    Res.assert (decide (x2 = true))
    pure () : Res Unit) = .ok () := by decide +kernel

end Midi2.Replay
