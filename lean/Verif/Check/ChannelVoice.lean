import Verif.Check.Replay

/-!
# Replay of the unit tests of channel_voice1 and channel_voice2

Generated by /verif/replay from the Rust source; see `Verif.Check.Replay`.  These are
178 tests over literals, not proofs.
-/

set_option linter.unusedVariables false

namespace Midi2.Replay

-- channel_voice1.rs:103 channel
example : (do
    let x1 ← (ChannelVoice1.tryFrom .ump ([0x2FD60900] : List (BitVec 32))).unwrap
    let x2 ← ChannelVoice1.channel .ump x1
    Res.assert (decide (x2 = (0x6 : BitVec 4)))
    pure () : Res Unit) = .ok () := by decide +kernel

-- channel_voice1.rs:113 channel_bytes
example : (do
    let x1 ← (ChannelVoice1.tryFrom .bytes ([0xD6, 0x9] : List (BitVec 8))).unwrap
    let x2 ← ChannelVoice1.channel .bytes x1
    Res.assert (decide (x2 = (0x6 : BitVec 4)))
    pure () : Res Unit) = .ok () := by decide +kernel

-- channel_voice1.rs:123 group
example : (do
    let x1 ← (ChannelVoice1.tryFrom .ump ([0x2FD60900] : List (BitVec 32))).unwrap
    let x2 ← FixedEnum.group x1
    Res.assert (decide (x2 = (0xF : BitVec 4)))
    pure () : Res Unit) = .ok () := by decide +kernel

-- channel_voice1.rs:133 from_bytes
example : (do
    let x1 ← (ChannelVoice1.tryFrom .bytes ([0xD6, 0x9] : List (BitVec 8))).unwrap
    let x2 ← HybridEnum.convertVec .bytes .ump x1
    let x3 ← x2.1.data .ump x2.2
    Res.assert (decide (x3 = ([0x20D60900] : List (BitVec 32))))
    pure () : Res Unit) = .ok () := by decide +kernel

-- channel_voice1.rs:141 from_ump
example : (do
    let x1 ← (ChannelVoice1.tryFrom .ump ([0x20D60900] : List (BitVec 32))).unwrap
    let x2 ← HybridEnum.convertVec .ump .bytes x1
    let x3 ← x2.1.data .bytes x2.2
    Res.assert (decide (x3 = ([0xD6, 0x9] : List (BitVec 8))))
    pure () : Res Unit) = .ok () := by decide +kernel

-- channel_voice1.rs:149 try_from_bytes
example : (do
    let x1 ← (ChannelVoice1.tryFrom .bytes ([0xD6, 0x9] : List (BitVec 8))).unwrap
    let x2 ← (HybridEnum.tryConvertArray .bytes .ump 5 x1).unwrap
    let x3 ← x2.1.data .ump x2.2
    Res.assert (decide (x3 = ([0x20D60900] : List (BitVec 32))))
    pure () : Res Unit) = .ok () := by decide +kernel

-- channel_voice1.rs:157 try_from_ump
example : (do
    let x1 ← (ChannelVoice1.tryFrom .ump ([0x20D60900] : List (BitVec 32))).unwrap
    let x2 ← (HybridEnum.tryConvertArray .ump .bytes 3 x1).unwrap
    let x3 ← x2.1.data .bytes x2.2
    Res.assert (decide (x3 = ([0xD6, 0x9] : List (BitVec 8))))
    pure () : Res Unit) = .ok () := by decide +kernel

-- channel_voice1.rs:165 copy
example : (do
    let x1 ← (ChannelVoice1.tryFrom .ump ([0x20D60900] : List (BitVec 32))).unwrap
    let x2 ← x1.1.data .ump x1.2
    let x3 ← x1.1.data .ump x1.2
    Res.assert (decide (x2 = x3))
    pure () : Res Unit) = .ok () := by decide +kernel

-- channel_voice1.rs:173 rebuffer_into
example : (do
    let x1 ← (ChannelVoice1.tryFrom .ump ([0x2FD60900] : List (BitVec 32))).unwrap
    let x2 ← UmpMessage.rebufferFrom (asUmp x1)
    let x3 ← x2.1.data x2.2
    Res.assert (decide (x3 = ([0x2FD60900] : List (BitVec 32))))
    pure () : Res Unit) = .ok () := by decide +kernel

-- channel_voice1.rs:182 try_rebuffer_into
example : (do
    let x1 ← (ChannelVoice1.tryFrom .ump ([0x2FD60900] : List (BitVec 32))).unwrap
    let x2 ← (UmpMessage.tryRebufferArray 4 (asUmp x1)).unwrap
    let x3 ← x2.1.data x2.2
    Res.assert (decide (x3 = ([0x2FD60900] : List (BitVec 32))))
    pure () : Res Unit) = .ok () := by decide +kernel

-- channel_voice1.rs:191 packets
example : (do
    let x1 ← (ChannelVoice1.tryFrom .ump ([0x2FD60900] : List (BitVec 32))).unwrap
    let x2 ← x1.1.packets x1.2
    let (x3, c4) ← Packet.itNext x2
    let x5 ← unwrapO x3
    Res.assert (decide (x5.2 = ([0x2FD60900] : List (BitVec 32))))
    let (x6, c7) ← Packet.itNext c4
    Res.assert x6.isNone
    pure () : Res Unit) = .ok () := by decide +kernel

-- channel_voice1.rs:199 rebuffer_from_array
example : (do
    let x1 ← (ChannelVoice1.tryFrom .ump ([0x2FD60900] : List (BitVec 32))).unwrap
    let x2 ← FixedEnum.arrayRebuffer .ump 4 x1
    pure () : Res Unit) = .ok () := by decide +kernel

-- channel_voice1.rs:205 rebuffer_from_array_small
example : (do
    let x1 ← (ChannelVoice1.tryFrom .ump ([0x2FD60900] : List (BitVec 32))).unwrap
    let x2 ← FixedEnum.arrayRebuffer .ump 1 x1
    pure () : Res Unit) = .ok () := by decide +kernel

-- channel_voice1.rs:211 rebuffer_from_array_bytes
example : (do
    let x1 ← (ChannelVoice1.tryFrom .bytes ([0xD6, 0x9] : List (BitVec 8))).unwrap
    let x2 ← FixedEnum.arrayRebuffer .bytes 3 x1
    pure () : Res Unit) = .ok () := by decide +kernel

-- channel_voice1/channel_pressure.rs:44 new_arr
example : (do
    let m1 ← Msg.cv1ChannelPressure.newArray .ump 1
    Res.assert (decide (m1 = ([0x20D00000] : List (BitVec 32))))
    pure () : Res Unit) = .ok () := by decide +kernel

-- channel_voice1/channel_pressure.rs:52 new_arr_bytes
example : (do
    let m1 ← Msg.cv1ChannelPressure.newArray .bytes 2
    Res.assert (decide (m1 = ([0xD0, 0x0] : List (BitVec 8))))
    pure () : Res Unit) = .ok () := by decide +kernel

-- channel_voice1/channel_pressure.rs:60 setters
example : (do
    let m1 ← Msg.cv1ChannelPressure.newArray .ump 4
    let m2 ← Fld.write .ump (.schema .u4 ⟨0x0F000000, 0, 0, 0⟩) m1 ((0xF : BitVec 4) : BitVec 4)
    let m3 ← Fld.write .ump (.hybrid .u4 ⟨0x0F, 0, 0⟩ ⟨0x000F0000, 0, 0, 0⟩) m2 ((0x6 : BitVec 4) : BitVec 4)
    let m4 ← Fld.write .ump (.hybrid .u7 ⟨0, 0x7F, 0⟩ ⟨0x00007F00, 0, 0, 0⟩) m3 ((0x9 : BitVec 7) : BitVec 7)
    Res.assert (decide (m4 = ([0x2FD60900, 0x0, 0x0, 0x0] : List (BitVec 32))))
    pure () : Res Unit) = .ok () := by decide +kernel

-- channel_voice1/channel_pressure.rs:69 setters_bytes
example : (do
    let m1 ← Msg.cv1ChannelPressure.newArray .bytes 3
    let m2 ← Fld.write .bytes (.hybrid .u4 ⟨0x0F, 0, 0⟩ ⟨0x000F0000, 0, 0, 0⟩) m1 ((0x6 : BitVec 4) : BitVec 4)
    let m3 ← Fld.write .bytes (.hybrid .u7 ⟨0, 0x7F, 0⟩ ⟨0x00007F00, 0, 0, 0⟩) m2 ((0x9 : BitVec 7) : BitVec 7)
    Res.assert (decide (m3 = ([0xD6, 0x9, 0x0] : List (BitVec 8))))
    pure () : Res Unit) = .ok () := by decide +kernel

-- channel_voice1/channel_pressure.rs:77 group
example : (do
    let x1 ← (Msg.cv1ChannelPressure.tryFrom .ump ([0x2FD60900] : List (BitVec 32))).unwrap
    let x2 : BitVec 4 ← Fld.read .ump (.schema .u4 ⟨0x0F000000, 0, 0, 0⟩) x1
    Res.assert (decide (x2 = (0xF : BitVec 4)))
    pure () : Res Unit) = .ok () := by decide +kernel

-- channel_voice1/channel_pressure.rs:87 from_outsized_data
example : (do
    Res.assert (decide ((Msg.cv1ChannelPressure.tryFrom .ump ([0x20D00000, 0x0] : List (BitVec 32))) = (.ok ([0x20D00000, 0x0] : List (BitVec 32)))))
    pure () : Res Unit) = .ok () := by decide +kernel

-- channel_voice1/channel_pressure.rs:95 from_empty_data
example : (do
    Res.assert (decide ((Msg.cv1ChannelPressure.tryFrom .ump ([] : List (BitVec 32))) = (.err .invalidData)))
    pure () : Res Unit) = .ok () := by decide +kernel

-- channel_voice1/channel_pressure.rs:105 channel
example : (do
    let x1 ← (Msg.cv1ChannelPressure.tryFrom .ump ([0x2FD60900] : List (BitVec 32))).unwrap
    let x2 : BitVec 4 ← Fld.read .ump (.hybrid .u4 ⟨0x0F, 0, 0⟩ ⟨0x000F0000, 0, 0, 0⟩) x1
    Res.assert (decide (x2 = (0x6 : BitVec 4)))
    pure () : Res Unit) = .ok () := by decide +kernel

-- channel_voice1/channel_pressure.rs:115 pressure
example : (do
    let x1 ← (Msg.cv1ChannelPressure.tryFrom .ump ([0x2FD60900] : List (BitVec 32))).unwrap
    let x2 : BitVec 7 ← Fld.read .ump (.hybrid .u7 ⟨0, 0x7F, 0⟩ ⟨0x00007F00, 0, 0, 0⟩) x1
    Res.assert (decide (x2 = (0x9 : BitVec 7)))
    pure () : Res Unit) = .ok () := by decide +kernel

-- channel_voice1/channel_pressure.rs:125 channel_bytes
example : (do
    let x1 ← (Msg.cv1ChannelPressure.tryFrom .bytes ([0xD6, 0x9] : List (BitVec 8))).unwrap
    let x2 : BitVec 4 ← Fld.read .bytes (.hybrid .u4 ⟨0x0F, 0, 0⟩ ⟨0x000F0000, 0, 0, 0⟩) x1
    Res.assert (decide (x2 = (0x6 : BitVec 4)))
    pure () : Res Unit) = .ok () := by decide +kernel

-- channel_voice1/channel_pressure.rs:135 pressure_bytes
example : (do
    let x1 ← (Msg.cv1ChannelPressure.tryFrom .bytes ([0xD6, 0x9] : List (BitVec 8))).unwrap
    let x2 : BitVec 7 ← Fld.read .bytes (.hybrid .u7 ⟨0, 0x7F, 0⟩ ⟨0x00007F00, 0, 0, 0⟩) x1
    Res.assert (decide (x2 = (0x9 : BitVec 7)))
    pure () : Res Unit) = .ok () := by decide +kernel

-- channel_voice1/channel_pressure.rs:145 data
example : (do
    let x1 ← (Msg.cv1ChannelPressure.tryFrom .ump ([0x2FD60900] : List (BitVec 32))).unwrap
    let x2 ← Msg.cv1ChannelPressure.data .ump x1
    Res.assert (decide (x2 = ([0x2FD60900] : List (BitVec 32))))
    pure () : Res Unit) = .ok () := by decide +kernel

-- channel_voice1/channel_pressure.rs:155 data_bytes
example : (do
    let x1 ← (Msg.cv1ChannelPressure.tryFrom .bytes ([0xD6, 0x9] : List (BitVec 8))).unwrap
    let x2 ← Msg.cv1ChannelPressure.data .bytes x1
    Res.assert (decide (x2 = ([0xD6, 0x9] : List (BitVec 8))))
    pure () : Res Unit) = .ok () := by decide +kernel

-- channel_voice1/channel_pressure.rs:165 data_with_outsized_buffer
example : (do
    let m1 ← Msg.cv1ChannelPressure.newArray .ump 2
    let x2 ← Msg.cv1ChannelPressure.data .ump m1
    Res.assert (decide (x2 = ([0x20D00000] : List (BitVec 32))))
    pure () : Res Unit) = .ok () := by decide +kernel

-- channel_voice1/channel_pressure.rs:170 from_bytes
example : (do
    let x1 ← (Msg.cv1ChannelPressure.tryFrom .bytes ([0xD6, 0x9] : List (BitVec 8))).unwrap
    let m2 ← (Msg.cv1ChannelPressure.convertVec .bytes .ump x1)
    Res.assert (decide (m2 = ([0x20D60900] : List (BitVec 32))))
    pure () : Res Unit) = .ok () := by decide +kernel

-- channel_voice1/channel_pressure.rs:180 from_ump
example : (do
    let x1 ← (Msg.cv1ChannelPressure.tryFrom .ump ([0x2FD60900] : List (BitVec 32))).unwrap
    let m2 ← (Msg.cv1ChannelPressure.convertVec .ump .bytes x1)
    Res.assert (decide (m2 = ([0xD6, 0x9] : List (BitVec 8))))
    pure () : Res Unit) = .ok () := by decide +kernel

-- channel_voice1/channel_pressure.rs:190 try_from_bytes
example : (do
    let x1 ← (Msg.cv1ChannelPressure.tryFrom .bytes ([0xD6, 0x9] : List (BitVec 8))).unwrap
    Res.assert (decide ((Msg.cv1ChannelPressure.tryConvertArray .bytes .ump 1 x1) = (.ok ([0x20D60900] : List (BitVec 32)))))
    pure () : Res Unit) = .ok () := by decide +kernel

-- channel_voice1/channel_pressure.rs:200 from_bytes_array
example : (do
    let x1 ← (Msg.cv1ChannelPressure.tryFrom .bytes ([0xD6, 0x9] : List (BitVec 8))).unwrap
    let m2 ← (Msg.cv1ChannelPressure.convertArray .bytes .ump 1 x1)
    Res.assert (decide (m2 = ([0x20D60900] : List (BitVec 32))))
    pure () : Res Unit) = .ok () := by decide +kernel

-- channel_voice1/channel_pressure.rs:210 try_from_ump
example : (do
    let x1 ← (Msg.cv1ChannelPressure.tryFrom .ump ([0x2FD60900] : List (BitVec 32))).unwrap
    Res.assert (decide ((Msg.cv1ChannelPressure.tryConvertArray .ump .bytes 2 x1) = (.ok ([0xD6, 0x9] : List (BitVec 8)))))
    pure () : Res Unit) = .ok () := by decide +kernel

-- channel_voice1/channel_pressure.rs:220 from_ump_array
example : (do
    let x1 ← (Msg.cv1ChannelPressure.tryFrom .ump ([0x2FD60900] : List (BitVec 32))).unwrap
    let m2 ← (Msg.cv1ChannelPressure.convertArray .ump .bytes 2 x1)
    Res.assert (decide (m2 = ([0xD6, 0x9] : List (BitVec 8))))
    pure () : Res Unit) = .ok () := by decide +kernel

-- channel_voice1/channel_pressure.rs:230 new_with_custom_buffer
example : (do
    let m1 ← Msg.cv1ChannelPressure.newVec .ump
    let m2 ← Msg.cv1ChannelPressure.newArray .ump 4
    let x3 ← Msg.cv1ChannelPressure.data .ump m1
    let x4 ← Msg.cv1ChannelPressure.data .ump m2
    Res.assert (decide (x3 = x4))
    pure () : Res Unit) = .ok () := by decide +kernel

-- channel_voice1/channel_pressure.rs:237 new_with_custom_buffer_bytes
example : (do
    let m1 ← Msg.cv1ChannelPressure.newVec .bytes
    Res.assert (decide (m1 = ([0xD0, 0x0] : List (BitVec 8))))
    pure () : Res Unit) = .ok () := by decide +kernel

-- channel_voice1/channel_pressure.rs:245 new_with_arr
example : (do
    let m1 ← Msg.cv1ChannelPressure.newArray .ump 2
    Res.assert (decide (m1 = ([0x20D00000, 0x0] : List (BitVec 32))))
    pure () : Res Unit) = .ok () := by decide +kernel

-- channel_voice1/channel_pressure.rs:253 new_with_arr_bytes
example : (do
    let m1 ← Msg.cv1ChannelPressure.newArray .bytes 3
    Res.assert (decide (m1 = ([0xD0, 0x0, 0x0] : List (BitVec 8))))
    pure () : Res Unit) = .ok () := by decide +kernel

-- channel_voice1/channel_pressure.rs:261 try_new_with_custom_buffer_fail
example : (do
    Res.assert (decide ((Msg.cv1ChannelPressure.tryNew .ump 0) = (.err .bufferOverflow)))
    pure () : Res Unit) = .ok () := by decide +kernel

-- channel_voice1/channel_pressure.rs:269 try_new_with_custom_buffer_bytes_fail
example : (do
    Res.assert (decide ((Msg.cv1ChannelPressure.tryNew .bytes 1) = (.err .bufferOverflow)))
    pure () : Res Unit) = .ok () := by decide +kernel

-- channel_voice1/channel_pressure.rs:286 rebuffer_from
example : (do
    let x1 ← (Msg.cv1ChannelPressure.tryFrom .ump ([0x2FD60900] : List (BitVec 32))).unwrap
    let m2 ← (Msg.cv1ChannelPressure.rebufferFrom .ump x1)
    Res.assert (decide (m2 = ([0x2FD60900] : List (BitVec 32))))
    pure () : Res Unit) = .ok () := by decide +kernel

-- channel_voice1/channel_pressure.rs:296 rebuffer_from_bytes
example : (do
    let x1 ← (Msg.cv1ChannelPressure.tryFrom .bytes ([0xD6, 0x9] : List (BitVec 8))).unwrap
    let m2 ← (Msg.cv1ChannelPressure.rebufferFrom .bytes x1)
    Res.assert (decide (m2 = ([0xD6, 0x9] : List (BitVec 8))))
    pure () : Res Unit) = .ok () := by decide +kernel

-- channel_voice1/channel_pressure.rs:306 try_rebuffer_from
example : (do
    let x1 ← (Msg.cv1ChannelPressure.tryFrom .ump ([0x2FD60900] : List (BitVec 32))).unwrap
    Res.assert (decide ((Msg.cv1ChannelPressure.tryRebufferArray .ump 1 x1) = (.ok ([0x2FD60900] : List (BitVec 32)))))
    pure () : Res Unit) = .ok () := by decide +kernel

-- channel_voice1/channel_pressure.rs:316 rebuffer_from_array
example : (do
    let x1 ← (Msg.cv1ChannelPressure.tryFrom .ump ([0x2FD60900] : List (BitVec 32))).unwrap
    let m2 ← (Msg.cv1ChannelPressure.arrayRebuffer .ump 1 x1)
    Res.assert (decide (m2 = ([0x2FD60900] : List (BitVec 32))))
    pure () : Res Unit) = .ok () := by decide +kernel

-- channel_voice1/channel_pressure.rs:326 try_rebuffer_from_fail
example : (do
    let x1 ← (Msg.cv1ChannelPressure.tryFrom .ump ([0x2FD60900] : List (BitVec 32))).unwrap
    Res.assert (decide ((Msg.cv1ChannelPressure.tryRebufferArray .ump 0 x1) = (.err .bufferOverflow)))
    pure () : Res Unit) = .ok () := by decide +kernel

-- channel_voice1/channel_pressure.rs:336 try_rebuffer_from_bytes
example : (do
    let x1 ← (Msg.cv1ChannelPressure.tryFrom .bytes ([0xD6, 0x9] : List (BitVec 8))).unwrap
    Res.assert (decide ((Msg.cv1ChannelPressure.tryRebufferArray .bytes 2 x1) = (.ok ([0xD6, 0x9] : List (BitVec 8)))))
    pure () : Res Unit) = .ok () := by decide +kernel

-- channel_voice1/channel_pressure.rs:346 try_rebuffer_from_bytes_fail
example : (do
    let x1 ← (Msg.cv1ChannelPressure.tryFrom .bytes ([0xD6, 0x9] : List (BitVec 8))).unwrap
    Res.assert (decide ((Msg.cv1ChannelPressure.tryRebufferArray .bytes 0 x1) = (.err .bufferOverflow)))
    pure () : Res Unit) = .ok () := by decide +kernel

-- channel_voice1/channel_pressure.rs:356 rebuffer_into
example : (do
    let x1 ← (Msg.cv1ChannelPressure.tryFrom .ump ([0x2FD60900] : List (BitVec 32))).unwrap
    let m2 ← (Msg.cv1ChannelPressure.rebufferFrom .ump x1)
    Res.assert (decide (m2 = ([0x2FD60900] : List (BitVec 32))))
    pure () : Res Unit) = .ok () := by decide +kernel

-- channel_voice1/channel_pressure.rs:364 rebuffer_into_bytes
example : (do
    let x1 ← (Msg.cv1ChannelPressure.tryFrom .bytes ([0xD6, 0x9] : List (BitVec 8))).unwrap
    let m2 ← (Msg.cv1ChannelPressure.rebufferFrom .bytes x1)
    Res.assert (decide (m2 = ([0xD6, 0x9] : List (BitVec 8))))
    pure () : Res Unit) = .ok () := by decide +kernel

-- channel_voice1/channel_pressure.rs:372 try_rebuffer_into
example : (do
    let x1 ← (Msg.cv1ChannelPressure.tryFrom .ump ([0x2FD60900] : List (BitVec 32))).unwrap
    Res.assert (decide ((Msg.cv1ChannelPressure.tryRebufferArray .ump 1 x1) = (.ok ([0x2FD60900] : List (BitVec 32)))))
    pure () : Res Unit) = .ok () := by decide +kernel

-- channel_voice1/channel_pressure.rs:381 try_rebuffer_into_bytes
example : (do
    let x1 ← (Msg.cv1ChannelPressure.tryFrom .bytes ([0xD6, 0x9] : List (BitVec 8))).unwrap
    Res.assert (decide ((Msg.cv1ChannelPressure.tryRebufferArray .bytes 2 x1) = (.ok ([0xD6, 0x9] : List (BitVec 8)))))
    pure () : Res Unit) = .ok () := by decide +kernel

-- channel_voice1/channel_pressure.rs:390 try_rebuffer_into_fail
example : (do
    let x1 ← (Msg.cv1ChannelPressure.tryFrom .ump ([0x2FD60900] : List (BitVec 32))).unwrap
    Res.assert (decide ((Msg.cv1ChannelPressure.tryRebufferArray .ump 0 x1) = (.err .bufferOverflow)))
    pure () : Res Unit) = .ok () := by decide +kernel

-- channel_voice1/channel_pressure.rs:399 try_rebuffer_into_bytes_fail
example : (do
    let x1 ← (Msg.cv1ChannelPressure.tryFrom .bytes ([0xD6, 0x9] : List (BitVec 8))).unwrap
    Res.assert (decide ((Msg.cv1ChannelPressure.tryRebufferArray .bytes 0 x1) = (.err .bufferOverflow)))
    pure () : Res Unit) = .ok () := by decide +kernel

-- channel_voice1/channel_pressure.rs:408 clone
example : (do
    let m1 ← Msg.cv1ChannelPressure.newVec .ump
    Res.assert (decide (m1 = m1))
    pure () : Res Unit) = .ok () := by decide +kernel

-- channel_voice1/channel_pressure.rs:415 copy
example : (do
    let x1 ← (Msg.cv1ChannelPressure.tryFrom .ump ([0x2FD60900] : List (BitVec 32))).unwrap
    Res.assert (decide (x1 = x1))
    pure () : Res Unit) = .ok () := by decide +kernel

-- channel_voice1/control_change.rs:47 setters
example : (do
    let m1 ← Msg.cv1ControlChange.newArray .ump 4
    let m2 ← Fld.write .ump (.schema .u4 ⟨0x0F000000, 0, 0, 0⟩) m1 ((0xA : BitVec 4) : BitVec 4)
    let m3 ← Fld.write .ump (.hybrid .u4 ⟨0x0F, 0, 0⟩ ⟨0x000F0000, 0, 0, 0⟩) m2 ((0x7 : BitVec 4) : BitVec 4)
    let m4 ← Fld.write .ump (.hybrid .u7 ⟨0, 0x7F, 0⟩ ⟨0x00007F00, 0, 0, 0⟩) m3 ((0x36 : BitVec 7) : BitVec 7)
    let m5 ← Fld.write .ump (.hybrid .u7 ⟨0, 0, 0x7F⟩ ⟨0x0000007F, 0, 0, 0⟩) m4 ((0x37 : BitVec 7) : BitVec 7)
    Res.assert (decide (m5 = ([0x2AB73637, 0x0, 0x0, 0x0] : List (BitVec 32))))
    pure () : Res Unit) = .ok () := by decide +kernel

-- channel_voice1/control_change.rs:57 setters_bytes
example : (do
    let m1 ← Msg.cv1ControlChange.newArray .bytes 3
    let m2 ← Fld.write .bytes (.hybrid .u4 ⟨0x0F, 0, 0⟩ ⟨0x000F0000, 0, 0, 0⟩) m1 ((0x7 : BitVec 4) : BitVec 4)
    let m3 ← Fld.write .bytes (.hybrid .u7 ⟨0, 0x7F, 0⟩ ⟨0x00007F00, 0, 0, 0⟩) m2 ((0x36 : BitVec 7) : BitVec 7)
    let m4 ← Fld.write .bytes (.hybrid .u7 ⟨0, 0, 0x7F⟩ ⟨0x0000007F, 0, 0, 0⟩) m3 ((0x37 : BitVec 7) : BitVec 7)
    Res.assert (decide (m4 = ([0xB7, 0x36, 0x37] : List (BitVec 8))))
    pure () : Res Unit) = .ok () := by decide +kernel

-- channel_voice1/control_change.rs:66 group
example : (do
    let x1 ← (Msg.cv1ControlChange.tryFrom .ump ([0x2AB73637] : List (BitVec 32))).unwrap
    let x2 : BitVec 4 ← Fld.read .ump (.schema .u4 ⟨0x0F000000, 0, 0, 0⟩) x1
    Res.assert (decide (x2 = (0xA : BitVec 4)))
    pure () : Res Unit) = .ok () := by decide +kernel

-- channel_voice1/control_change.rs:76 channel
example : (do
    let x1 ← (Msg.cv1ControlChange.tryFrom .ump ([0x2AB73637] : List (BitVec 32))).unwrap
    let x2 : BitVec 4 ← Fld.read .ump (.hybrid .u4 ⟨0x0F, 0, 0⟩ ⟨0x000F0000, 0, 0, 0⟩) x1
    Res.assert (decide (x2 = (0x7 : BitVec 4)))
    pure () : Res Unit) = .ok () := by decide +kernel

-- channel_voice1/control_change.rs:86 channel_bytes
example : (do
    let x1 ← (Msg.cv1ControlChange.tryFrom .bytes ([0xB7, 0x36, 0x37] : List (BitVec 8))).unwrap
    let x2 : BitVec 4 ← Fld.read .bytes (.hybrid .u4 ⟨0x0F, 0, 0⟩ ⟨0x000F0000, 0, 0, 0⟩) x1
    Res.assert (decide (x2 = (0x7 : BitVec 4)))
    pure () : Res Unit) = .ok () := by decide +kernel

-- channel_voice1/control_change.rs:96 control
example : (do
    let x1 ← (Msg.cv1ControlChange.tryFrom .ump ([0x2AB73637] : List (BitVec 32))).unwrap
    let x2 : BitVec 7 ← Fld.read .ump (.hybrid .u7 ⟨0, 0x7F, 0⟩ ⟨0x00007F00, 0, 0, 0⟩) x1
    Res.assert (decide (x2 = (0x36 : BitVec 7)))
    pure () : Res Unit) = .ok () := by decide +kernel

-- channel_voice1/control_change.rs:106 control_bytes
example : (do
    let x1 ← (Msg.cv1ControlChange.tryFrom .bytes ([0xB7, 0x36, 0x37] : List (BitVec 8))).unwrap
    let x2 : BitVec 7 ← Fld.read .bytes (.hybrid .u7 ⟨0, 0x7F, 0⟩ ⟨0x00007F00, 0, 0, 0⟩) x1
    Res.assert (decide (x2 = (0x36 : BitVec 7)))
    pure () : Res Unit) = .ok () := by decide +kernel

-- channel_voice1/control_change.rs:116 control_data
example : (do
    let x1 ← (Msg.cv1ControlChange.tryFrom .ump ([0x2AB73637] : List (BitVec 32))).unwrap
    let x2 : BitVec 7 ← Fld.read .ump (.hybrid .u7 ⟨0, 0, 0x7F⟩ ⟨0x0000007F, 0, 0, 0⟩) x1
    Res.assert (decide (x2 = (0x37 : BitVec 7)))
    pure () : Res Unit) = .ok () := by decide +kernel

-- channel_voice1/control_change.rs:126 control_data_bytes
example : (do
    let x1 ← (Msg.cv1ControlChange.tryFrom .bytes ([0xB7, 0x36, 0x37] : List (BitVec 8))).unwrap
    let x2 : BitVec 7 ← Fld.read .bytes (.hybrid .u7 ⟨0, 0, 0x7F⟩ ⟨0x0000007F, 0, 0, 0⟩) x1
    Res.assert (decide (x2 = (0x37 : BitVec 7)))
    pure () : Res Unit) = .ok () := by decide +kernel

-- channel_voice1/control_change.rs:136 packets
example : (do
    let x1 ← (Msg.cv1ControlChange.tryFrom .ump ([0x2AB73637] : List (BitVec 32))).unwrap
    let x2 ← Msg.cv1ControlChange.packets x1
    let (x3, c4) ← Packet.itNext x2
    let x5 ← unwrapO x3
    Res.assert (decide (x5.2 = ([0x2AB73637] : List (BitVec 32))))
    let (x6, c7) ← Packet.itNext c4
    Res.assert x6.isNone
    pure () : Res Unit) = .ok () := by decide +kernel

-- channel_voice1/key_pressure.rs:50 setters
example : (do
    let m1 ← Msg.cv1KeyPressure.newArray .ump 4
    let m2 ← Fld.write .ump (.schema .u4 ⟨0x0F000000, 0, 0, 0⟩) m1 ((0xA : BitVec 4) : BitVec 4)
    let m3 ← Fld.write .ump (.hybrid .u4 ⟨0x0F, 0, 0⟩ ⟨0x000F0000, 0, 0, 0⟩) m2 ((0x3 : BitVec 4) : BitVec 4)
    let m4 ← Fld.write .ump (.hybrid .u7 ⟨0, 0x7F, 0⟩ ⟨0x00007F00, 0, 0, 0⟩) m3 ((0x7F : BitVec 7) : BitVec 7)
    let m5 ← Fld.write .ump (.hybrid .u7 ⟨0, 0, 0x7F⟩ ⟨0x0000007F, 0, 0, 0⟩) m4 ((0x5C : BitVec 7) : BitVec 7)
    Res.assert (decide (m5 = ([0x2AA37F5C, 0x0, 0x0, 0x0] : List (BitVec 32))))
    pure () : Res Unit) = .ok () := by decide +kernel

-- channel_voice1/key_pressure.rs:60 group
example : (do
    let x1 ← (Msg.cv1KeyPressure.tryFrom .ump ([0x2AA37F5C] : List (BitVec 32))).unwrap
    let x2 : BitVec 4 ← Fld.read .ump (.schema .u4 ⟨0x0F000000, 0, 0, 0⟩) x1
    Res.assert (decide (x2 = (0xA : BitVec 4)))
    pure () : Res Unit) = .ok () := by decide +kernel

-- channel_voice1/key_pressure.rs:70 channel
example : (do
    let x1 ← (Msg.cv1KeyPressure.tryFrom .ump ([0x2AA37F5C] : List (BitVec 32))).unwrap
    let x2 : BitVec 4 ← Fld.read .ump (.hybrid .u4 ⟨0x0F, 0, 0⟩ ⟨0x000F0000, 0, 0, 0⟩) x1
    Res.assert (decide (x2 = (0x3 : BitVec 4)))
    pure () : Res Unit) = .ok () := by decide +kernel

-- channel_voice1/key_pressure.rs:80 note_number
example : (do
    let x1 ← (Msg.cv1KeyPressure.tryFrom .ump ([0x2AA37F5C] : List (BitVec 32))).unwrap
    let x2 : BitVec 7 ← Fld.read .ump (.hybrid .u7 ⟨0, 0x7F, 0⟩ ⟨0x00007F00, 0, 0, 0⟩) x1
    Res.assert (decide (x2 = (0x7F : BitVec 7)))
    pure () : Res Unit) = .ok () := by decide +kernel

-- channel_voice1/key_pressure.rs:90 pressure
example : (do
    let x1 ← (Msg.cv1KeyPressure.tryFrom .ump ([0x2AA37F5C] : List (BitVec 32))).unwrap
    let x2 : BitVec 7 ← Fld.read .ump (.hybrid .u7 ⟨0, 0, 0x7F⟩ ⟨0x0000007F, 0, 0, 0⟩) x1
    Res.assert (decide (x2 = (0x5C : BitVec 7)))
    pure () : Res Unit) = .ok () := by decide +kernel

-- channel_voice1/note_off.rs:50 builder
example : (do
    let m1 ← Msg.cv1NoteOff.newArray .ump 4
    let m2 ← Fld.write .ump (.schema .u4 ⟨0x0F000000, 0, 0, 0⟩) m1 ((0x1 : BitVec 4) : BitVec 4)
    let m3 ← Fld.write .ump (.hybrid .u4 ⟨0x0F, 0, 0⟩ ⟨0x000F0000, 0, 0, 0⟩) m2 ((0xA : BitVec 4) : BitVec 4)
    let m4 ← Fld.write .ump (.hybrid .u7 ⟨0, 0x7F, 0⟩ ⟨0x00007F00, 0, 0, 0⟩) m3 ((0x68 : BitVec 7) : BitVec 7)
    let m5 ← Fld.write .ump (.hybrid .u7 ⟨0, 0, 0x7F⟩ ⟨0x0000007F, 0, 0, 0⟩) m4 ((0x1B : BitVec 7) : BitVec 7)
    Res.assert (decide (m5 = ([0x218A681B, 0x0, 0x0, 0x0] : List (BitVec 32))))
    pure () : Res Unit) = .ok () := by decide +kernel

-- channel_voice1/note_off.rs:60 group
example : (do
    let x1 ← (Msg.cv1NoteOff.tryFrom .ump ([0x218A681B] : List (BitVec 32))).unwrap
    let x2 : BitVec 4 ← Fld.read .ump (.schema .u4 ⟨0x0F000000, 0, 0, 0⟩) x1
    Res.assert (decide (x2 = (0x1 : BitVec 4)))
    pure () : Res Unit) = .ok () := by decide +kernel

-- channel_voice1/note_off.rs:68 channel
example : (do
    let x1 ← (Msg.cv1NoteOff.tryFrom .ump ([0x218A681B] : List (BitVec 32))).unwrap
    let x2 : BitVec 4 ← Fld.read .ump (.hybrid .u4 ⟨0x0F, 0, 0⟩ ⟨0x000F0000, 0, 0, 0⟩) x1
    Res.assert (decide (x2 = (0xA : BitVec 4)))
    pure () : Res Unit) = .ok () := by decide +kernel

-- channel_voice1/note_off.rs:76 note_number
example : (do
    let x1 ← (Msg.cv1NoteOff.tryFrom .ump ([0x218A681B] : List (BitVec 32))).unwrap
    let x2 : BitVec 7 ← Fld.read .ump (.hybrid .u7 ⟨0, 0x7F, 0⟩ ⟨0x00007F00, 0, 0, 0⟩) x1
    Res.assert (decide (x2 = (0x68 : BitVec 7)))
    pure () : Res Unit) = .ok () := by decide +kernel

-- channel_voice1/note_off.rs:86 velocity
example : (do
    let x1 ← (Msg.cv1NoteOff.tryFrom .ump ([0x218A681B] : List (BitVec 32))).unwrap
    let x2 : BitVec 7 ← Fld.read .ump (.hybrid .u7 ⟨0, 0, 0x7F⟩ ⟨0x0000007F, 0, 0, 0⟩) x1
    Res.assert (decide (x2 = (0x1B : BitVec 7)))
    pure () : Res Unit) = .ok () := by decide +kernel

-- channel_voice1/note_on.rs:53 setters
example : (do
    let m1 ← Msg.cv1NoteOn.newArray .ump 4
    let m2 ← Fld.write .ump (.schema .u4 ⟨0x0F000000, 0, 0, 0⟩) m1 ((0xD : BitVec 4) : BitVec 4)
    let m3 ← Fld.write .ump (.hybrid .u4 ⟨0x0F, 0, 0⟩ ⟨0x000F0000, 0, 0, 0⟩) m2 ((0xE : BitVec 4) : BitVec 4)
    let m4 ← Fld.write .ump (.hybrid .u7 ⟨0, 0x7F, 0⟩ ⟨0x00007F00, 0, 0, 0⟩) m3 ((0x75 : BitVec 7) : BitVec 7)
    let m5 ← Fld.write .ump (.hybrid .u7 ⟨0, 0, 0x7F⟩ ⟨0x0000007F, 0, 0, 0⟩) m4 ((0x3D : BitVec 7) : BitVec 7)
    Res.assert (decide (m5 = ([0x2D9E753D, 0x0, 0x0, 0x0] : List (BitVec 32))))
    pure () : Res Unit) = .ok () := by decide +kernel

-- channel_voice1/note_on.rs:63 setters_bytes
example : (do
    let m1 ← Msg.cv1NoteOn.newArray .bytes 3
    let m2 ← Fld.write .bytes (.hybrid .u4 ⟨0x0F, 0, 0⟩ ⟨0x000F0000, 0, 0, 0⟩) m1 ((0xE : BitVec 4) : BitVec 4)
    let m3 ← Fld.write .bytes (.hybrid .u7 ⟨0, 0x7F, 0⟩ ⟨0x00007F00, 0, 0, 0⟩) m2 ((0x75 : BitVec 7) : BitVec 7)
    let m4 ← Fld.write .bytes (.hybrid .u7 ⟨0, 0, 0x7F⟩ ⟨0x0000007F, 0, 0, 0⟩) m3 ((0x3D : BitVec 7) : BitVec 7)
    Res.assert (decide (m4 = ([0x9E, 0x75, 0x3D] : List (BitVec 8))))
    pure () : Res Unit) = .ok () := by decide +kernel

-- channel_voice1/note_on.rs:74 group
example : (do
    let x1 ← (Msg.cv1NoteOn.tryFrom .ump ([0x2D9E753D] : List (BitVec 32))).unwrap
    let x2 : BitVec 4 ← Fld.read .ump (.schema .u4 ⟨0x0F000000, 0, 0, 0⟩) x1
    Res.assert (decide (x2 = (0xD : BitVec 4)))
    pure () : Res Unit) = .ok () := by decide +kernel

-- channel_voice1/note_on.rs:82 channel
example : (do
    let x1 ← (Msg.cv1NoteOn.tryFrom .ump ([0x2D9E753D] : List (BitVec 32))).unwrap
    let x2 : BitVec 4 ← Fld.read .ump (.hybrid .u4 ⟨0x0F, 0, 0⟩ ⟨0x000F0000, 0, 0, 0⟩) x1
    Res.assert (decide (x2 = (0xE : BitVec 4)))
    pure () : Res Unit) = .ok () := by decide +kernel

-- channel_voice1/note_on.rs:90 note
example : (do
    let x1 ← (Msg.cv1NoteOn.tryFrom .ump ([0x2D9E753D] : List (BitVec 32))).unwrap
    let x2 : BitVec 7 ← Fld.read .ump (.hybrid .u7 ⟨0, 0x7F, 0⟩ ⟨0x00007F00, 0, 0, 0⟩) x1
    Res.assert (decide (x2 = (0x75 : BitVec 7)))
    pure () : Res Unit) = .ok () := by decide +kernel

-- channel_voice1/note_on.rs:100 velocity
example : (do
    let x1 ← (Msg.cv1NoteOn.tryFrom .ump ([0x2D9E753D] : List (BitVec 32))).unwrap
    let x2 : BitVec 7 ← Fld.read .ump (.hybrid .u7 ⟨0, 0, 0x7F⟩ ⟨0x0000007F, 0, 0, 0⟩) x1
    Res.assert (decide (x2 = (0x3D : BitVec 7)))
    pure () : Res Unit) = .ok () := by decide +kernel

-- channel_voice1/packet.rs:83 construction
example : (do
    Res.assert ((PacketKind.tryFrom .channelVoice1 ([0x20000000] : List (BitVec 32))).isOk)
    pure () : Res Unit) = .ok () := by decide +kernel

-- channel_voice1/packet.rs:88 construction_long_slice
example : (do
    Res.assert ((PacketKind.tryFrom .channelVoice1 ([0x20000000, 0x0, 0x0, 0x0] : List (BitVec 32))).isOk)
    pure () : Res Unit) = .ok () := by decide +kernel

-- channel_voice1/packet.rs:93 construction_very_long_slice
example : (do
    Res.assert ((PacketKind.tryFrom .channelVoice1 ([0x20000000, 0x0, 0x0, 0x0, 0x0, 0x0, 0x0, 0x0] : List (BitVec 32))).isOk)
    pure () : Res Unit) = .ok () := by decide +kernel

-- channel_voice1/packet.rs:98 construction_incorrect_ump_message_type
example : (do
    Res.assert (decide ((PacketKind.tryFrom .channelVoice1 ([0x0] : List (BitVec 32))) = (.err .invalidData)))
    pure () : Res Unit) = .ok () := by decide +kernel

-- channel_voice1/packet.rs:108 channel
example : (do
    let x1 ← (PacketKind.tryFrom .channelVoice1 ([0x20080000] : List (BitVec 32))).unwrap
    let x2 ← Packet.channel x1
    Res.assert (decide (x2 = (0x8 : BitVec 4)))
    pure () : Res Unit) = .ok () := by decide +kernel

-- channel_voice1/packet.rs:117 set_channel
example : (do
    let x1 ← (PacketKind.tryFrom .channelVoice1 ([0x20000000] : List (BitVec 32))).unwrap
    let p2 ← Packet.setChannel x1 (0x8 : BitVec 4)
    Res.assert (decide (p2 = ([0x20080000] : List (BitVec 32))))
    pure () : Res Unit) = .ok () := by decide +kernel

-- channel_voice1/packet.rs:125 group
example : (do
    let x1 ← (PacketKind.tryFrom .channelVoice1 ([0x2A000000] : List (BitVec 32))).unwrap
    let x2 ← Packet.group x1
    Res.assert (decide (x2 = (0xA : BitVec 4)))
    pure () : Res Unit) = .ok () := by decide +kernel

-- channel_voice1/packet.rs:134 set_group
example : (do
    let x1 ← (PacketKind.tryFrom .channelVoice1 ([0x20000000] : List (BitVec 32))).unwrap
    let p2 ← Packet.setGroup x1 (0xA : BitVec 4)
    Res.assert (decide (p2 = ([0x2A000000] : List (BitVec 32))))
    pure () : Res Unit) = .ok () := by decide +kernel

-- channel_voice1/packet.rs:142 construction_short_slice
example : (do
    Res.assert (decide ((PacketKind.tryFrom .channelVoice1 ([] : List (BitVec 32))) = (.err .invalidData)))
    pure () : Res Unit) = .ok () := by decide +kernel

-- channel_voice1/pitch_bend.rs:44 builder
example : (do
    let m1 ← Msg.cv1PitchBend.newArray .ump 4
    let m2 ← Fld.write .ump (.schema .u4 ⟨0x0F000000, 0, 0, 0⟩) m1 ((0x1 : BitVec 4) : BitVec 4)
    let m3 ← Fld.write .ump (.hybrid .u4 ⟨0x0F, 0, 0⟩ ⟨0x000F0000, 0, 0, 0⟩) m2 ((0xE : BitVec 4) : BitVec 4)
    let m4 ← Fld.write .ump (.hybrid .u14 ⟨0, 0x7F, 0x7F⟩ ⟨0x00007F7F, 0, 0, 0⟩) m3 ((0x147 : BitVec 14) : BitVec 14)
    Res.assert (decide (m4 = ([0x21EE4702, 0x0, 0x0, 0x0] : List (BitVec 32))))
    pure () : Res Unit) = .ok () := by decide +kernel

-- channel_voice1/pitch_bend.rs:53 group
example : (do
    let x1 ← (Msg.cv1PitchBend.tryFrom .ump ([0x21EE4702] : List (BitVec 32))).unwrap
    let x2 : BitVec 4 ← Fld.read .ump (.schema .u4 ⟨0x0F000000, 0, 0, 0⟩) x1
    Res.assert (decide (x2 = (0x1 : BitVec 4)))
    pure () : Res Unit) = .ok () := by decide +kernel

-- channel_voice1/pitch_bend.rs:61 channel
example : (do
    let x1 ← (Msg.cv1PitchBend.tryFrom .ump ([0x21EE4702] : List (BitVec 32))).unwrap
    let x2 : BitVec 4 ← Fld.read .ump (.hybrid .u4 ⟨0x0F, 0, 0⟩ ⟨0x000F0000, 0, 0, 0⟩) x1
    Res.assert (decide (x2 = (0xE : BitVec 4)))
    pure () : Res Unit) = .ok () := by decide +kernel

-- channel_voice1/pitch_bend.rs:71 bend
example : (do
    let x1 ← (Msg.cv1PitchBend.tryFrom .ump ([0x21EE4702] : List (BitVec 32))).unwrap
    let x2 : BitVec 14 ← Fld.read .ump (.hybrid .u14 ⟨0, 0x7F, 0x7F⟩ ⟨0x00007F7F, 0, 0, 0⟩) x1
    Res.assert (decide (x2 = (0x147 : BitVec 14)))
    pure () : Res Unit) = .ok () := by decide +kernel

-- channel_voice1/program_change.rs:44 builder
example : (do
    let m1 ← Msg.cv1ProgramChange.newArray .ump 4
    let m2 ← Fld.write .ump (.schema .u4 ⟨0x0F000000, 0, 0, 0⟩) m1 ((0x4 : BitVec 4) : BitVec 4)
    let m3 ← Fld.write .ump (.hybrid .u4 ⟨0x0F, 0, 0⟩ ⟨0x000F0000, 0, 0, 0⟩) m2 ((0x7 : BitVec 4) : BitVec 4)
    let m4 ← Fld.write .ump (.hybrid .u7 ⟨0, 0x7F, 0⟩ ⟨0x00007F00, 0, 0, 0⟩) m3 ((0x63 : BitVec 7) : BitVec 7)
    Res.assert (decide (m4 = ([0x24C76300, 0x0, 0x0, 0x0] : List (BitVec 32))))
    pure () : Res Unit) = .ok () := by decide +kernel

-- channel_voice2.rs:138 channel
example : (do
    let x1 ← (ChannelVoice2.tryFrom ([0x4BAC5900, 0xC0B83064] : List (BitVec 32))).unwrap
    let x2 ← ChannelVoice2.channel x1
    Res.assert (decide (x2 = (0xC : BitVec 4)))
    pure () : Res Unit) = .ok () := by decide +kernel

-- channel_voice2.rs:151 packets
example : (do
    let x1 ← (ChannelVoice2.tryFrom ([0x4BAC5900, 0xC0B83064] : List (BitVec 32))).unwrap
    let x2 ← x1.1.packets x1.2
    let (x3, c4) ← Packet.itNext x2
    let x5 ← unwrapO x3
    Res.assert (decide (x5.2 = ([0x4BAC5900, 0xC0B83064] : List (BitVec 32))))
    let (x6, c7) ← Packet.itNext c4
    Res.assert x6.isNone
    pure () : Res Unit) = .ok () := by decide +kernel

-- channel_voice2.rs:161 rebuffer_from_array
example : (do
    let x1 ← (ChannelVoice2.tryFrom ([0x4BAC5900, 0xC0B83064] : List (BitVec 32))).unwrap
    let x2 ← FixedEnum.arrayRebuffer .ump 2 x1
    pure () : Res Unit) = .ok () := by decide +kernel

-- channel_voice2/assignable_controller.rs:36 setters
example : (do
    let m1 ← Msg.cv2AssignableController.newArray .ump 4
    let m2 ← Fld.write .ump (.schema .u4 ⟨0x0F000000, 0, 0, 0⟩) m1 ((0xC : BitVec 4) : BitVec 4)
    let m3 ← Fld.write .ump (.schema .u4 ⟨0x000F0000, 0, 0, 0⟩) m2 ((0x8 : BitVec 4) : BitVec 4)
    let m4 ← Fld.write .ump (.schema .u7 ⟨0x00007F00, 0, 0, 0⟩) m3 ((0x51 : BitVec 7) : BitVec 7)
    let m5 ← Fld.write .ump (.schema .u7 ⟨0x0000007F, 0, 0, 0⟩) m4 ((0x38 : BitVec 7) : BitVec 7)
    let m6 ← Fld.write .ump (.schema .u32 ⟨0, 0xFFFFFFFF, 0, 0⟩) m5 ((0x3F3ADD42 : BitVec 32) : BitVec 32)
    Res.assert (decide (m6 = ([0x4C385138, 0x3F3ADD42, 0x0, 0x0] : List (BitVec 32))))
    pure () : Res Unit) = .ok () := by decide +kernel

-- channel_voice2/assignable_controller.rs:52 group
example : (do
    let x1 ← (Msg.cv2AssignableController.tryFrom .ump ([0x4C385138, 0x3F3ADD42] : List (BitVec 32))).unwrap
    let x2 : BitVec 4 ← Fld.read .ump (.schema .u4 ⟨0x0F000000, 0, 0, 0⟩) x1
    Res.assert (decide (x2 = (0xC : BitVec 4)))
    pure () : Res Unit) = .ok () := by decide +kernel

-- channel_voice2/assignable_controller.rs:64 channel
example : (do
    let x1 ← (Msg.cv2AssignableController.tryFrom .ump ([0x4C385138, 0x3F3ADD42] : List (BitVec 32))).unwrap
    let x2 : BitVec 4 ← Fld.read .ump (.schema .u4 ⟨0x000F0000, 0, 0, 0⟩) x1
    Res.assert (decide (x2 = (0x8 : BitVec 4)))
    pure () : Res Unit) = .ok () := by decide +kernel

-- channel_voice2/assignable_controller.rs:76 bank
example : (do
    let x1 ← (Msg.cv2AssignableController.tryFrom .ump ([0x4C385138, 0x3F3ADD42] : List (BitVec 32))).unwrap
    let x2 : BitVec 7 ← Fld.read .ump (.schema .u7 ⟨0x00007F00, 0, 0, 0⟩) x1
    Res.assert (decide (x2 = (0x51 : BitVec 7)))
    pure () : Res Unit) = .ok () := by decide +kernel

-- channel_voice2/assignable_controller.rs:86 index
example : (do
    let x1 ← (Msg.cv2AssignableController.tryFrom .ump ([0x4C385138, 0x3F3ADD42] : List (BitVec 32))).unwrap
    let x2 : BitVec 7 ← Fld.read .ump (.schema .u7 ⟨0x0000007F, 0, 0, 0⟩) x1
    Res.assert (decide (x2 = (0x38 : BitVec 7)))
    pure () : Res Unit) = .ok () := by decide +kernel

-- channel_voice2/assignable_controller.rs:96 controller_data
example : (do
    let x1 ← (Msg.cv2AssignableController.tryFrom .ump ([0x4C385138, 0x3F3ADD42] : List (BitVec 32))).unwrap
    let x2 : BitVec 32 ← Fld.read .ump (.schema .u32 ⟨0, 0xFFFFFFFF, 0, 0⟩) x1
    Res.assert (decide (x2 = (0x3F3ADD42 : BitVec 32)))
    pure () : Res Unit) = .ok () := by decide +kernel

-- channel_voice2/assignable_controller.rs:106 packets
example : (do
    let x1 ← (Msg.cv2AssignableController.tryFrom .ump ([0x4C385138, 0x3F3ADD42] : List (BitVec 32))).unwrap
    let x2 ← Msg.cv2AssignableController.packets x1
    let (x3, c4) ← Packet.itNext x2
    let x5 ← unwrapO x3
    Res.assert (decide (x5.2 = ([0x4C385138, 0x3F3ADD42] : List (BitVec 32))))
    let (x6, c7) ← Packet.itNext c4
    Res.assert x6.isNone
    pure () : Res Unit) = .ok () := by decide +kernel

-- channel_voice2/assignable_per_note_controller.rs:36 builder
example : (do
    let m1 ← Msg.cv2AssignablePerNoteController.newArray .ump 4
    let m2 ← Fld.write .ump (.schema .u4 ⟨0x0F000000, 0, 0, 0⟩) m1 ((0x2 : BitVec 4) : BitVec 4)
    let m3 ← Fld.write .ump (.schema .u4 ⟨0x000F0000, 0, 0, 0⟩) m2 ((0x4 : BitVec 4) : BitVec 4)
    let m4 ← Fld.write .ump (.schema .u7 ⟨0x00007F00, 0, 0, 0⟩) m3 ((0x6F : BitVec 7) : BitVec 7)
    let m5 ← Fld.write .ump (.schema .u8 ⟨0x000000FF, 0, 0, 0⟩) m4 ((0xB1 : BitVec 8) : BitVec 8)
    let m6 ← Fld.write .ump (.schema .u32 ⟨0, 0xFFFFFFFF, 0, 0⟩) m5 ((0x46105EE5 : BitVec 32) : BitVec 32)
    Res.assert (decide (m6 = ([0x42146FB1, 0x46105EE5, 0x0, 0x0] : List (BitVec 32))))
    pure () : Res Unit) = .ok () := by decide +kernel

-- channel_voice2/assignable_per_note_controller.rs:53 group
example : (do
    let x1 ← (Msg.cv2AssignablePerNoteController.tryFrom .ump ([0x42146FB1, 0x46105EE5] : List (BitVec 32))).unwrap
    let x2 : BitVec 4 ← Fld.read .ump (.schema .u4 ⟨0x0F000000, 0, 0, 0⟩) x1
    Res.assert (decide (x2 = (0x2 : BitVec 4)))
    pure () : Res Unit) = .ok () := by decide +kernel

-- channel_voice2/assignable_per_note_controller.rs:64 channel
example : (do
    let x1 ← (Msg.cv2AssignablePerNoteController.tryFrom .ump ([0x42146FB1, 0x46105EE5] : List (BitVec 32))).unwrap
    let x2 : BitVec 4 ← Fld.read .ump (.schema .u4 ⟨0x000F0000, 0, 0, 0⟩) x1
    Res.assert (decide (x2 = (0x4 : BitVec 4)))
    pure () : Res Unit) = .ok () := by decide +kernel

-- channel_voice2/assignable_per_note_controller.rs:75 note_number
example : (do
    let x1 ← (Msg.cv2AssignablePerNoteController.tryFrom .ump ([0x42146FB1, 0x46105EE5] : List (BitVec 32))).unwrap
    let x2 : BitVec 7 ← Fld.read .ump (.schema .u7 ⟨0x00007F00, 0, 0, 0⟩) x1
    Res.assert (decide (x2 = (0x6F : BitVec 7)))
    pure () : Res Unit) = .ok () := by decide +kernel

-- channel_voice2/assignable_per_note_controller.rs:85 index
example : (do
    let x1 ← (Msg.cv2AssignablePerNoteController.tryFrom .ump ([0x42146FB1, 0x46105EE5] : List (BitVec 32))).unwrap
    let x2 : BitVec 8 ← Fld.read .ump (.schema .u8 ⟨0x000000FF, 0, 0, 0⟩) x1
    Res.assert (decide (x2 = (0xB1 : BitVec 8)))
    pure () : Res Unit) = .ok () := by decide +kernel

-- channel_voice2/assignable_per_note_controller.rs:95 controller_data
example : (do
    let x1 ← (Msg.cv2AssignablePerNoteController.tryFrom .ump ([0x42146FB1, 0x46105EE5] : List (BitVec 32))).unwrap
    let x2 : BitVec 32 ← Fld.read .ump (.schema .u32 ⟨0, 0xFFFFFFFF, 0, 0⟩) x1
    Res.assert (decide (x2 = (0x46105EE5 : BitVec 32)))
    pure () : Res Unit) = .ok () := by decide +kernel

-- channel_voice2/attribute.rs:106 from_packet_invalid
example : (do
    Res.assert (decide ((do Fld.validate .ump .noteAttribute ([0x4] : List (BitVec 32)); (Fld.read .ump .noteAttribute ([0x4] : List (BitVec 32)) : Res (Option Attribute))) = (.err .invalidData)))
    pure () : Res Unit) = .ok () := by decide +kernel

-- channel_voice2/attribute.rs:114 from_packet_none
example : (do
    Res.assert (decide ((do Fld.validate .ump .noteAttribute ([0x0, 0x0] : List (BitVec 32)); (Fld.read .ump .noteAttribute ([0x0, 0x0] : List (BitVec 32)) : Res (Option Attribute))) = (.ok none)))
    pure () : Res Unit) = .ok () := by decide +kernel

-- channel_voice2/attribute.rs:119 from_packet_generic
example : (do
    Res.assert (decide ((do Fld.validate .ump .noteAttribute ([0x1, 0x1234] : List (BitVec 32)); (Fld.read .ump .noteAttribute ([0x1, 0x1234] : List (BitVec 32)) : Res (Option Attribute))) = (.ok (some (Attribute.manufacturerSpecific (0x1234 : BitVec 16))))))
    pure () : Res Unit) = .ok () := by decide +kernel

-- channel_voice2/attribute.rs:127 from_packet_pitch7_9
example : (do
    Res.assert (decide ((do Fld.validate .ump .noteAttribute ([0x3, 0x3333] : List (BitVec 32)); (Fld.read .ump .noteAttribute ([0x3, 0x3333] : List (BitVec 32)) : Res (Option Attribute))) = (.ok (some (Attribute.pitch7_9 (0x3333 : BitVec 16))))))
    pure () : Res Unit) = .ok () := by decide +kernel

-- channel_voice2/attribute.rs:137 write_attribute_none
example : (do
    let x1 ← Fld.write .ump .noteAttribute ([0x0, 0x0] : List (BitVec 32)) (none : Option Attribute)
    Res.assert (decide (x1 = ([0x0, 0x0] : List (BitVec 32))))
    pure () : Res Unit) = .ok () := by decide +kernel

-- channel_voice2/attribute.rs:142 write_attribute_generic
example : (do
    let x1 ← Fld.write .ump .noteAttribute ([0x0, 0x0] : List (BitVec 32)) ((some (Attribute.profileSpecific (0x666 : BitVec 16))) : Option Attribute)
    Res.assert (decide (x1 = ([0x2, 0x666] : List (BitVec 32))))
    pure () : Res Unit) = .ok () := by decide +kernel

-- channel_voice2/attribute.rs:150 write_attribute_pitch7_9
example : (do
    let x1 ← Fld.write .ump .noteAttribute ([0x0, 0x0] : List (BitVec 32)) ((some (Attribute.pitch7_9 (0xB917 : BitVec 16))) : Option Attribute)
    Res.assert (decide (x1 = ([0x3, 0xB917] : List (BitVec 32))))
    pure () : Res Unit) = .ok () := by decide +kernel

-- channel_voice2/channel_pitch_bend.rs:32 builder
example : (do
    let m1 ← Msg.cv2ChannelPitchBend.newArray .ump 4
    let m2 ← Fld.write .ump (.schema .u4 ⟨0x0F000000, 0, 0, 0⟩) m1 ((0xB : BitVec 4) : BitVec 4)
    let m3 ← Fld.write .ump (.schema .u4 ⟨0x000F0000, 0, 0, 0⟩) m2 ((0x9 : BitVec 4) : BitVec 4)
    let m4 ← Fld.write .ump (.schema .u32 ⟨0, 0xFFFFFFFF, 0, 0⟩) m3 ((0x8306AF8 : BitVec 32) : BitVec 32)
    Res.assert (decide (m4 = ([0x4BE90000, 0x8306AF8, 0x0, 0x0] : List (BitVec 32))))
    pure () : Res Unit) = .ok () := by decide +kernel

-- channel_voice2/channel_pitch_bend.rs:47 pitch_bend_data
example : (do
    let x1 ← (Msg.cv2ChannelPitchBend.tryFrom .ump ([0x4BE90000, 0x8306AF8] : List (BitVec 32))).unwrap
    let x2 : BitVec 32 ← Fld.read .ump (.schema .u32 ⟨0, 0xFFFFFFFF, 0, 0⟩) x1
    Res.assert (decide (x2 = (0x8306AF8 : BitVec 32)))
    pure () : Res Unit) = .ok () := by decide +kernel

-- channel_voice2/channel_pressure.rs:36 setter
example : (do
    let m1 ← Msg.cv2ChannelPressure.newArray .ump 4
    let m2 ← Fld.write .ump (.schema .u4 ⟨0x0F000000, 0, 0, 0⟩) m1 ((0xE : BitVec 4) : BitVec 4)
    let m3 ← Fld.write .ump (.schema .u4 ⟨0x000F0000, 0, 0, 0⟩) m2 ((0xD : BitVec 4) : BitVec 4)
    let m4 ← Fld.write .ump (.schema .u32 ⟨0, 0xFFFFFFFF, 0, 0⟩) m3 ((0xDE0DE0F2 : BitVec 32) : BitVec 32)
    Res.assert (decide (m4 = ([0x4EDD0000, 0xDE0DE0F2, 0x0, 0x0] : List (BitVec 32))))
    pure () : Res Unit) = .ok () := by decide +kernel

-- channel_voice2/channel_pressure.rs:51 new_arr_3
example : (do
    let m1 ← Msg.cv2ChannelPressure.newArray .ump 3
    Res.assert (decide (m1 = ([0x40D00000, 0x0, 0x0] : List (BitVec 32))))
    pure () : Res Unit) = .ok () := by decide +kernel

-- channel_voice2/channel_pressure.rs:59 new_arr_2
example : (do
    let m1 ← Msg.cv2ChannelPressure.newArray .ump 2
    Res.assert (decide (m1 = ([0x40D00000, 0x0] : List (BitVec 32))))
    pure () : Res Unit) = .ok () := by decide +kernel

-- channel_voice2/channel_pressure.rs:67 channel_pressure_data
example : (do
    let x1 ← (Msg.cv2ChannelPressure.tryFrom .ump ([0x4EDD0000, 0xDE0DE0F2] : List (BitVec 32))).unwrap
    let x2 : BitVec 32 ← Fld.read .ump (.schema .u32 ⟨0, 0xFFFFFFFF, 0, 0⟩) x1
    Res.assert (decide (x2 = (0xDE0DE0F2 : BitVec 32)))
    pure () : Res Unit) = .ok () := by decide +kernel

-- channel_voice2/control_change.rs:34 setters
example : (do
    let m1 ← Msg.cv2ControlChange.newArray .ump 4
    let m2 ← Fld.write .ump (.schema .u4 ⟨0x0F000000, 0, 0, 0⟩) m1 ((0x3 : BitVec 4) : BitVec 4)
    let m3 ← Fld.write .ump (.schema .u4 ⟨0x000F0000, 0, 0, 0⟩) m2 ((0x9 : BitVec 4) : BitVec 4)
    let m4 ← Fld.write .ump (.schema .u7 ⟨0x00007F00, 0, 0, 0⟩) m3 ((0x30 : BitVec 7) : BitVec 7)
    let m5 ← Fld.write .ump (.schema .u32 ⟨0, 0xFFFFFFFF, 0, 0⟩) m4 ((0x24681012 : BitVec 32) : BitVec 32)
    Res.assert (decide (m5 = ([0x43B93000, 0x24681012, 0x0, 0x0] : List (BitVec 32))))
    pure () : Res Unit) = .ok () := by decide +kernel

-- channel_voice2/control_change.rs:46 control
example : (do
    let x1 ← (Msg.cv2ControlChange.tryFrom .ump ([0x43B93000, 0x24681012] : List (BitVec 32))).unwrap
    let x2 : BitVec 7 ← Fld.read .ump (.schema .u7 ⟨0x00007F00, 0, 0, 0⟩) x1
    Res.assert (decide (x2 = (0x30 : BitVec 7)))
    pure () : Res Unit) = .ok () := by decide +kernel

-- channel_voice2/control_change.rs:56 control_change_data
example : (do
    let x1 ← (Msg.cv2ControlChange.tryFrom .ump ([0x43B93000, 0x24681012] : List (BitVec 32))).unwrap
    let x2 : BitVec 32 ← Fld.read .ump (.schema .u32 ⟨0, 0xFFFFFFFF, 0, 0⟩) x1
    Res.assert (decide (x2 = (0x24681012 : BitVec 32)))
    pure () : Res Unit) = .ok () := by decide +kernel

-- channel_voice2/key_pressure.rs:34 builder
example : (do
    let m1 ← Msg.cv2KeyPressure.newArray .ump 4
    let m2 ← Fld.write .ump (.schema .u4 ⟨0x0F000000, 0, 0, 0⟩) m1 ((0xB : BitVec 4) : BitVec 4)
    let m3 ← Fld.write .ump (.schema .u4 ⟨0x000F0000, 0, 0, 0⟩) m2 ((0xC : BitVec 4) : BitVec 4)
    let m4 ← Fld.write .ump (.schema .u7 ⟨0x00007F00, 0, 0, 0⟩) m3 ((0x59 : BitVec 7) : BitVec 7)
    let m5 ← Fld.write .ump (.schema .u32 ⟨0, 0xFFFFFFFF, 0, 0⟩) m4 ((0xC0B83064 : BitVec 32) : BitVec 32)
    Res.assert (decide (m5 = ([0x4BAC5900, 0xC0B83064, 0x0, 0x0] : List (BitVec 32))))
    pure () : Res Unit) = .ok () := by decide +kernel

-- channel_voice2/key_pressure.rs:46 note_number
example : (do
    let x1 ← (Msg.cv2KeyPressure.tryFrom .ump ([0x4BAC5900, 0xC0B83064] : List (BitVec 32))).unwrap
    let x2 : BitVec 7 ← Fld.read .ump (.schema .u7 ⟨0x00007F00, 0, 0, 0⟩) x1
    Res.assert (decide (x2 = (0x59 : BitVec 7)))
    pure () : Res Unit) = .ok () := by decide +kernel

-- channel_voice2/key_pressure.rs:56 key_pressure_data
example : (do
    let x1 ← (Msg.cv2KeyPressure.tryFrom .ump ([0x4BAC5900, 0xC0B83064] : List (BitVec 32))).unwrap
    let x2 : BitVec 32 ← Fld.read .ump (.schema .u32 ⟨0, 0xFFFFFFFF, 0, 0⟩) x1
    Res.assert (decide (x2 = (0xC0B83064 : BitVec 32)))
    pure () : Res Unit) = .ok () := by decide +kernel

-- channel_voice2/note_off.rs:39 builder
example : (do
    let m1 ← Msg.cv2NoteOff.newArray .ump 4
    let m2 ← Fld.write .ump (.schema .u4 ⟨0x0F000000, 0, 0, 0⟩) m1 ((0x2 : BitVec 4) : BitVec 4)
    let m3 ← Fld.write .ump (.schema .u4 ⟨0x000F0000, 0, 0, 0⟩) m2 ((0x4 : BitVec 4) : BitVec 4)
    let m4 ← Fld.write .ump (.schema .u7 ⟨0x00007F00, 0, 0, 0⟩) m3 ((0x4E : BitVec 7) : BitVec 7)
    let m5 ← Fld.write .ump (.schema .u16 ⟨0, 0xFFFF0000, 0, 0⟩) m4 ((0x9DE6 : BitVec 16) : BitVec 16)
    let m6 ← Fld.write .ump (.noteAttribute) m5 ((some (Attribute.manufacturerSpecific (0xCC6E : BitVec 16))) : Option (Attribute))
    Res.assert (decide (m6 = ([0x42844E01, 0x9DE6CC6E, 0x0, 0x0] : List (BitVec 32))))
    pure () : Res Unit) = .ok () := by decide +kernel

-- channel_voice2/note_off.rs:53 builder_no_attribute
example : (do
    let m1 ← Msg.cv2NoteOff.newArray .ump 4
    let m2 ← Fld.write .ump (.schema .u4 ⟨0x0F000000, 0, 0, 0⟩) m1 ((0x2 : BitVec 4) : BitVec 4)
    let m3 ← Fld.write .ump (.schema .u4 ⟨0x000F0000, 0, 0, 0⟩) m2 ((0x4 : BitVec 4) : BitVec 4)
    let m4 ← Fld.write .ump (.schema .u7 ⟨0x00007F00, 0, 0, 0⟩) m3 ((0x4E : BitVec 7) : BitVec 7)
    let m5 ← Fld.write .ump (.schema .u16 ⟨0, 0xFFFF0000, 0, 0⟩) m4 ((0x9DE6 : BitVec 16) : BitVec 16)
    Res.assert (decide (m5 = ([0x42844E00, 0x9DE60000, 0x0, 0x0] : List (BitVec 32))))
    pure () : Res Unit) = .ok () := by decide +kernel

-- channel_voice2/note_off.rs:66 note_number
example : (do
    let x1 ← (Msg.cv2NoteOff.tryFrom .ump ([0x42844E01, 0x9DE6CC6E] : List (BitVec 32))).unwrap
    let x2 : BitVec 7 ← Fld.read .ump (.schema .u7 ⟨0x00007F00, 0, 0, 0⟩) x1
    Res.assert (decide (x2 = (0x4E : BitVec 7)))
    pure () : Res Unit) = .ok () := by decide +kernel

-- channel_voice2/note_off.rs:76 volocity
example : (do
    let x1 ← (Msg.cv2NoteOff.tryFrom .ump ([0x42844E01, 0x9DE6CC6E] : List (BitVec 32))).unwrap
    let x2 : BitVec 16 ← Fld.read .ump (.schema .u16 ⟨0, 0xFFFF0000, 0, 0⟩) x1
    Res.assert (decide (x2 = (0x9DE6 : BitVec 16)))
    pure () : Res Unit) = .ok () := by decide +kernel

-- channel_voice2/note_off.rs:86 attribute
example : (do
    let x1 ← (Msg.cv2NoteOff.tryFrom .ump ([0x42844E01, 0x9DE6CC6E] : List (BitVec 32))).unwrap
    let x2 : Option (Attribute) ← Fld.read .ump (.noteAttribute) x1
    Res.assert (decide (x2 = (some (Attribute.manufacturerSpecific (0xCC6E : BitVec 16)))))
    pure () : Res Unit) = .ok () := by decide +kernel

-- channel_voice2/note_on.rs:39 builder
example : (do
    let m1 ← Msg.cv2NoteOn.newArray .ump 4
    let m2 ← Fld.write .ump (.schema .u4 ⟨0x0F000000, 0, 0, 0⟩) m1 ((0x8 : BitVec 4) : BitVec 4)
    let m3 ← Fld.write .ump (.schema .u4 ⟨0x000F0000, 0, 0, 0⟩) m2 ((0x8 : BitVec 4) : BitVec 4)
    let m4 ← Fld.write .ump (.schema .u7 ⟨0x00007F00, 0, 0, 0⟩) m3 ((0x5E : BitVec 7) : BitVec 7)
    let m5 ← Fld.write .ump (.schema .u16 ⟨0, 0xFFFF0000, 0, 0⟩) m4 ((0x6A14 : BitVec 16) : BitVec 16)
    let m6 ← Fld.write .ump (.noteAttribute) m5 ((some (Attribute.pitch7_9 (0xE98A : BitVec 16))) : Option (Attribute))
    Res.assert (decide (m6 = ([0x48985E03, 0x6A14E98A, 0x0, 0x0] : List (BitVec 32))))
    pure () : Res Unit) = .ok () := by decide +kernel

-- channel_voice2/note_on.rs:56 builder_no_attribute
example : (do
    let m1 ← Msg.cv2NoteOn.newArray .ump 4
    let m2 ← Fld.write .ump (.schema .u4 ⟨0x0F000000, 0, 0, 0⟩) m1 ((0x8 : BitVec 4) : BitVec 4)
    let m3 ← Fld.write .ump (.schema .u4 ⟨0x000F0000, 0, 0, 0⟩) m2 ((0x8 : BitVec 4) : BitVec 4)
    let m4 ← Fld.write .ump (.schema .u7 ⟨0x00007F00, 0, 0, 0⟩) m3 ((0x5E : BitVec 7) : BitVec 7)
    let m5 ← Fld.write .ump (.schema .u16 ⟨0, 0xFFFF0000, 0, 0⟩) m4 ((0x6A14 : BitVec 16) : BitVec 16)
    Res.assert (decide (m5 = ([0x48985E00, 0x6A140000, 0x0, 0x0] : List (BitVec 32))))
    pure () : Res Unit) = .ok () := by decide +kernel

-- channel_voice2/note_on.rs:69 note_number
example : (do
    let x1 ← (Msg.cv2NoteOn.tryFrom .ump ([0x48985E03, 0x6A14E98A] : List (BitVec 32))).unwrap
    let x2 : BitVec 7 ← Fld.read .ump (.schema .u7 ⟨0x00007F00, 0, 0, 0⟩) x1
    Res.assert (decide (x2 = (0x5E : BitVec 7)))
    pure () : Res Unit) = .ok () := by decide +kernel

-- channel_voice2/note_on.rs:79 volocity
example : (do
    let x1 ← (Msg.cv2NoteOn.tryFrom .ump ([0x48985E03, 0x6A14E98A] : List (BitVec 32))).unwrap
    let x2 : BitVec 16 ← Fld.read .ump (.schema .u16 ⟨0, 0xFFFF0000, 0, 0⟩) x1
    Res.assert (decide (x2 = (0x6A14 : BitVec 16)))
    pure () : Res Unit) = .ok () := by decide +kernel

-- channel_voice2/note_on.rs:89 attribute
example : (do
    let x1 ← (Msg.cv2NoteOn.tryFrom .ump ([0x48985E03, 0x6A14E98A] : List (BitVec 32))).unwrap
    let x2 : Option (Attribute) ← Fld.read .ump (.noteAttribute) x1
    Res.assert (decide (x2 = (some (Attribute.pitch7_9 (0xE98A : BitVec 16)))))
    pure () : Res Unit) = .ok () := by decide +kernel

-- channel_voice2/packet.rs:83 construction
example : (do
    Res.assert ((PacketKind.tryFrom .channelVoice2 ([0x40000000] : List (BitVec 32))).isOk)
    pure () : Res Unit) = .ok () := by decide +kernel

-- channel_voice2/packet.rs:88 construction_slice_size2
example : (do
    Res.assert ((PacketKind.tryFrom .channelVoice2 ([0x40000000, 0x0] : List (BitVec 32))).isOk)
    pure () : Res Unit) = .ok () := by decide +kernel

-- channel_voice2/packet.rs:93 construction_slice_size4
example : (do
    Res.assert ((PacketKind.tryFrom .channelVoice2 ([0x40000000, 0x0, 0x0, 0x0] : List (BitVec 32))).isOk)
    pure () : Res Unit) = .ok () := by decide +kernel

-- channel_voice2/packet.rs:98 construction_incorrect_ump_message_type
example : (do
    Res.assert (decide ((PacketKind.tryFrom .channelVoice2 ([0x0] : List (BitVec 32))) = (.err .invalidData)))
    pure () : Res Unit) = .ok () := by decide +kernel

-- channel_voice2/packet.rs:108 construction_short_slice
example : (do
    Res.assert (decide ((PacketKind.tryFrom .channelVoice2 ([] : List (BitVec 32))) = (.err .invalidData)))
    pure () : Res Unit) = .ok () := by decide +kernel

-- channel_voice2/packet.rs:118 channel
example : (do
    let x1 ← (PacketKind.tryFrom .channelVoice2 ([0x40080000] : List (BitVec 32))).unwrap
    let x2 ← Packet.channel x1
    Res.assert (decide (x2 = (0x8 : BitVec 4)))
    pure () : Res Unit) = .ok () := by decide +kernel

-- channel_voice2/packet.rs:127 set_channel
example : (do
    let x1 ← (PacketKind.tryFrom .channelVoice2 ([0x40000000] : List (BitVec 32))).unwrap
    let p2 ← Packet.setChannel x1 (0x8 : BitVec 4)
    Res.assert (decide (p2 = ([0x40080000, 0x0] : List (BitVec 32))))
    pure () : Res Unit) = .ok () := by decide +kernel

-- channel_voice2/packet.rs:135 group
example : (do
    let x1 ← (PacketKind.tryFrom .channelVoice2 ([0x4A000000] : List (BitVec 32))).unwrap
    let x2 ← Packet.group x1
    Res.assert (decide (x2 = (0xA : BitVec 4)))
    pure () : Res Unit) = .ok () := by decide +kernel

-- channel_voice2/packet.rs:144 set_group
example : (do
    let x1 ← (PacketKind.tryFrom .channelVoice2 ([0x40000000] : List (BitVec 32))).unwrap
    let p2 ← Packet.setGroup x1 (0xA : BitVec 4)
    Res.assert (decide (p2 = ([0x4A000000, 0x0] : List (BitVec 32))))
    pure () : Res Unit) = .ok () := by decide +kernel

-- channel_voice2/per_note_management.rs:36 setters
example : (do
    let m1 ← Msg.cv2PerNoteManagement.newArray .ump 4
    let m2 ← Fld.write .ump (.schema .u4 ⟨0x0F000000, 0, 0, 0⟩) m1 ((0xB : BitVec 4) : BitVec 4)
    let m3 ← Fld.write .ump (.schema .u4 ⟨0x000F0000, 0, 0, 0⟩) m2 ((0x9 : BitVec 4) : BitVec 4)
    let m4 ← Fld.write .ump (.schema .u7 ⟨0x00007F00, 0, 0, 0⟩) m3 ((0x1C : BitVec 7) : BitVec 7)
    let m5 ← Fld.write .ump (.schema .bool ⟨0x00000001, 0, 0, 0⟩) m4 (true : Bool)
    let m6 ← Fld.write .ump (.schema .bool ⟨0x00000002, 0, 0, 0⟩) m5 (true : Bool)
    Res.assert (decide (m6 = ([0x4BF91C03, 0x0, 0x0, 0x0] : List (BitVec 32))))
    pure () : Res Unit) = .ok () := by decide +kernel

-- channel_voice2/per_note_management.rs:50 note_number
example : (do
    let x1 ← (Msg.cv2PerNoteManagement.tryFrom .ump ([0x4BF91C03, 0x0] : List (BitVec 32))).unwrap
    let x2 : BitVec 7 ← Fld.read .ump (.schema .u7 ⟨0x00007F00, 0, 0, 0⟩) x1
    Res.assert (decide (x2 = (0x1C : BitVec 7)))
    pure () : Res Unit) = .ok () := by decide +kernel

-- channel_voice2/per_note_management.rs:60 detach
example : (do
    let x1 ← (Msg.cv2PerNoteManagement.tryFrom .ump ([0x4BF91C03, 0x0] : List (BitVec 32))).unwrap
    let x2 : Bool ← Fld.read .ump (.schema .bool ⟨0x00000001, 0, 0, 0⟩) x1
    Res.assert (x2)
    pure () : Res Unit) = .ok () := by decide +kernel

-- channel_voice2/per_note_management.rs:67 reset
example : (do
    let x1 ← (Msg.cv2PerNoteManagement.tryFrom .ump ([0x4BF91C03, 0x0] : List (BitVec 32))).unwrap
    let x2 : Bool ← Fld.read .ump (.schema .bool ⟨0x00000002, 0, 0, 0⟩) x1
    Res.assert (x2)
    pure () : Res Unit) = .ok () := by decide +kernel

-- channel_voice2/per_note_pitch_bend.rs:34 builder
example : (do
    let m1 ← Msg.cv2PerNotePitchBend.newArray .ump 4
    let m2 ← Fld.write .ump (.schema .u4 ⟨0x0F000000, 0, 0, 0⟩) m1 ((0x9 : BitVec 4) : BitVec 4)
    let m3 ← Fld.write .ump (.schema .u4 ⟨0x000F0000, 0, 0, 0⟩) m2 ((0x2 : BitVec 4) : BitVec 4)
    let m4 ← Fld.write .ump (.schema .u7 ⟨0x00007F00, 0, 0, 0⟩) m3 ((0x76 : BitVec 7) : BitVec 7)
    let m5 ← Fld.write .ump (.schema .u32 ⟨0, 0xFFFFFFFF, 0, 0⟩) m4 ((0x2AD74672 : BitVec 32) : BitVec 32)
    Res.assert (decide (m5 = ([0x49627600, 0x2AD74672, 0x0, 0x0] : List (BitVec 32))))
    pure () : Res Unit) = .ok () := by decide +kernel

-- channel_voice2/per_note_pitch_bend.rs:50 note_number
example : (do
    let x1 ← (Msg.cv2PerNotePitchBend.tryFrom .ump ([0x49627600, 0x2AD74672] : List (BitVec 32))).unwrap
    let x2 : BitVec 7 ← Fld.read .ump (.schema .u7 ⟨0x00007F00, 0, 0, 0⟩) x1
    Res.assert (decide (x2 = (0x76 : BitVec 7)))
    pure () : Res Unit) = .ok () := by decide +kernel

-- channel_voice2/per_note_pitch_bend.rs:60 pitch_bend_data
example : (do
    let x1 ← (Msg.cv2PerNotePitchBend.tryFrom .ump ([0x49627600, 0x2AD74672] : List (BitVec 32))).unwrap
    let x2 : BitVec 32 ← Fld.read .ump (.schema .u32 ⟨0, 0xFFFFFFFF, 0, 0⟩) x1
    Res.assert (decide (x2 = (0x2AD74672 : BitVec 32)))
    pure () : Res Unit) = .ok () := by decide +kernel

-- channel_voice2/program_change.rs:83 builder
example : (do
    let m1 ← Msg.cv2ProgramChange.newArray .ump 4
    let m2 ← Fld.write .ump (.schema .u4 ⟨0x0F000000, 0, 0, 0⟩) m1 ((0xF : BitVec 4) : BitVec 4)
    let m3 ← Fld.write .ump (.schema .u4 ⟨0x000F0000, 0, 0, 0⟩) m2 ((0xE : BitVec 4) : BitVec 4)
    let m4 ← Fld.write .ump (.schema .u7 ⟨0, 0x7F000000, 0, 0⟩) m3 ((0x75 : BitVec 7) : BitVec 7)
    let m5 ← Fld.write .ump (.programBank) m4 ((some (0x1F5E : BitVec 14)) : Option (BitVec 14))
    Res.assert (decide (m5 = ([0x4FCE0001, 0x75005E3E, 0x0, 0x0] : List (BitVec 32))))
    pure () : Res Unit) = .ok () := by decide +kernel

-- channel_voice2/program_change.rs:96 builder_no_bank
example : (do
    let m1 ← Msg.cv2ProgramChange.newArray .ump 4
    let m2 ← Fld.write .ump (.schema .u4 ⟨0x0F000000, 0, 0, 0⟩) m1 ((0xF : BitVec 4) : BitVec 4)
    let m3 ← Fld.write .ump (.schema .u4 ⟨0x000F0000, 0, 0, 0⟩) m2 ((0xE : BitVec 4) : BitVec 4)
    let m4 ← Fld.write .ump (.schema .u7 ⟨0, 0x7F000000, 0, 0⟩) m3 ((0x75 : BitVec 7) : BitVec 7)
    Res.assert (decide (m4 = ([0x4FCE0000, 0x75000000, 0x0, 0x0] : List (BitVec 32))))
    pure () : Res Unit) = .ok () := by decide +kernel

-- channel_voice2/program_change.rs:108 program
example : (do
    let x1 ← (Msg.cv2ProgramChange.tryFrom .ump ([0x4FCE0001, 0x75005E3E] : List (BitVec 32))).unwrap
    let x2 : BitVec 7 ← Fld.read .ump (.schema .u7 ⟨0, 0x7F000000, 0, 0⟩) x1
    Res.assert (decide (x2 = (0x75 : BitVec 7)))
    pure () : Res Unit) = .ok () := by decide +kernel

-- channel_voice2/program_change.rs:118 bank
example : (do
    let x1 ← (Msg.cv2ProgramChange.tryFrom .ump ([0x4FCE0001, 0x75005E3E] : List (BitVec 32))).unwrap
    let x2 : Option (BitVec 14) ← Fld.read .ump (.programBank) x1
    Res.assert (decide (x2 = (some (0x1F5E : BitVec 14))))
    pure () : Res Unit) = .ok () := by decide +kernel

-- channel_voice2/program_change.rs:128 no_bank
example : (do
    let x1 ← (Msg.cv2ProgramChange.tryFrom .ump ([0x4FCE0000, 0x75000000] : List (BitVec 32))).unwrap
    let x2 : Option (BitVec 14) ← Fld.read .ump (.programBank) x1
    Res.assert (decide (x2 = none))
    pure () : Res Unit) = .ok () := by decide +kernel

-- channel_voice2/program_change.rs:138 rebuffer_mut_slice_to_slice
example : (do
    let x1 ← (Msg.cv2ProgramChange.tryNewWithBuffer .ump ([0x0, 0x0, 0x0, 0x0] : List (BitVec 32))).unwrap
    let m2 ← Fld.write .ump (.schema .u7 ⟨0, 0x7F000000, 0, 0⟩) x1 ((0x4F : BitVec 7) : BitVec 7)
    let m3 ← (Msg.cv2ProgramChange.rebufferFrom .ump m2)
    let x4 ← Msg.cv2ProgramChange.data .ump m3
    Res.assert (decide (x4 = ([0x40C00000, 0x4F000000] : List (BitVec 32))))
    pure () : Res Unit) = .ok () := by decide +kernel

-- channel_voice2/registered_controller.rs:36 builder
example : (do
    let m1 ← Msg.cv2RegisteredController.newArray .ump 4
    let m2 ← Fld.write .ump (.schema .u4 ⟨0x0F000000, 0, 0, 0⟩) m1 ((0xA : BitVec 4) : BitVec 4)
    let m3 ← Fld.write .ump (.schema .u4 ⟨0x000F0000, 0, 0, 0⟩) m2 ((0xB : BitVec 4) : BitVec 4)
    let m4 ← Fld.write .ump (.schema .u7 ⟨0x00007F00, 0, 0, 0⟩) m3 ((0x7D : BitVec 7) : BitVec 7)
    let m5 ← Fld.write .ump (.schema .u7 ⟨0x0000007F, 0, 0, 0⟩) m4 ((0x64 : BitVec 7) : BitVec 7)
    let m6 ← Fld.write .ump (.schema .u32 ⟨0, 0xFFFFFFFF, 0, 0⟩) m5 ((0x46845E00 : BitVec 32) : BitVec 32)
    Res.assert (decide (m6 = ([0x4A2B7D64, 0x46845E00, 0x0, 0x0] : List (BitVec 32))))
    pure () : Res Unit) = .ok () := by decide +kernel

-- channel_voice2/registered_controller.rs:53 bank
example : (do
    let x1 ← (Msg.cv2RegisteredController.tryFrom .ump ([0x4A2B7D64, 0x46845E00] : List (BitVec 32))).unwrap
    let x2 : BitVec 7 ← Fld.read .ump (.schema .u7 ⟨0x00007F00, 0, 0, 0⟩) x1
    Res.assert (decide (x2 = (0x7D : BitVec 7)))
    pure () : Res Unit) = .ok () := by decide +kernel

-- channel_voice2/registered_controller.rs:63 index
example : (do
    let x1 ← (Msg.cv2RegisteredController.tryFrom .ump ([0x4A2B7D64, 0x46845E00] : List (BitVec 32))).unwrap
    let x2 : BitVec 7 ← Fld.read .ump (.schema .u7 ⟨0x0000007F, 0, 0, 0⟩) x1
    Res.assert (decide (x2 = (0x64 : BitVec 7)))
    pure () : Res Unit) = .ok () := by decide +kernel

-- channel_voice2/registered_controller.rs:73 controller_data
example : (do
    let x1 ← (Msg.cv2RegisteredController.tryFrom .ump ([0x4A2B7D64, 0x46845E00] : List (BitVec 32))).unwrap
    let x2 : BitVec 32 ← Fld.read .ump (.schema .u32 ⟨0, 0xFFFFFFFF, 0, 0⟩) x1
    Res.assert (decide (x2 = (0x46845E00 : BitVec 32)))
    pure () : Res Unit) = .ok () := by decide +kernel

-- channel_voice2/registered_controller.rs:83 data
example : (do
    let x1 ← (Msg.cv2RegisteredController.tryFrom .ump ([0x4A2B7D64, 0x46845E00] : List (BitVec 32))).unwrap
    let x2 ← Msg.cv2RegisteredController.data .ump x1
    Res.assert (decide (x2 = ([0x4A2B7D64, 0x46845E00] : List (BitVec 32))))
    pure () : Res Unit) = .ok () := by decide +kernel

-- channel_voice2/registered_per_note_controller.rs:34 builder
example : (do
    let m1 ← Msg.cv2RegisteredPerNoteController.newArray .ump 4
    let m2 ← Fld.write .ump (.schema .u4 ⟨0x0F000000, 0, 0, 0⟩) m1 ((0x4 : BitVec 4) : BitVec 4)
    let m3 ← Fld.write .ump (.schema .u4 ⟨0x000F0000, 0, 0, 0⟩) m2 ((0x5 : BitVec 4) : BitVec 4)
    let m4 ← Fld.write .ump (.schema .u7 ⟨0x00007F00, 0, 0, 0⟩) m3 ((0x6C : BitVec 7) : BitVec 7)
    let m5 ← Fld.write .ump (.controller) m4 ((Controller.volume (0xE1E35E92 : BitVec 32)) : Controller)
    Res.assert (decide (m5 = ([0x44056C07, 0xE1E35E92, 0x0, 0x0] : List (BitVec 32))))
    pure () : Res Unit) = .ok () := by decide +kernel

-- channel_voice2/registered_per_note_controller.rs:50 note_number
example : (do
    let x1 ← (Msg.cv2RegisteredPerNoteController.tryFrom .ump ([0x44056C07, 0xE1E35E92] : List (BitVec 32))).unwrap
    let x2 : BitVec 7 ← Fld.read .ump (.schema .u7 ⟨0x00007F00, 0, 0, 0⟩) x1
    Res.assert (decide (x2 = (0x6C : BitVec 7)))
    pure () : Res Unit) = .ok () := by decide +kernel

-- channel_voice2/registered_per_note_controller.rs:60 controller
example : (do
    let x1 ← (Msg.cv2RegisteredPerNoteController.tryFrom .ump ([0x44056C07, 0xE1E35E92] : List (BitVec 32))).unwrap
    let x2 : Controller ← Fld.read .ump (.controller) x1
    Res.assert (decide (x2 = (Controller.volume (0xE1E35E92 : BitVec 32))))
    pure () : Res Unit) = .ok () := by decide +kernel

-- channel_voice2/relative_assignable_controller.rs:36 builder
example : (do
    let m1 ← Msg.cv2RelativeAssignableController.newArray .ump 4
    let m2 ← Fld.write .ump (.schema .u4 ⟨0x0F000000, 0, 0, 0⟩) m1 ((0x3 : BitVec 4) : BitVec 4)
    let m3 ← Fld.write .ump (.schema .u4 ⟨0x000F0000, 0, 0, 0⟩) m2 ((0x1 : BitVec 4) : BitVec 4)
    let m4 ← Fld.write .ump (.schema .u7 ⟨0x00007F00, 0, 0, 0⟩) m3 ((0x24 : BitVec 7) : BitVec 7)
    let m5 ← Fld.write .ump (.schema .u7 ⟨0x0000007F, 0, 0, 0⟩) m4 ((0x52 : BitVec 7) : BitVec 7)
    let m6 ← Fld.write .ump (.schema .u32 ⟨0, 0xFFFFFFFF, 0, 0⟩) m5 ((0x898874E4 : BitVec 32) : BitVec 32)
    Res.assert (decide (m6 = ([0x43512452, 0x898874E4, 0x0, 0x0] : List (BitVec 32))))
    pure () : Res Unit) = .ok () := by decide +kernel

-- channel_voice2/relative_assignable_controller.rs:53 bank
example : (do
    let x1 ← (Msg.cv2RelativeAssignableController.tryFrom .ump ([0x43512452, 0x898874E4] : List (BitVec 32))).unwrap
    let x2 : BitVec 7 ← Fld.read .ump (.schema .u7 ⟨0x00007F00, 0, 0, 0⟩) x1
    Res.assert (decide (x2 = (0x24 : BitVec 7)))
    pure () : Res Unit) = .ok () := by decide +kernel

-- channel_voice2/relative_assignable_controller.rs:63 index
example : (do
    let x1 ← (Msg.cv2RelativeAssignableController.tryFrom .ump ([0x43512452, 0x898874E4] : List (BitVec 32))).unwrap
    let x2 : BitVec 7 ← Fld.read .ump (.schema .u7 ⟨0x0000007F, 0, 0, 0⟩) x1
    Res.assert (decide (x2 = (0x52 : BitVec 7)))
    pure () : Res Unit) = .ok () := by decide +kernel

-- channel_voice2/relative_assignable_controller.rs:73 controller_data
example : (do
    let x1 ← (Msg.cv2RelativeAssignableController.tryFrom .ump ([0x43512452, 0x898874E4] : List (BitVec 32))).unwrap
    let x2 : BitVec 32 ← Fld.read .ump (.schema .u32 ⟨0, 0xFFFFFFFF, 0, 0⟩) x1
    Res.assert (decide (x2 = (0x898874E4 : BitVec 32)))
    pure () : Res Unit) = .ok () := by decide +kernel

-- channel_voice2/relative_registered_controller.rs:36 builder
example : (do
    let m1 ← Msg.cv2RelativeRegisteredController.newArray .ump 4
    let m2 ← Fld.write .ump (.schema .u4 ⟨0x0F000000, 0, 0, 0⟩) m1 ((0x1 : BitVec 4) : BitVec 4)
    let m3 ← Fld.write .ump (.schema .u4 ⟨0x000F0000, 0, 0, 0⟩) m2 ((0xE : BitVec 4) : BitVec 4)
    let m4 ← Fld.write .ump (.schema .u7 ⟨0x00007F00, 0, 0, 0⟩) m3 ((0x45 : BitVec 7) : BitVec 7)
    let m5 ← Fld.write .ump (.schema .u7 ⟨0x0000007F, 0, 0, 0⟩) m4 ((0x2 : BitVec 7) : BitVec 7)
    let m6 ← Fld.write .ump (.schema .u32 ⟨0, 0xFFFFFFFF, 0, 0⟩) m5 ((0xAF525908 : BitVec 32) : BitVec 32)
    Res.assert (decide (m6 = ([0x414E4502, 0xAF525908, 0x0, 0x0] : List (BitVec 32))))
    pure () : Res Unit) = .ok () := by decide +kernel

-- channel_voice2/relative_registered_controller.rs:53 bank
example : (do
    let x1 ← (Msg.cv2RelativeRegisteredController.tryFrom .ump ([0x414E4502, 0xAF525908] : List (BitVec 32))).unwrap
    let x2 : BitVec 7 ← Fld.read .ump (.schema .u7 ⟨0x00007F00, 0, 0, 0⟩) x1
    Res.assert (decide (x2 = (0x45 : BitVec 7)))
    pure () : Res Unit) = .ok () := by decide +kernel

-- channel_voice2/relative_registered_controller.rs:63 index
example : (do
    let x1 ← (Msg.cv2RelativeRegisteredController.tryFrom .ump ([0x414E4502, 0xAF525908] : List (BitVec 32))).unwrap
    let x2 : BitVec 7 ← Fld.read .ump (.schema .u7 ⟨0x0000007F, 0, 0, 0⟩) x1
    Res.assert (decide (x2 = (0x2 : BitVec 7)))
    pure () : Res Unit) = .ok () := by decide +kernel

-- channel_voice2/relative_registered_controller.rs:73 controller_data
example : (do
    let x1 ← (Msg.cv2RelativeRegisteredController.tryFrom .ump ([0x414E4502, 0xAF525908] : List (BitVec 32))).unwrap
    let x2 : BitVec 32 ← Fld.read .ump (.schema .u32 ⟨0, 0xFFFFFFFF, 0, 0⟩) x1
    Res.assert (decide (x2 = (0xAF525908 : BitVec 32)))
    pure () : Res Unit) = .ok () := by decide +kernel

end Midi2.Replay
