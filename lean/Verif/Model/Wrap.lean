import Verif.Model.Dispatch

/-!
# Messages as values of the enums

`From<T<B>>` of the message types for the enum of their group and for `UmpMessage` and
`BytesMessage`, with both levels of variants (`UmpMessage::ChannelVoice2(ChannelVoice2::NoteOn(m))`).
-/

namespace Midi2

/-- `UmpMessage<B>` (message.rs:14-31): the outer variants; within a group the inner variant is
the type of the message in it. -/
inductive UmpValue where
  | flexData (k : UmpKind) (b : Buf .ump)
  | channelVoice1 (d : MsgDesc) (b : Buf .ump)
  | channelVoice2 (d : MsgDesc) (b : Buf .ump)
  | sysex7 (b : Buf .ump)
  | sysex8 (b : Buf .ump)
  | systemCommon (d : MsgDesc) (b : Buf .ump)
  | umpStream (k : UmpKind) (b : Buf .ump)
  | utility (d : MsgDesc) (b : Buf .ump)
deriving DecidableEq

/-- `BytesMessage<B>` (message.rs:96-103). -/
inductive BytesValue where
  | channelVoice1 (d : MsgDesc) (b : Buf .bytes)
  | sysex7 (b : Buf .bytes)
  | systemCommon (d : MsgDesc) (b : Buf .bytes)
deriving DecidableEq

/-- `UmpMessage::try_from` (message.rs:33-75), with the outer variants. -/
def UmpValue.tryFrom (b : Buf .ump) : Res UmpValue :=
  if b.isEmpty then .err .invalidData
  else do
    match (U32.nibble (← at' b 0) 0).toNat with
    | 0xD => do let x ← FlexData.tryFrom b; return .flexData x.1 x.2
    | 0x2 => do let x ← ChannelVoice1.tryFrom .ump b; return .channelVoice1 x.1 x.2
    | 0x4 => do let x ← ChannelVoice2.tryFrom b; return .channelVoice2 x.1 x.2
    | 0x3 => do return .sysex7 (← Sx.s7.tryFrom b)
    | 0x5 => do return .sysex8 (← Sx.s8.tryFrom b)
    | 0x1 => do let x ← SystemCommon.tryFrom .ump b; return .systemCommon x.1 x.2
    | 0xF => do let x ← UmpStream.tryFrom b; return .umpStream x.1 x.2
    | 0x0 => do let x ← Utility.tryFrom b; return .utility x.1 x.2
    | _ => .err .invalidData

/-- `BytesMessage::try_from` (message.rs:108-130), with the outer variants. -/
def BytesValue.tryFrom (b : Buf .bytes) : Res BytesValue :=
  if b.isEmpty then .err .invalidData
  else do
    let s := (← at' b 0).toNat
    if 0x80 ≤ s ∧ s ≤ 0xEF then do
      let x ← ChannelVoice1.tryFrom .bytes b; return .channelVoice1 x.1 x.2
    else if s = 0xF0 then do return .sysex7 (← Sxb.tryFrom b)
    else if (0xF1 ≤ s ∧ s ≤ 0xF6) ∨ (0xF8 ≤ s ∧ s ≤ 0xFF) then do
      let x ← SystemCommon.tryFrom .bytes b; return .systemCommon x.1 x.2
    else .err .invalidData

/-- The data of a message in a group: `data()` of the group's enum (derives.rs:7-32) calls that of
the message. -/
def UmpValue.data : UmpValue → Res (Buf .ump)
  | flexData k b => k.data b
  | channelVoice1 d b => d.data .ump b
  | channelVoice2 d b => d.data .ump b
  | sysex7 b => Sx.s7.data b
  | sysex8 b => Sx.s8.data b
  | systemCommon d b => d.data .ump b
  | umpStream k b => k.data b
  | utility d b => d.data .ump b

/-- `packets()` (derives.rs:34-55). -/
def UmpValue.packets : UmpValue → Res (List (Buf .ump))
  | flexData k b => k.packets b
  | channelVoice1 d b => d.packets b
  | channelVoice2 d b => d.packets b
  | sysex7 b => Sx.s7.dataPackets b
  | sysex8 b => Sx.s8.dataPackets b
  | systemCommon d b => d.packets b
  | umpStream k b => k.packets b
  | utility d b => d.packets b

/-- `data()` (derives.rs:7-32). -/
def BytesValue.data : BytesValue → Res (Buf .bytes)
  | channelVoice1 d b => d.data .bytes b
  | sysex7 b => Sxb.data b
  | systemCommon d b => d.data .bytes b

/-- The enum named in the attribute `Via(…)` of a message type (generate_message.rs:26-54, 139). -/
inductive Via where
  | flexData
  | channelVoice1
  | channelVoice2
  | systemCommon
  | umpStream
  | utility
deriving DecidableEq

/-- The attributes `Via(…)` of the fixed-size message types, as they are written above each
struct: channel_voice1/{channel_pressure.rs:11, …}, channel_voice2/{assignable_controller.rs:10,
…}, flex_data/{set_tempo.rs:10, …}, system_common/…, ump_stream/…, utility.rs. -/
def MsgDesc.via : List (MsgDesc × Via) := [
  (Msg.cv1ChannelPressure, .channelVoice1), (Msg.cv1ControlChange, .channelVoice1),
  (Msg.cv1KeyPressure, .channelVoice1), (Msg.cv1NoteOff, .channelVoice1),
  (Msg.cv1NoteOn, .channelVoice1), (Msg.cv1PitchBend, .channelVoice1),
  (Msg.cv1ProgramChange, .channelVoice1),
  (Msg.cv2AssignableController, .channelVoice2),
  (Msg.cv2AssignablePerNoteController, .channelVoice2),
  (Msg.cv2ChannelPitchBend, .channelVoice2), (Msg.cv2ChannelPressure, .channelVoice2),
  (Msg.cv2ControlChange, .channelVoice2), (Msg.cv2KeyPressure, .channelVoice2),
  (Msg.cv2NoteOff, .channelVoice2), (Msg.cv2NoteOn, .channelVoice2),
  (Msg.cv2PerNoteManagement, .channelVoice2), (Msg.cv2PerNotePitchBend, .channelVoice2),
  (Msg.cv2ProgramChange, .channelVoice2), (Msg.cv2RegisteredController, .channelVoice2),
  (Msg.cv2RegisteredPerNoteController, .channelVoice2),
  (Msg.cv2RelativeAssignableController, .channelVoice2),
  (Msg.cv2RelativeRegisteredController, .channelVoice2),
  (Msg.flexSetChordName, .flexData), (Msg.flexSetKeySignature, .flexData),
  (Msg.flexSetMetronome, .flexData), (Msg.flexSetTempo, .flexData),
  (Msg.flexSetTimeSignature, .flexData),
  (Msg.sysTuneRequest, .systemCommon), (Msg.sysTimingClock, .systemCommon),
  (Msg.sysStart, .systemCommon), (Msg.sysContinue, .systemCommon), (Msg.sysStop, .systemCommon),
  (Msg.sysActiveSensing, .systemCommon), (Msg.sysReset, .systemCommon),
  (Msg.sysSongPositionPointer, .systemCommon), (Msg.sysSongSelect, .systemCommon),
  (Msg.sysTimeCode, .systemCommon),
  (Msg.streamDeviceIdentity, .umpStream), (Msg.streamEndOfClip, .umpStream),
  (Msg.streamEndpointDiscovery, .umpStream), (Msg.streamEndpointInfo, .umpStream),
  (Msg.streamFunctionBlockDiscovery, .umpStream), (Msg.streamFunctionBlockInfo, .umpStream),
  (Msg.streamStartOfClip, .umpStream), (Msg.streamStreamConfigurationNotification, .umpStream),
  (Msg.streamStreamConfigurationRequest, .umpStream),
  (Msg.utilNoOp, .utility), (Msg.utilClock, .utility), (Msg.utilTimestamp, .utility),
  (Msg.utilDeltaClockstamp, .utility), (Msg.utilDeltaClockstampTpq, .utility)]

/-- `From<T<B>> for UmpMessage<B>` of a fixed-size message type: `Enum::from(value).into()`
(generate_message.rs:779-787), where both steps are `derive_more::From` on the enums (the variant
whose type is that of the argument).  `none`: the type has no such implementation. -/
def MsgDesc.intoUmp (d : MsgDesc) (b : Buf .ump) : Option UmpValue :=
  (MsgDesc.via.lookup d).map fun
    | .flexData => .flexData (.fixed d) b
    | .channelVoice1 => .channelVoice1 d b
    | .channelVoice2 => .channelVoice2 d b
    | .systemCommon => .systemCommon d b
    | .umpStream => .umpStream (.fixed d) b
    | .utility => .utility d b

/-- `From<T<B>> for UmpMessage<B>`.  The text messages have `Via(FlexData)`
(flex_data.rs:31, …, flex_data/unknown_metadata_text.rs) and `Via(UmpStream)`
(ump_stream/{endpoint_name, function_block_name, product_instance_id}.rs); system exclusive
messages are variants of `UmpMessage` themselves (`derive_more::From`, message.rs:2). -/
def UmpKind.intoUmp : UmpKind → Buf .ump → Option UmpValue
  | .fixed d, b => d.intoUmp b
  | .sysex .s7, b => some (.sysex7 b)
  | .sysex .s8, b => some (.sysex8 b)
  | .flexText t, b => some (.flexData (.flexText t) b)
  | .streamText t, b => some (.umpStream (.streamText t) b)

/-- `From<T<B>> for BytesMessage<B>` (generate_message.rs:789-797, message.rs:78).  Only the two
enums over both representations have a variant of `BytesMessage`. -/
def BytesKind.intoBytes : BytesKind → Buf .bytes → Option BytesValue
  | .fixed d, b =>
    match MsgDesc.via.lookup d with
    | some .channelVoice1 => some (.channelVoice1 d b)
    | some .systemCommon => some (.systemCommon d b)
    | _ => none
  | .sysex7, b => some (.sysex7 b)

end Midi2
