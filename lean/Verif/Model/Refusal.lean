import Verif.Model.Packet
import Verif.Model.Ci

/-!
# The texts in refusals

`try_from` once more, with the explanatory text of `error::InvalidData` (error.rs:22-23), which
`Error.invalidData` drops.
-/

namespace Midi2

/-- `Result<T, InvalidData>`, or a panic. error.rs:1-5. -/
inductive Told (α : Type) where
  | ok (a : α)
  | refused (text : String)
  | panic
deriving DecidableEq, Repr

namespace Told

/-- `?` on `Err`, unwinding on panic. E.g. generate_message.rs:367-376. -/
@[inline] def bind {α β : Type} (x : Told α) (f : α → Told β) : Told β :=
  match x with
  | ok a => f a
  | refused t => refused t
  | panic => panic

/-- Sequencing as `do` notation, e.g. of the steps at generate_message.rs:367-376. -/
instance : Monad Told where
  pure := ok
  bind := bind

/-- The outcome without the text.
What is left of `Err(InvalidData(text))` (error.rs:1-5) in `Res`. -/
def silent {α : Type} : Told α → Res α
  | ok a => .ok a
  | refused _ => .err .invalidData
  | panic => .panic

/-- A validation all of whose errors carry the same text. E.g. detail/helpers.rs:12-28. -/
def of {α : Type} (text : String) : Res α → Told α
  | .ok a => ok a
  | .err _ => refused text
  | .panic => panic

/-- `buffer[i]`. E.g. sysex8.rs:111. -/
def index {α : Type} (b : List α) (i : Nat) : Told α :=
  match b[i]? with
  | some w => ok w
  | none => panic

/-- `if cond { Ok(()) } else { Err(InvalidData(text)) }`. E.g. detail/helpers.rs:19-27. -/
def check (c : Bool) (text : String) : Told Unit := if c then ok () else refused text

end Told

/-- `validate_sysex_group_statuses` (helpers.rs:80-87, texts 32-33): the loop. -/
def toldStatusesLoop (isContinue isEnd : List (BitVec 32) → Bool) :
    List (List (BitVec 32)) → Told Unit
  | [] => .ok ()
  | [p] => Told.check (isEnd p) "Expected End packet"
  | p :: q :: rest =>
    if isContinue p then toldStatusesLoop isContinue isEnd (q :: rest)
    else .refused "Expected Continue packet"

/-- `validate_sysex_group_statuses` (helpers.rs:43-90, texts 30-34). -/
def toldStatuses (isComplete isBegin isContinue isEnd : List (BitVec 32) → Bool)
    (stride : Nat) (umpType : BitVec 4) (buffer : List (BitVec 32)) : Told Unit :=
  match (chunks stride buffer).takeWhile (fun p => U32.nibble (head0 p) 0 == umpType) with
  | [] => .refused "The message buffer is empty"
  | [p] => Told.check (isComplete p) "Expected Complete packet"
  | p :: rest =>
    if isBegin p then toldStatusesLoop isContinue isEnd rest
    else .refused "Expected Begin packet"

namespace Fld

/-- The text of the only `Err` in `ReadProperty::validate` of each property (common_properties.rs:24,
68; system_common.rs:264; flex_data.rs:936, 967, 994, 1073; ump_stream.rs:133;
channel_voice2/attribute.rs:11, 19; channel_voice2/controller.rs:56; flex_data/tonic.rs:97;
flex_data/set_chord_name.rs:132, 278, 386; ump_stream/function_block_info.rs:134, 195).  The others
never fail; the formats of stream messages have several texts (`told`). -/
def complaint : Fld → String
  | umpType _ => "Incorrect ump message type"
  | cvStatus _ => "Incorrect message status"
  | sysStatus _ => "Incorrect status field"
  | noteAttribute => "Couldn't interpret note attribute"
  | controller => "Couldn't interpret controller index"
  | flexStatus _ => "Incorrect message status"
  | flexBank _ => "Incorrect message bank"
  | flexFormat _ => "Incorrect message format"
  | flexNoChannel => "Address field should be non zero."
  | tonic _ => "Couldn't interpret Tonic field"
  | chordSharpsFlats _ => "Couldn't interpret Sharps / Flats field"
  | chordType _ => "Couldn't interpret Chord field"
  | alteration _ => "Couldn't interpret alteration field"
  | streamStatus _ => "Incorrect message status"
  | midi1Port => "Couldn't interpret midi1 port field"
  | direction => "Couldn't interpret direction field"
  | _ => ""

/-- `ReadProperty::validate` over UMP; for the formats of stream messages ump_stream.rs:160-173. -/
def told32 (f : Fld) (b : Buf .ump) : Told Unit :=
  match f with
  | streamFormats =>
    toldStatuses
      (fun p => U32.crumb (head0 p) 2 == 0#2) (fun p => U32.crumb (head0 p) 2 == 1#2)
      (fun p => U32.crumb (head0 p) 2 == 2#2) (fun p => U32.crumb (head0 p) 2 == 3#2)
      4 0xF#4 b
  | f => Told.of f.complaint (f.validate32 b)

/-- `ReadProperty::validate`.
detail/property.rs:5-9; the texts are at the lines given for `complaint`. -/
def told : (m : Fmt) → Fld → Buf m → Told Unit
  | .ump, f, b => f.told32 b
  | .bytes, f, b => Told.of f.complaint (f.validate8 b)

end Fld

/-- The generated validation steps (generate_message.rs:367-376). -/
def toldProps (m : Fmt) : List (String × Fld) → Buf m → Told Unit
  | [], _ => .ok ()
  | (_, f) :: ps, b => do
    f.told m b
    toldProps m ps b

/-- `TryFrom<&[U]>` of the fixed-size messages (generate_message.rs:352-388, text 381). -/
def MsgDesc.told (d : MsgDesc) (m : Fmt) (b : Buf m) : Told (Buf m) :=
  if b.length < d.minSize m then .refused "Slice is too short"
  else do
    toldProps m d.props b
    return b

/-- The text about the sizes of packets (sysex7.rs:39, 178; sysex8.rs:13, 73-75). -/
def Sx.sizeText : Sx → String
  | s7 => "Size field can not exceed 6"
  | s8 => "Invalid number of payload bytes in packet"

/-- The stream id of sysex8 messages (sysex8.rs:14, 152-165). -/
def Sx.toldStream : Sx → Buf .ump → Told Unit
  | s7, _ => .ok ()
  | s8, b => Told.of "Inconsistent stream id fields across packets" (Sx.validStreamId b)

/-- `TryFrom<&[u32]>` of system exclusive messages (generate_message.rs:352-388; texts
common_properties.rs:24, helpers.rs:9, 30-34, 178 and 73 of sysex7.rs and sysex8.rs). -/
def Sx.told (k : Sx) (b : Buf .ump) : Told (Buf .ump) :=
  if b.length < k.stride then .refused "Slice is too short"
  else do
    Told.check (U32.nibble (← Told.index b 0) 0 == k.typ) "Incorrect ump message type"
    toldStatuses (fun p => U32.nibble (head0 p) 2 == 0x0)
      (fun p => U32.nibble (head0 p) 2 == 0x1) (fun p => U32.nibble (head0 p) 2 == 0x2)
      (fun p => U32.nibble (head0 p) 2 == 0x3) k.stride k.typ b
    Told.of k.sizeText (k.validSizes b)
    Told.of "Inconsistent groups across packets" (consistentGroups k.stride k.typ b)
    k.toldStream b
    return b

/-- `TryFrom<&[u8]>` of `Sysex7` (generate_message.rs:352-388; sysex7.rs:37-38, 56-68, 96-107). -/
def Sxb.told (b : Buf .bytes) : Told (Buf .bytes) :=
  if b.length < 2 then .refused "Slice is too short"
  else do
    Told.check ((← Told.index b 0) == startByte) "Sysex messages should begin 0xF0"
    Told.check (endPos b).isSome "Sysex messages should end 0xF7"
    return b

/-- `ConsistentFormatsProperty::validate` (flex_data.rs:1106-1118). -/
def FlexText.toldFormats (b : Buf .ump) : Told Unit :=
  toldStatuses
    (fun p => U32.crumb (head0 p) 4 == 0#2) (fun p => U32.crumb (head0 p) 4 == 1#2)
    (fun p => U32.crumb (head0 p) 4 == 2#2) (fun p => U32.crumb (head0 p) 4 == 3#2)
    4 0xD#4 b

/-- `TryFrom<&[u32]>` of the flex data text messages (generate_message.rs:352-388; text.rs:200). -/
def FlexText.told (t : FlexText) (b : Buf .ump) : Told (Buf .ump) :=
  if b.length < 4 then .refused "Slice is too short"
  else do
    (Fld.umpType 0xD).told32 b
    Told.of "Inconsistent groups across packets" (consistentGroups 4 0xD#4 b)
    Fld.flexOptionalChannel.told32 b
    (Fld.flexBank t.bank).told32 b
    (Fld.flexStatus t.status).told32 b
    FlexText.toldFormats b
    Told.of "Payload bytes do not represent a valid utf string" (FlexText.validateText b)
    return b

/-- `TryFrom<&[u32]>` of the stream text messages (generate_message.rs:352-388;
ump_stream.rs:337; function_block_name.rs:55-57, 120). -/
def StreamText.told (t : StreamText) (b : Buf .ump) : Told (Buf .ump) :=
  if b.length < 4 then .refused "Slice is too short"
  else do
    (Fld.umpType 0xF).told32 b
    (Fld.streamStatus t.status).told32 b
    Fld.streamFormats.told32 b
    Told.of "Inconsistent function block fields" (t.checkBlock b)
    Told.of "Payload bytes do not represent a valid utf string" (t.validateText b)
    return b

/-- `T::try_from`. generate_message.rs:352-388. -/
def UmpKind.told : UmpKind → Buf .ump → Told (Buf .ump)
  | fixed d, b => d.told .ump b
  | sysex k, b => k.told b
  | flexText t, b => t.told b
  | streamText t, b => t.told b

/-- `T::try_from` over bytes. generate_message.rs:352-388. -/
def BytesKind.told : BytesKind → Buf .bytes → Told (Buf .bytes)
  | fixed d, b => d.told .bytes b
  | sysex7, b => Sxb.told b

/-- `match code { C => T::try_from(buffer)?.into(), …, _ => Err(InvalidData(text))? }`.
The shape of message.rs:43-73 and message.rs:116-128. -/
def toldDispatch {m : Fmt} {κ : Type} (parse : κ → Buf m → Told (Buf m)) (arms : List (Nat × κ))
    (text : String) (code : Nat) (b : Buf m) : Told (κ × Buf m) :=
  match arms.lookup code with
  | some k => do return (k, ← parse k b)
  | none => .refused text

/-- `Utility::try_from` (utility.rs:219-238). -/
def Utility.told (b : Buf .ump) : Told (MsgDesc × Buf .ump) :=
  if b.isEmpty then .refused "Slice is too short"
  else do
    toldDispatch (MsgDesc.told · .ump) Utility.arms "Unknown utility message status"
      (U32.nibble (← Told.index b 0) 2).toNat b

/-- `SystemCommon::try_from` (system_common.rs:223-248). -/
def SystemCommon.told (m : Fmt) (b : Buf m) : Told (MsgDesc × Buf m) :=
  if b.isEmpty then .refused "Slice is too short"
  else do
    toldDispatch (MsgDesc.told · m) SystemCommon.arms "Unknown midi1 channel voice status"
      (← Told.of "" (SystemCommon.status m b)) b

/-- `ChannelVoice1::try_from` (channel_voice1.rs:54-75). -/
def ChannelVoice1.told (m : Fmt) (b : Buf m) : Told (MsgDesc × Buf m) :=
  if b.isEmpty then .refused "Slice is too short"
  else do
    toldDispatch (MsgDesc.told · m) ChannelVoice1.arms "Unknown midi1 channel voice status"
      (← Told.of "" (ChannelVoice1.status m b)) b

/-- `ChannelVoice2::try_from` (channel_voice2.rs:76-130). -/
def ChannelVoice2.told (b : Buf .ump) : Told (MsgDesc × Buf .ump) :=
  if b.isEmpty then .refused "Slice is too short"
  else do
    toldDispatch (MsgDesc.told · .ump) ChannelVoice2.arms "Unknown midi2 channel voice status"
      (U32.nibble (← Told.index b 0) 2).toNat b

/-- `FlexData::try_from` (flex_data.rs:848-894). -/
def FlexData.told (b : Buf .ump) : Told (UmpKind × Buf .ump) :=
  if b.isEmpty then .refused "Slice is too short"
  else do
    toldDispatch UmpKind.told FlexData.arms "Couldn't interpret flex data status / bank fields"
      (U32.word (← Told.index b 0) 1).toNat b

/-- `UmpStream::try_from` (ump_stream.rs:70-115). -/
def UmpStream.told (b : Buf .ump) : Told (UmpKind × Buf .ump) :=
  if b.isEmpty then .refused "Slice is too short"
  else do
    toldDispatch UmpKind.told UmpStream.arms "Couldn't interpret flex data status / bank fields"
      (streamStatusOf (← Told.index b 0)).toNat b

/-- The body of `UmpMessage::try_from` behind the test for the empty slice (message.rs:43-73). -/
def UmpMessage.toldType (t : Nat) (b : Buf .ump) : Told (UmpKind × Buf .ump) :=
  match t with
  | 0xD => FlexData.told b
  | 0x2 => do return asUmp (← ChannelVoice1.told .ump b)
  | 0x4 => do return asUmp (← ChannelVoice2.told b)
  | 0x3 => do return (.sysex .s7, ← Sx.s7.told b)
  | 0x5 => do return (.sysex .s8, ← Sx.s8.told b)
  | 0x1 => do return asUmp (← SystemCommon.told .ump b)
  | 0xF => UmpStream.told b
  | 0x0 => do return asUmp (← Utility.told b)
  | _ => .refused "Couldn't interpret ump message type"

/-- `UmpMessage::try_from` (message.rs:33-75). -/
def UmpMessage.told (b : Buf .ump) : Told (UmpKind × Buf .ump) :=
  if b.isEmpty then .refused "Ump message slice is empty"
  else do UmpMessage.toldType (U32.nibble (← Told.index b 0) 0).toNat b

/-- The body of `BytesMessage::try_from` behind the test for the empty slice
(message.rs:116-128). -/
def BytesMessage.toldStatus (s : Nat) (b : Buf .bytes) : Told (BytesKind × Buf .bytes) :=
  if 0x80 ≤ s ∧ s ≤ 0xEF then do return asBytes (← ChannelVoice1.told .bytes b)
  else if s = 0xF0 then do return (.sysex7, ← Sxb.told b)
  else if (0xF1 ≤ s ∧ s ≤ 0xF6) ∨ (0xF8 ≤ s ∧ s ≤ 0xFF) then do
    return asBytes (← SystemCommon.told .bytes b)
  else .refused "Couldn't interpret bytes message type"

/-- `BytesMessage::try_from` (message.rs:108-130). -/
def BytesMessage.told (b : Buf .bytes) : Told (BytesKind × Buf .bytes) :=
  if b.isEmpty then .refused "Bytes slice is empty"
  else do BytesMessage.toldStatus (← Told.index b 0).toNat b

/-! ## Packets -/

namespace Packet

/-- `channel_voice1::Packet`, `system_common::Packet`, `utility::Packet`: `try_from`
(lines 18-40 of each packet.rs; common_err_strings.rs:1-2). -/
def toldWord (t : BitVec 4) (d : Buf .ump) : Told (Buf .ump) :=
  if d.isEmpty then .refused "Slice is too short"
  else do
    let w ← Told.index d 0
    if U32.nibble w 0 != t then .refused "Incorrect UMP message type" else return [w]

/-- `channel_voice2::Packet::try_from` (channel_voice2/packet.rs:18-40), `flex_data::Packet`
(flex_data/packet.rs:18-39) and `ump_stream::Packet` (ump_stream/packet.rs:18-40). -/
def toldWords (t : BitVec 4) (least n : Nat) (d : Buf .ump) : Told (Buf .ump) :=
  if d.length < least then .refused "Slice is too short"
  else do
    if U32.nibble (← Told.index d 0) 0 != t then .refused "Incorrect UMP message type"
    else return padded n d

/-- `sysex7::Packet::try_from` (sysex7/packet.rs:18-47, 146-156). -/
def toldSysex7 (d : Buf .ump) : Told (Buf .ump) :=
  if d.length < 2 then .refused "Slice is too short"
  else do
    let w ← Told.index d 0
    if U32.nibble w 0 != 3 then .refused "Incorrect UMP message type"
    else if (U32.nibble w 3).toNat > 6 then .refused "Size field can not exceed 6"
    else do
      let _ ← Told.of "Invalid SysEx7 status byte" (sysex7Status d)
      return padded 2 d

/-- `sysex8::Packet::try_from` (sysex8/packet.rs:18-43, 81-103). -/
def toldSysex8 (d : Buf .ump) : Told (Buf .ump) :=
  if d.length < 4 then .refused "Slice is too short"
  else do
    if U32.nibble (← Told.index d 0) 0 != 5 then .refused "Incorrect UMP message type"
    else do
      let _ ← Told.of "Invalid SysEx8 status byte" (sysex8Status d)
      return padded 4 d

end Packet

/-- `try_from` of the typed packets.
The `try_from` of each packet.rs, e.g. sysex7/packet.rs:18-47. -/
def PacketKind.told : PacketKind → Buf .ump → Told (Buf .ump)
  | channelVoice1, d => Packet.toldWord 2 d
  | channelVoice2, d => Packet.toldWords 4 1 2 d
  | flexData, d => Packet.toldWords 13 2 4 d
  | sysex7, d => Packet.toldSysex7 d
  | sysex8, d => Packet.toldSysex8 d
  | systemCommon, d => Packet.toldWord 1 d
  | umpStream, d => Packet.toldWords 15 1 4 d
  | utility, d => Packet.toldWord 0 d

/-- `packet::Packet::try_from` (packet.rs:44-73). -/
def Packet.told (d : Buf .ump) : Told Packet :=
  if d.isEmpty then .refused "Slice is too short"
  else do
    toldDispatch PacketKind.told Packet.arms "Incorrect UMP message type"
      (U32.nibble (← Told.index d 0) 0).toNat d

/-! ## Discovery query -/

namespace Ci

/-- The validation steps which can fail (ci/common_properties.rs:16-24, 72-80, 101-109, 132-140,
221-231). -/
def toldSteps (b : Buf .bytes) : Told (Buf .bytes) := do
  Told.check ((← Told.index b 1) == 0x7E) "Expected Universal Sysex Byte: 0x7E"
  Told.check ((← Told.index b 2) == 0x7F) "Expected DeviceID: To Function Block (0x7F)"
  Told.check ((← Told.index b 3) == 0x0D) "Expected Universal Sysex Sub Id #1: Midi CI (0x0D)"
  Told.check ((← Told.index b 4) == status) "Incorrect Universal Sysex Sub Id #2 field"
  Told.check ((← Told.of "" (readU28 b 10)) == BitVec.allOnes 28) "Expected broadcast destination MUID"
  return b

/-- `TryFrom<&[u8]>` of `DiscoveryQuery` (generate_ci.rs:525-557). -/
def told (v : BitVec 8) (b : Buf .bytes) : Told (Buf .bytes) :=
  if b.length < minSize v then .refused "Slice is too short"
  else do
    Told.check ((← Told.index b 5) == v) "Incorrect CI version"
    let b ← Sxb.told b
    if (1 : BitVec 8).toNat ≤ v.toNat then toldSteps b else .ok b

end Ci

end Midi2
