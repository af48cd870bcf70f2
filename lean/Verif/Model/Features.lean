import Verif.Model.Packet

/-!
# Cargo features

What changes in the enums over all messages and in the parsers of text messages when features of
the crate are left out (/repo/midi2/Cargo.toml:32-44).  The rest of the model is the crate with
all features.

Feature `ci` only adds a module and demands `sysex7`.  Without `std` there is no `Vec` buffer, no
`text()` and no `std::error::Error`; what is left behaves the same except where modelled here.
-/

namespace Midi2

/-- The features of a build.  The eight features for groups of messages are named by the kind of
packet they bring.
/repo/midi2/Cargo.toml:31-43; each is used in `#[cfg(feature = ..)]`, e.g.
/repo/midi2/src/packet.rs:51-67. -/
structure Features where
  on : PacketKind → Bool
  std : Bool

/-- A step compiled only with `std` (`#[cfg(feature = "std")]`, common.rs:128-136). -/
def ifStd (std : Bool) (step : Res Unit) : Res Unit := if std then step else .ok ()

/-- `try_from` (generate_message.rs:352-388) of a flex data text message: the validation of the
property `text` is compiled only with `std` (flex_data.rs:52-55, generate_message.rs:367-376,
common.rs `std_only_attribute`). -/
def FlexText.tryFromIn (std : Bool) (t : FlexText) (b : Buf .ump) : Res (Buf .ump) :=
  if b.length < 4 then .err .invalidData
  else do
    (Fld.umpType 0xD).validate32 b
    consistentGroups 4 0xD#4 b
    Fld.flexOptionalChannel.validate32 b
    (Fld.flexBank t.bank).validate32 b
    (Fld.flexStatus t.status).validate32 b
    FlexText.validateFormats b
    ifStd std (FlexText.validateText b)
    return b

/-- The same of a stream text message (endpoint_name.rs:20-23, product_instance_id.rs:20-23,
function_block_name.rs:31-34). -/
def StreamText.tryFromIn (std : Bool) (t : StreamText) (b : Buf .ump) : Res (Buf .ump) :=
  if b.length < 4 then .err .invalidData
  else do
    (Fld.umpType 0xF).validate32 b
    (Fld.streamStatus t.status).validate32 b
    Fld.streamFormats.validate32 b
    t.checkBlock b
    ifStd std (t.validateText b)
    return b

/-- `T::try_from`.
generate_message.rs:352-388; the `std` properties are validated only with `std`
(generate_message.rs:369-374). -/
def UmpKind.tryFromIn (std : Bool) : UmpKind → Buf .ump → Res (Buf .ump)
  | fixed d, b => d.tryFrom .ump b
  | sysex k, b => k.tryFrom b
  | flexText t, b => t.tryFromIn std b
  | streamText t, b => t.tryFromIn std b

/-- `FlexData::try_from` (flex_data.rs:848-894). -/
def FlexData.tryFromIn (std : Bool) (b : Buf .ump) : Res (UmpKind × Buf .ump) :=
  if b.isEmpty then .err .invalidData
  else do dispatch (UmpKind.tryFromIn std) FlexData.arms (U32.word (← at' b 0) 1).toNat b

/-- `UmpStream::try_from` (ump_stream.rs:70-115). -/
def UmpStream.tryFromIn (std : Bool) (b : Buf .ump) : Res (UmpKind × Buf .ump) :=
  if b.isEmpty then .err .invalidData
  else do dispatch (UmpKind.tryFromIn std) UmpStream.arms (streamStatusOf (← at' b 0)).toNat b

/-- The body of `UmpMessage::try_from` behind the test for the empty slice: an arm left out by
`#[cfg(feature = ..)]` leaves its message type to the last arm (message.rs:43-73). -/
def UmpMessage.ofTypeIn (F : Features) (t : Nat) (b : Buf .ump) : Res (UmpKind × Buf .ump) :=
  match t with
  | 0xD => if F.on .flexData then FlexData.tryFromIn F.std b else .err .invalidData
  | 0x2 => if F.on .channelVoice1 then do return asUmp (← ChannelVoice1.tryFrom .ump b)
      else .err .invalidData
  | 0x4 => if F.on .channelVoice2 then do return asUmp (← ChannelVoice2.tryFrom b)
      else .err .invalidData
  | 0x3 => if F.on .sysex7 then do return (.sysex .s7, ← Sx.s7.tryFrom b) else .err .invalidData
  | 0x5 => if F.on .sysex8 then do return (.sysex .s8, ← Sx.s8.tryFrom b) else .err .invalidData
  | 0x1 => if F.on .systemCommon then do return asUmp (← SystemCommon.tryFrom .ump b)
      else .err .invalidData
  | 0xF => if F.on .umpStream then UmpStream.tryFromIn F.std b else .err .invalidData
  | 0x0 => if F.on .utility then do return asUmp (← Utility.tryFrom b) else .err .invalidData
  | _ => .err .invalidData

/-- `UmpMessage::try_from` (message.rs:33-75). -/
def UmpMessage.tryFromIn (F : Features) (b : Buf .ump) : Res (UmpKind × Buf .ump) :=
  if b.isEmpty then .err .invalidData
  else do UmpMessage.ofTypeIn F (U32.nibble (← at' b 0) 0).toNat b

/-- The body of `BytesMessage::try_from` behind the test for the empty slice
(message.rs:116-128).  (The type is there if one of its three features is, message.rs:89-93.) -/
def BytesMessage.ofStatusIn (F : Features) (s : Nat) (b : Buf .bytes) :
    Res (BytesKind × Buf .bytes) :=
  if F.on .channelVoice1 ∧ 0x80 ≤ s ∧ s ≤ 0xEF then do
    return asBytes (← ChannelVoice1.tryFrom .bytes b)
  else if F.on .sysex7 ∧ s = 0xF0 then do return (.sysex7, ← Sxb.tryFrom b)
  else if F.on .systemCommon ∧ ((0xF1 ≤ s ∧ s ≤ 0xF6) ∨ (0xF8 ≤ s ∧ s ≤ 0xFF)) then do
    return asBytes (← SystemCommon.tryFrom .bytes b)
  else .err .invalidData

/-- `BytesMessage::try_from` (message.rs:108-130). -/
def BytesMessage.tryFromIn (F : Features) (b : Buf .bytes) : Res (BytesKind × Buf .bytes) :=
  if b.isEmpty then .err .invalidData
  else do BytesMessage.ofStatusIn F (← at' b 0).toNat b

/-- `packet::Packet::try_from` (packet.rs:26-73): the arms of features left out are missing. -/
def Packet.tryFromIn (F : Features) (d : Buf .ump) : Res Packet :=
  if d.isEmpty then .err .invalidData
  else do
    dispatch PacketKind.tryFrom (Packet.arms.filter fun x => F.on x.2)
      (U32.nibble (← at' d 0) 0).toNat d

/-- `PacketsIterator::next` (packets.rs:12-14). -/
def Packet.itNextIn (F : Features) (cs : List (Buf .ump)) :
    Res (Option Packet × List (Buf .ump)) :=
  match cs with
  | [] => .ok (none, [])
  | c :: cs => do return (some (← (Packet.tryFromIn F c).unwrap), cs)

end Midi2
