import Verif.Model.Dispatch

/-!
# Rebuffering of variable-size messages and of the enums; traits of the enums

The generated rebuffering code (/repo/midi2_proc/src/generate_message.rs:390-468) is the same
for every message; `Verif/Model/MsgOps.lean` has it for fixed-size messages, here it is for
all.  The enums forward to it (/repo/midi2_proc/src/derives.rs:177-313).
-/

namespace Midi2

namespace UmpKind

/-- `MinSize::MIN_SIZE` (generate_message.rs:290-309; `MinSizeUmp` of sysex7.rs:15,
sysex8.rs:16, flex_data.rs:30 and the like, endpoint_name.rs:5, product_instance_id.rs:5,
function_block_name.rs:10). -/
def minSize : UmpKind → Nat
  | fixed d => d.umpSize
  | sysex k => k.stride
  | flexText _ | streamText _ => 4

/-- `RebufferFrom` (generate_message.rs:390-420; buffer.rs:402-430): the buffer is copied or
reborrowed whole. -/
def rebufferFrom (_k : UmpKind) (b : Buf .ump) : Res (Buf .ump) := .ok b

/-- `TryRebufferFrom` into an array (generate_message.rs:422-452; buffer.rs:368-400). -/
def tryRebufferArray (_k : UmpKind) (size : Nat) (b : Buf .ump) : Res (Buf .ump) :=
  if b.length > size then .err .bufferOverflow
  else .ok (b ++ List.replicate (size - b.length) 0)

/-- `ArrayRebufferFrom` (generate_message.rs:454-468): `buffer[..message_size]` panics when
the array is smaller than `data()`; an array smaller than the minimum is a compile error,
represented by `panic`. -/
def arrayRebuffer (k : UmpKind) (size : Nat) (b : Buf .ump) : Res (Buf .ump) :=
  if size < k.minSize then .panic
  else do
    let x ← k.data b
    if x.length ≤ size then return x ++ List.replicate (size - x.length) 0 else .panic

end UmpKind

namespace BytesKind

/-- `MinSize::MIN_SIZE` (generate_message.rs:290-309; sysex7.rs:15). -/
def minSize : BytesKind → Nat
  | fixed d => d.minSize .bytes
  | sysex7 => 2

/-- `RebufferFrom` (generate_message.rs:390-420; buffer.rs:402-430). -/
def rebufferFrom (_k : BytesKind) (b : Buf .bytes) : Res (Buf .bytes) := .ok b

/-- `TryRebufferFrom` into an array (generate_message.rs:422-452; buffer.rs:368-400). -/
def tryRebufferArray (_k : BytesKind) (size : Nat) (b : Buf .bytes) : Res (Buf .bytes) :=
  if b.length > size then .err .bufferOverflow
  else .ok (b ++ List.replicate (size - b.length) 0)

/-- `ArrayRebufferFrom` (generate_message.rs:454-468). -/
def arrayRebuffer (k : BytesKind) (size : Nat) (b : Buf .bytes) : Res (Buf .bytes) :=
  if size < k.minSize then .panic
  else do
    let x ← k.data b
    if x.length ≤ size then return x ++ List.replicate (size - x.length) 0 else .panic

end BytesKind

/-- `RebufferFrom` of `UmpMessage`, `FlexData`, `UmpStream`, … (derives.rs:177-226). -/
def UmpMessage.rebufferFrom (x : UmpKind × Buf .ump) : Res (UmpKind × Buf .ump) := do
  return (x.1, ← x.1.rebufferFrom x.2)

/-- `TryRebufferFrom` of the same (derives.rs:228-277). -/
def UmpMessage.tryRebufferArray (size : Nat) (x : UmpKind × Buf .ump) :
    Res (UmpKind × Buf .ump) := do
  return (x.1, ← x.1.tryRebufferArray size x.2)

/-- `RebufferFrom` of `BytesMessage` (derives.rs:177-226). -/
def BytesMessage.rebufferFrom (x : BytesKind × Buf .bytes) : Res (BytesKind × Buf .bytes) := do
  return (x.1, ← x.1.rebufferFrom x.2)

/-- `TryRebufferFrom` of `BytesMessage` (derives.rs:228-277). -/
def BytesMessage.tryRebufferArray (size : Nat) (x : BytesKind × Buf .bytes) :
    Res (BytesKind × Buf .bytes) := do
  return (x.1, ← x.1.tryRebufferArray size x.2)

/-- `ArrayRebufferFrom` of `ChannelVoice1`, `ChannelVoice2`, `SystemCommon` and `Utility`
(derives.rs:279-313). -/
def FixedEnum.arrayRebuffer (m : Fmt) (size : Nat) (x : MsgDesc × Buf m) :
    Res (MsgDesc × Buf m) := do
  return (x.1, ← x.1.arrayRebuffer m size x.2)

/-! ## Group and channel -/

/-- The `group` property of channel voice, system common and fixed-size flex data messages
(/repo/midi2/src/detail/common_properties.rs:100). -/
abbrev groupFld : Fld := .schema .u4 ⟨0x0F000000, 0, 0, 0⟩

/-- The `channel` property of channel voice 1 messages (common_properties.rs:95-99). -/
abbrev channel1Fld : Fld := .hybrid .u4 ⟨0x0F, 0, 0⟩ ⟨0x000F0000, 0, 0, 0⟩

/-- The `channel` property of channel voice 2 messages (channel_voice2/note_on.rs:21-22 and the
like). -/
abbrev channel2Fld : Fld := .schema .u4 ⟨0x000F0000, 0, 0, 0⟩

/-- `group()` of `ChannelVoice1`, `ChannelVoice2`, `SystemCommon` (derives.rs:329-363). -/
def FixedEnum.group (x : MsgDesc × Buf .ump) : Res (BitVec 4) :=
  FixedEnum.read .ump "group" groupFld x

/-- `set_group(g)` of the same. derives.rs:329-363. -/
def FixedEnum.setGroup (g : BitVec 4) (x : MsgDesc × Buf .ump) : Res (MsgDesc × Buf .ump) :=
  FixedEnum.write .ump "group" groupFld g x

/-- `channel()` of `ChannelVoice1` (derives.rs:365-403). -/
def ChannelVoice1.channel (m : Fmt) (x : MsgDesc × Buf m) : Res (BitVec 4) :=
  FixedEnum.read m "channel" channel1Fld x

/-- `set_channel(c)` of `ChannelVoice1`. derives.rs:365-403. -/
def ChannelVoice1.setChannel (m : Fmt) (c : BitVec 4) (x : MsgDesc × Buf m) :
    Res (MsgDesc × Buf m) :=
  FixedEnum.write m "channel" channel1Fld c x

/-- `channel()` of `ChannelVoice2` (derives.rs:365-403). -/
def ChannelVoice2.channel (x : MsgDesc × Buf .ump) : Res (BitVec 4) :=
  FixedEnum.read .ump "channel" channel2Fld x

/-- `set_channel(c)` of `ChannelVoice2`. derives.rs:365-403. -/
def ChannelVoice2.setChannel (c : BitVec 4) (x : MsgDesc × Buf .ump) :
    Res (MsgDesc × Buf .ump) :=
  FixedEnum.write .ump "channel" channel2Fld c x

/-- `group()` of `FlexData` (derives.rs:329-363).  The enum has no other variants. -/
def FlexData.group : UmpKind × Buf .ump → Res (BitVec 4)
  | (.fixed d, b) => FixedEnum.group (d, b)
  | (.flexText _, b) => FlexText.group b
  | _ => .panic

/-- `set_group(g)` of `FlexData`. derives.rs:329-363. -/
def FlexData.setGroup (g : BitVec 4) : UmpKind × Buf .ump → Res (UmpKind × Buf .ump)
  | (.fixed d, b) => do return asUmp (← FixedEnum.setGroup g (d, b))
  | (.flexText t, b) => .ok (.flexText t, FlexText.setGroup b g)
  | _ => .panic

end Midi2
