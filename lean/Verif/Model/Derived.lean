import Verif.Model.Packet

/-!
# The derived `Debug` and `PartialEq` of messages and packets
-/

namespace Midi2

/-- One upper case hexadecimal digit (core's `UpperHex`: `b'0' + x` below ten, `b'A' + (x - 10)`
from ten on). Used by `{:#04X}` and `{:#010X}`, /repo/midi2_proc/src/derives.rs:443, 455. -/
def hexDigit (x : Nat) : Char :=
  if x < 10 then Char.ofNat (48 + x) else Char.ofNat (65 + (x - 10))

/-- The digits of a number as `core::fmt` produces them: from the last one on, dividing by 16
until nothing is left, at least one digit.  (`fuel` bounds the number of divisions; the callers
pass more than a `u32` has digits.) Used at /repo/midi2_proc/src/derives.rs:443, 455. -/
def hexDigits : (fuel : Nat) → (x : Nat) → List Char → List Char
  | 0, _, acc => acc
  | fuel + 1, x, acc =>
    let acc := hexDigit (x % 16) :: acc
    if x / 16 = 0 then acc else hexDigits fuel (x / 16) acc

/-- `{:#0wX}`: the prefix `0x`, then zeros up to the total width `w`, then the digits
(derives.rs:444 with `w = 4`, derives.rs:456 with `w = 10`; `Formatter::pad_integral` of core
with the flags `#` and `0`). -/
def hexPadded (w x : Nat) : List Char :=
  let ds := hexDigits 16 x []
  ['0', 'x'] ++ List.replicate (w - (2 + ds.length)) '0' ++ ds

/-- The loop over the peekable iterator (derives.rs:443-448, 455-460): every unit, and `", "`
if another one follows. -/
def debugUnits (w : Nat) {n : Nat} : List (BitVec n) → List Char
  | [] => []
  | v :: rest =>
    let tail := if rest.isEmpty then [] else [',', ' ']
    hexPadded w v.toNat ++ tail ++ debugUnits w rest

/-- The `Debug` output of a message or typed packet (derives.rs:405-469): the name of the type,
and the whole buffer — not only `data()`.  Every message type (generate_message.rs:246) and every
typed packet (channel_voice1/packet.rs:3, …) derives it.  The arm `_ => unreachable!()` is for
unit types other than `u8` and `u32`, of which there are none. -/
def debugText (name : List Char) : (m : Fmt) → Buf m → List Char
  | .bytes, b => name ++ ['(', '['] ++ debugUnits 4 b ++ [']', ')']
  | .ump, b => name ++ ['(', '['] ++ debugUnits 10 b ++ [']', ')']

/-- `#[derive(Debug)]` of the standard library on an enum variant with one field, formatted with
`{:?}`: `debug_tuple(name).field(x).finish()`. E.g. /repo/midi2/src/message.rs:14. -/
def debugVariant (name inner : List Char) : List Char := name ++ ['('] ++ inner ++ [')']

/-- The name of the struct of a fixed-size message type: the table has it behind the path of its
module. `stringify!(#ident)`, /repo/midi2_proc/src/derives.rs:435. -/
def MsgDesc.typeName (d : MsgDesc) : List Char := (d.name.toList.dropWhile (· != ':')).drop 2

/-- The name of the struct of a message type over words.
`stringify!(#ident)`, /repo/midi2_proc/src/derives.rs:435. -/
def UmpKind.typeName : UmpKind → List Char
  | .fixed d => d.typeName
  | .sysex .s7 => "Sysex7".toList
  | .sysex .s8 => "Sysex8".toList
  | .flexText t => t.name.toList
  | .streamText t => t.name.toList

/-- The variant of `UmpMessage` a message type belongs to (message.rs:14-31). -/
def UmpKind.groupName : UmpKind → List Char
  | .fixed d =>
    if d ∈ ChannelVoice2.arms.map Prod.snd then "ChannelVoice2".toList
    else if d ∈ ChannelVoice1.arms.map Prod.snd then "ChannelVoice1".toList
    else if d ∈ SystemCommon.arms.map Prod.snd then "SystemCommon".toList
    else if d ∈ Utility.arms.map Prod.snd then "Utility".toList
    else if .fixed d ∈ FlexData.arms.map Prod.snd then "FlexData".toList
    else "UmpStream".toList
  | .sysex .s7 => "Sysex7".toList
  | .sysex .s8 => "Sysex8".toList
  | .flexText _ => "FlexData".toList
  | .streamText _ => "UmpStream".toList

/-- `{:?}` of a value of `Utility`, `SystemCommon`, `ChannelVoice1`, `ChannelVoice2`, `FlexData`
or `UmpStream` (utility.rs:206, system_common.rs:205, channel_voice1.rs:40,
channel_voice2.rs:54, flex_data.rs:817, ump_stream.rs:48): the standard derive.  Every variant of
these enums is named like the type in it. -/
def UmpKind.debugInner (x : UmpKind × Buf .ump) : List Char :=
  debugVariant x.1.typeName (debugText x.1.typeName .ump x.2)

/-- `{:?}` of a value of `UmpMessage` (message.rs:9): the standard derive. -/
def UmpMessage.debug (x : UmpKind × Buf .ump) : List Char :=
  match x.1 with
  | .sysex _ => debugVariant x.1.groupName (debugText x.1.typeName .ump x.2)
  | _ => debugVariant x.1.groupName (UmpKind.debugInner x)

/-- `{:?}` of a value of `BytesMessage` (message.rs:84): the standard derive. -/
def BytesMessage.debug (x : BytesKind × Buf .bytes) : List Char :=
  match x.1 with
  | .sysex7 => debugVariant "Sysex7".toList (debugText "Sysex7".toList .bytes x.2)
  | .fixed d => debugVariant (UmpKind.groupName (.fixed d))
      (debugVariant d.typeName (debugText d.typeName .bytes x.2))

/-- The variants of `packet::Packet` (packet.rs:7-24). -/
def PacketKind.variantName : PacketKind → List Char
  | .channelVoice1 => "ChannelVoice1".toList
  | .channelVoice2 => "ChannelVoice2".toList
  | .flexData => "FlexData".toList
  | .sysex7 => "Sysex7".toList
  | .sysex8 => "Sysex8".toList
  | .systemCommon => "SystemCommon".toList
  | .umpStream => "UmpStream".toList
  | .utility => "Utility".toList

/-- `{:?}` of a value of `packet::Packet` (packet.rs:5): the standard derive; the typed packets
are all called `Packet`. -/
def Packet.debug (p : Packet) : List Char :=
  debugVariant p.1.variantName (debugText "Packet".toList .ump p.2)

/-- `==` of two messages of one type: `#[derive(PartialEq)]` on `struct T<B>(B)`
(generate_message.rs:246) compares the buffers; `Vec`, arrays and slices compare unit by unit and
differ if one is longer. -/
def messageEq {m : Fmt} (x y : Buf m) : Bool := x == y

/-- `==` of two values of an aggregate (message.rs:5-28, channel_voice1.rs:36-62, …):
`#[derive(PartialEq)]` on an enum compares the variants and then the messages in them. -/
def aggregateEq {K : Type} [BEq K] {m : Fmt} (x y : K × Buf m) : Bool :=
  x.1 == y.1 && messageEq x.2 y.2

end Midi2
