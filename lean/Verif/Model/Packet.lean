import Verif.Model.Dispatch

/-!
# Packets

The typed packets (/repo/midi2/src/{channel_voice1, channel_voice2, flex_data, sysex7, sysex8,
system_common, ump_stream, utility}/packet.rs), the enum over them (packet.rs) and the iterator
`packets()` returns (packets.rs).  A typed packet is a newtype around an array, represented by
the list of its words.
-/

namespace Midi2

/-- The typed packets (packet.rs:7-24). -/
inductive PacketKind where
  | channelVoice1 | channelVoice2 | flexData | sysex7 | sysex8 | systemCommon | umpStream | utility
deriving DecidableEq, Repr

/-- `packet::Packet` (packet.rs:7-24): the variant and the array, which is what `deref` gives. -/
abbrev Packet := PacketKind × Buf .ump

/-- `Status` and `Format` of packets (sysex7/packet.rs:70-76, sysex8/packet.rs:66-79,
flex_data/packet.rs:62-68, ump_stream/packet.rs:50-56). -/
inductive PacketStatus where
  | complete | start | continue_ | end_
  /-- only sysex8; says whether the data received before is valid -/
  | unexpectedEnd (valid : Bool)
deriving DecidableEq, Repr

namespace Packet

/-- `status_from_data` (sysex7/packet.rs:146-156). -/
def sysex7Status (d : Buf .ump) : Res PacketStatus := do
  match (U32.nibble (← at' d 0) 2).toNat with
  | 0x0 => return .complete
  | 0x1 => return .start
  | 0x2 => return .continue_
  | 0x3 => return .end_
  | _ => .err .invalidData

/-- The arm for status 3 (sysex8/packet.rs:89-100); the slice `data[1..4]` panics on short
data. -/
def sysex8End (d : Buf .ump) (w : BitVec 32) : Res PacketStatus :=
  if U32.octet w 3 == 0 then
    if d.length < 4 then .panic
    else if ((d.take 4).drop 1).all (· == 0) then
      match (U32.nibble w 3).toNat with
      | 0x1 => .ok (.unexpectedEnd true)
      | 0xF => .ok (.unexpectedEnd false)
      | _ => .ok .end_
    else .ok .end_
  else .ok .end_

/-- `status_from_data` (sysex8/packet.rs:81-103). -/
def sysex8Status (d : Buf .ump) : Res PacketStatus := do
  let w ← at' d 0
  match (U32.nibble w 2).toNat with
  | 0x0 => return .complete
  | 0x1 => return .start
  | 0x2 => return .continue_
  | 0x3 => sysex8End d w
  | _ => .err .invalidData

/-- `let mut buffer = [0x0; N]; let sz = N.min(data.len()); buffer[..sz].copy_from_slice(..)`.
E.g. sysex7/packet.rs:18-47. -/
def padded (n : Nat) (d : Buf .ump) : Buf .ump :=
  d.take (min n d.length) ++ List.replicate (n - min n d.length) 0

/-- `channel_voice1::Packet`, `system_common::Packet`, `utility::Packet`: `try_from`
(lines 18-40 of each packet.rs). -/
def tryFromWord (t : BitVec 4) (d : Buf .ump) : Res (Buf .ump) :=
  if d.isEmpty then .err .invalidData
  else do
    let w ← at' d 0
    if U32.nibble w 0 != t then .err .invalidData else return [w]

/-- `channel_voice2::Packet::try_from` (channel_voice2/packet.rs:18-40), `flex_data::Packet`
(flex_data/packet.rs:18-39) and `ump_stream::Packet` (ump_stream/packet.rs:18-40); the shortest
accepted slice has 1, 2 and 1 words. -/
def tryFromWords (t : BitVec 4) (least n : Nat) (d : Buf .ump) : Res (Buf .ump) :=
  if d.length < least then .err .invalidData
  else do
    if U32.nibble (← at' d 0) 0 != t then .err .invalidData else return padded n d

/-- `sysex7::Packet::try_from` (sysex7/packet.rs:18-47). -/
def tryFromSysex7 (d : Buf .ump) : Res (Buf .ump) :=
  if d.length < 2 then .err .invalidData
  else do
    let w ← at' d 0
    if U32.nibble w 0 != 3 then .err .invalidData
    else if (U32.nibble w 3).toNat > 6 then .err .invalidData
    else do
      let _ ← sysex7Status d
      return padded 2 d

/-- `sysex8::Packet::try_from` (sysex8/packet.rs:18-43). -/
def tryFromSysex8 (d : Buf .ump) : Res (Buf .ump) :=
  if d.length < 4 then .err .invalidData
  else do
    if U32.nibble (← at' d 0) 0 != 5 then .err .invalidData
    else do
      let _ ← sysex8Status d
      return padded 4 d

end Packet

/-- `try_from` of the typed packets.
Lines of each kind above; sysex7/packet.rs:18-47, sysex8/packet.rs:18-43. -/
def PacketKind.tryFrom : PacketKind → Buf .ump → Res (Buf .ump)
  | channelVoice1, d => Packet.tryFromWord 2 d
  | channelVoice2, d => Packet.tryFromWords 4 1 2 d
  | flexData, d => Packet.tryFromWords 13 2 4 d
  | sysex7, d => Packet.tryFromSysex7 d
  | sysex8, d => Packet.tryFromSysex8 d
  | systemCommon, d => Packet.tryFromWord 1 d
  | umpStream, d => Packet.tryFromWords 15 1 4 d
  | utility, d => Packet.tryFromWord 0 d

namespace Packet

/-- The `match` on the message type (packet.rs:51-71). -/
def arms : List (Nat × PacketKind) := [
  (0x2, .channelVoice1), (0x4, .channelVoice2), (0xD, .flexData), (0x3, .sysex7), (0x5, .sysex8),
  (0x1, .systemCommon), (0xF, .umpStream), (0x0, .utility)]

/-- `packet::Packet::try_from` (packet.rs:26-73). -/
def tryFrom (d : Buf .ump) : Res Packet :=
  if d.isEmpty then .err .invalidData
  else do dispatch PacketKind.tryFrom arms (U32.nibble (← at' d 0) 0).toNat d

/-- `group()` (sysex7/packet.rs:57-60 and the same in the other files). -/
def group (p : Buf .ump) : Res (BitVec 4) := do return U32.nibble (← at' p 0) 1

/-- `set_group()` (sysex7/packet.rs:61-67 and the same in the other files). -/
def setGroup (p : Buf .ump) (g : BitVec 4) : Res (Buf .ump) := modifyAt p 0 (U32.setNibble · 1 g)

/-- `channel()` (channel_voice1/packet.rs:64-67, channel_voice2/packet.rs:65-68). -/
def channel (p : Buf .ump) : Res (BitVec 4) := do return U32.nibble (← at' p 0) 3

/-- `set_channel()` (channel_voice1/packet.rs:68-74, channel_voice2/packet.rs:69-75). -/
def setChannel (p : Buf .ump) (c : BitVec 4) : Res (Buf .ump) := modifyAt p 0 (U32.setNibble · 3 c)

/-- `format_from_data`: the `match` of both files; the wildcard arm is `unreachable!()`
(flex_data/packet.rs:76-86, ump_stream/packet.rs:64-74). -/
def formatOf (c : BitVec 2) : Res PacketStatus :=
  match c.toNat with
  | 0x0 => .ok .complete
  | 0x1 => .ok .start
  | 0x2 => .ok .continue_
  | 0x3 => .ok .end_
  | _ => .panic

/-- `flex_data::Packet::format` (flex_data/packet.rs:70-86). -/
def flexFormat (p : Buf .ump) : Res PacketStatus := do formatOf (U32.crumb (← at' p 0) 4)

/-- `ump_stream::Packet::format` (ump_stream/packet.rs:58-74). -/
def streamFormat (p : Buf .ump) : Res PacketStatus := do formatOf (U32.crumb (← at' p 0) 2)

/-- `status()` (sysex7/packet.rs:134-136, sysex8/packet.rs:162-164). -/
def sysexStatus : Sx → Buf .ump → Res PacketStatus
  | .s7, p => (sysex7Status p).unwrap
  | .s8, p => (sysex8Status p).unwrap

/-- `sysex8::Packet::stream_id` (sysex8/packet.rs:165-167, sysex8.rs:167-169). -/
def streamId (p : Buf .ump) : Res (BitVec 8) := do return U32.octet (← at' p 0) 2

/-! ### Payload iterator; its state is `index`, `payload()` starts at 0
(sysex7/packet.rs:78-81, 138-143, sysex8/packet.rs:105-108, 168-173) -/

/-- `packet_size` (sysex7/packet.rs:125-130, sysex8/packet.rs:153-158); `dbg` compiles the
assertion in. -/
def payloadSize (dbg : Bool) (k : Sx) (p : Buf .ump) : Res Nat := do
  let n ← usub (U32.nibble (← at' p 0) 3).toNat k.bias
  if dbg && decide (n > k.cap) then .panic else return n

/-- `self.data[(index + o) / 4].septet((index + o) % 4)`.
sysex7/packet.rs:85-93, sysex8/packet.rs:113-121. -/
def payloadValue (k : Sx) (p : Buf .ump) (i : Nat) : Res k.Byte := do
  return k.get (← at' p ((i + k.off) / 4)) ((i + k.off) % 4)

/-- `next` (sysex7/packet.rs:85-93, sysex8/packet.rs:113-121). -/
def next (dbg : Bool) (k : Sx) (p : Buf .ump) (i : Nat) : Res (Option k.Byte × Nat) := do
  if i ≥ (← payloadSize dbg k p) then return (none, i)
  else return (some (← payloadValue k p i), i + 1)

/-- `nth` (sysex7/packet.rs:95-104, sysex8/packet.rs:123-132). -/
def nth (dbg : Bool) (k : Sx) (p : Buf .ump) (n i : Nat) : Res (Option k.Byte × Nat) := do
  if i + n ≥ (← payloadSize dbg k p) then
    return (none, match k with
      | .s7 => min (i + n) 6
      | .s8 => i + n)
  else
    return (some (← payloadValue k p (i + n)), match k with
      | .s7 => i + (n + 1)
      | .s8 => min (i + n) 13)

/-- `len`, `size_hint` and `count` (sysex7/packet.rs:106-113, 118-122, sysex8/packet.rs:134-141,
146-150). -/
def len (dbg : Bool) (k : Sx) (p : Buf .ump) (i : Nat) : Res Nat := do
  usub (← payloadSize dbg k p) i

/-- `payload().collect()`: `next` until `None`; `fuel` bounds the calls.
sysex7/packet.rs:85-93, sysex8/packet.rs:113-121. -/
def collect (dbg : Bool) (k : Sx) (p : Buf .ump) : Nat → Nat → Res (List k.Byte)
  | 0, _ => .panic
  | fuel + 1, i => do
    match ← next dbg k p i with
    | (none, _) => return []
    | (some v, i) => return v :: (← collect dbg k p fuel i)

/-! ### `packets()` -/

/-- `PacketsIterator::next` (packets.rs:12-14); the state is the list of chunks to come, as in
`ChunksExact`. -/
def itNext (cs : List (Buf .ump)) : Res (Option Packet × List (Buf .ump)) :=
  match cs with
  | [] => .ok (none, [])
  | c :: cs => do return (some (← (tryFrom c).unwrap), cs)

/-- `PacketsIterator::nth` (packets.rs:15-17); `ChunksExact::nth` drops the chunks it skips and
all of them when there are too few. -/
def itNth (n : Nat) (cs : List (Buf .ump)) : Res (Option Packet × List (Buf .ump)) :=
  itNext (cs.drop n)

/-- `len`, `size_hint` and `count` (packets.rs:18-33), which `ChunksExact` answers. -/
def itLen (cs : List (Buf .ump)) : Nat := cs.length

end Packet

end Midi2
