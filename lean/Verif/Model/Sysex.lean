import Verif.Model.MsgOps
import Verif.Model.Splice

/-!
# System exclusive messages over UMP buffers

Model of /repo/midi2/src/sysex7.rs (the `UNIT_ID_U32` branches) and
/repo/midi2/src/sysex8.rs.  The two files contain the same algorithms with different
constants, so one definition models both, with the constants of `Sx` as parameters; every
comment cites both places and the definitions branch on `Sx` where the code differs.

A message value is a newtype around its buffer, represented by the list of words.
`debug_assert!` is controlled by a parameter `dbg`.
-/

namespace Midi2

/-- `Sysex7` or `Sysex8`. sysex7.rs:15-35, sysex8.rs:16-35. -/
inductive Sx where
  | s7 | s8
deriving DecidableEq, Repr

namespace Sx

/-- `UMP_MESSAGE_TYPE` (sysex7.rs:13, sysex8.rs:11). -/
def typ : Sx → BitVec 4
  | s7 => 3
  | s8 => 5

/-- Words per packet. 2 at sysex7.rs:758, 4 at sysex8.rs:516. -/
def stride : Sx → Nat
  | s7 => 2
  | s8 => 4

/-- Payload bytes in a full packet. 6 at sysex7.rs:752, 13 at sysex8.rs:510. -/
def cap : Sx → Nat
  | s7 => 6
  | s8 => 13

/-- Octets before the payload of a packet.
2 at sysex7.rs:624 and sysex7.rs:717, 3 at sysex8.rs:305. -/
def off : Sx → Nat
  | s7 => 2
  | s8 => 3

/-- The size nibble of a packet is its number of payload bytes plus this (the stream id
counts in sysex8). sysex7.rs:1001-1003, sysex8.rs:309-311. -/
def bias : Sx → Nat
  | s7 => 0
  | s8 => 1

/-- Bits of a payload byte. `Byte`, sysex7.rs:413 and sysex8.rs:332. -/
abbrev bits : Sx → Nat
  | s7 => 7
  | s8 => 8

/-- `Sysex::Byte` (sysex7.rs:413, sysex8.rs:332). -/
abbrev Byte (k : Sx) : Type := BitVec k.bits

/-- Payload byte in octet `i` of a word: `septet` (sysex7.rs:968), `octet` (sysex8.rs:307). -/
def get : (k : Sx) → BitVec 32 → Nat → k.Byte
  | s7, w, i => U32.septet w i
  | s8, w, i => U32.octet w i

/-- `set_septet` (sysex7.rs:593), `set_octet` (sysex8.rs:449). -/
def set : (k : Sx) → BitVec 32 → Nat → k.Byte → BitVec 32
  | s7, w, i, v => U32.setSeptet w i v
  | s8, w, i, v => U32.setOctet w i v

/-- `PayloadIterator::packet_size` (sysex7.rs:1001-1003, sysex8.rs:309-311). -/
def packetSize (k : Sx) (w : BitVec 32) : Res Nat := usub (U32.nibble w 3).toNat k.bias

/-- Status nibble says complete or end. sysex7.rs:273-276, sysex8.rs:192-204. -/
def isLast (w : BitVec 32) : Bool := U32.nibble w 2 == 0x0 || U32.nibble w 2 == 0x3

/-- `Size::size` (sysex7.rs:269-280, sysex8.rs:191-205). -/
def size (k : Sx) (b : Buf .ump) : Res Nat :=
  match (chunksExact k.stride b).findIdx? (fun p => isLast (head0 p)) with
  | some i => .ok (i * k.stride + k.stride)
  | none => .panic

/-- Generated `data()` (generate_message.rs:328-337). -/
def data (k : Sx) (b : Buf .ump) : Res (Buf .ump) := do
  sliceTo b (← k.size b)

/-- `.map(packet_size).sum()` over packets (sysex7.rs:432-438, sysex8.rs:345-349). -/
def sumSizes (k : Sx) : List (Buf .ump) → Res Nat
  | [] => .ok 0
  | p :: ps => do
    let n ← k.packetSize (head0 p)
    return n + (← k.sumSizes ps)

/-- `PayloadIterator` without its borrowed `data`, which is the whole buffer
(sysex7.rs:845-853, sysex8.rs:207-213). -/
structure It where
  packet : Nat
  idx : Nat
  cache : Nat
deriving DecidableEq, Repr

/-- `payload()` (sysex7.rs:431-445, sysex8.rs:337-350). -/
def payload (k : Sx) (b : Buf .ump) : Res It := do
  let d ← k.data b
  return ⟨0, 0, ← k.sumSizes (chunksExact k.stride d)⟩

/-- `current_packet_size_ump` (sysex7.rs:997-999), `size_of_current_packet`
(sysex8.rs:315-317): the range index panics past the end. -/
def curSize (k : Sx) (b : Buf .ump) (packet : Nat) : Res Nat :=
  if packet * k.stride + k.stride ≤ b.length then do
    k.packetSize (← at' b (packet * k.stride))
  else .panic

/-- `skip_empty_packets_ump` (sysex7.rs:975-980), the loop in `next` (sysex8.rs:223-226).
`fuel` bounds the turns: past the end of the buffer `curSize` panics, so
`buffer.len() + 1` turns are enough. -/
def skipEmpty (k : Sx) (b : Buf .ump) : Nat → It → Res It
  | 0, _ => .panic
  | fuel + 1, it =>
    if it.cache = 0 then .ok it
    else do
      if (← k.curSize b it.packet) = 0 then
        k.skipEmpty b fuel { it with idx := 0, packet := it.packet + 1 }
      else return it

/-- `value_ump` (sysex7.rs:965-969), `value` (sysex8.rs:304-308). -/
def value (k : Sx) (b : Buf .ump) (it : It) : Res k.Byte := do
  return k.get (← at' b (it.packet * k.stride + (it.idx + k.off) / 4)) ((it.idx + k.off) % 4)

/-- `advance_ump` (sysex7.rs:982-995), `advance` (sysex8.rs:318-328). -/
def advance (k : Sx) (b : Buf .ump) (it : It) : Res It := do
  let it := { it with idx := it.idx + 1, cache := it.cache - 1 }
  let sz ← k.curSize b it.packet
  match k with
  | s7 =>
    let it := if it.idx = sz then { it with packet := it.packet + 1, idx := 0 } else it
    s7.skipEmpty b (b.length + 1) it
  | s8 =>
    return if it.idx ≥ sz then { it with packet := it.packet + 1, idx := 0 } else it

/-- `Iterator::next` (sysex7.rs:869-880, sysex8.rs:218-231). -/
def next (k : Sx) (b : Buf .ump) (it : It) : Res (Option k.Byte × It) :=
  if it.cache = 0 then .ok (none, it)
  else do
    let it ← k.skipEmpty b (b.length + 1) it
    let v ← k.value b it
    return (some v, ← k.advance b it)

/-- The scan over the packets after the current one in `nth` (sysex7.rs:918-930,
sysex8.rs:258-270).  `rel` is the enumeration index.  `false`: the packets ran out. -/
def nthLoop (k : Sx) : List (Buf .ump) → Nat → Nat → It → Res (It × Bool)
  | [], _, _, it => .ok (it, false)
  | p :: ps, rel, n, it => do
    let size ← k.packetSize (head0 p)
    if n < size then
      return (⟨it.packet + rel, n, ← usub it.cache n⟩, true)
    else
      k.nthLoop ps (rel + 1) (n - size) { it with cache := ← usub it.cache size }

/-- `Iterator::nth` (sysex7.rs:896-943, sysex8.rs:236-282).  The finished state after a
`None` is `packet_index = data.len() / 2` in both files. -/
def nth (k : Sx) (b : Buf .ump) (n : Nat) (it : It) : Res (Option k.Byte × It) := do
  let r ←
    if b.length < it.packet * k.stride then Res.panic
    else match chunksExact k.stride (b.drop (it.packet * k.stride)) with
    | [] => .ok (none, it)
    | p :: ps => do
      let remaining ← usub (← k.packetSize (head0 p)) it.idx
      if n < remaining then
        k.next b { it with idx := it.idx + n, cache := ← usub it.cache n }
      else do
        match ← k.nthLoop ps 1 (n - remaining)
            { it with cache := ← usub it.cache remaining } with
        | (it, true) => k.next b it
        | (it, false) => pure (none, it)
  match r with
  | (none, it) => return (none, { it with packet := b.length / 2, cache := 0 })
  | (some v, it) => return (some v, it)

/-- `size_hint` (sysex7.rs:955-957, sysex8.rs:292-294). -/
def sizeHint (it : It) : Nat × Option Nat := (it.cache, some it.cache)

/-- `ExactSizeIterator::len` (sysex7.rs:1012, sysex8.rs:298-300) and `count`. -/
def len (it : It) : Nat := it.cache

/-- Repeated `next` until `None`, as `collect` does.  `fuel` bounds the calls; every
yielded byte lowers the cache, so `cache + 1` calls are enough.
(std over `next`, sysex7.rs:857-888 and sysex8.rs:217-234.) -/
def collect (k : Sx) (b : Buf .ump) : Nat → It → Res (List k.Byte)
  | 0, _ => .panic
  | fuel + 1, it => do
    match ← k.next b it with
    | (none, _) => return []
    | (some v, it) => return v :: (← k.collect b fuel it)

/-- `payload().collect()`. (std over `payload`, sysex7.rs:420-447 and sysex8.rs:337-350.) -/
def payloadList (k : Sx) (b : Buf .ump) : Res (List k.Byte) := do
  let it ← k.payload b
  k.collect b (it.cache + 1) it

/-- `payload_size()` (sysex7.rs:521-523, sysex8.rs:371-373). -/
def payloadSize (k : Sx) (b : Buf .ump) : Res Nat := do
  return len (← k.payload b)

/-- `for packet in chunks_exact_mut(stride).take_while(type)` rewriting `packet[0]`.
sysex7.rs:228-239, sysex8.rs:126-132. -/
def onTyped (k : Sx) (b : Buf .ump) (f : BitVec 32 → BitVec 32) : Buf .ump :=
  onChunksExact k.stride b fun cs =>
    (cs.takeWhile (fun p => U32.nibble (head0 p) 0 == k.typ)).map (modifyHead0 f) ++
      cs.dropWhile (fun p => U32.nibble (head0 p) 0 == k.typ)

/-- `group()` (sysex7.rs:205-211, sysex8.rs:110-112). -/
def group (b : Buf .ump) : Res (BitVec 4) := do
  return U32.nibble (← at' b 0) 1

/-- `set_group(g)` (sysex7.rs:228-239, sysex8.rs:125-133). -/
def setGroup (k : Sx) (b : Buf .ump) (g : BitVec 4) : Buf .ump :=
  k.onTyped b fun w => U32.setNibble w 1 g

/-- `stream_id()` (sysex8.rs:149-151, 167-169). -/
def streamId (b : Buf .ump) : Res (BitVec 8) := do
  return U32.octet (← at' b 0) 2

/-- `set_stream_id(id)` (sysex8.rs:174-182). -/
def setStreamId (b : Buf .ump) (id : BitVec 8) : Buf .ump :=
  s8.onTyped b fun w => U32.setOctet w 3 id

/-- `ValidPacketSizes::validate` (sysex7.rs:171-186, sysex8.rs:68-79). -/
def validSizes (k : Sx) (b : Buf .ump) : Res Unit :=
  Res.check (!(chunksExact k.stride b).any fun p =>
    match k with
    | s7 => decide ((U32.nibble (head0 p) 3).toNat > 6)
    | s8 => !(decide (1 ≤ (U32.nibble (head0 p) 3).toNat) &&
        decide ((U32.nibble (head0 p) 3).toNat ≤ 14)))

/-- `StreamIdProperty::validate` (sysex8.rs:152-165); `buffer[0]` is only evaluated for
a visited chunk. -/
def validStreamId (b : Buf .ump) : Res Unit :=
  Res.check (((chunksExact 4 b).takeWhile
      (fun p => U32.nibble (head0 p) 0 == s8.typ)).all
    (fun p => U32.octet (head0 p) 2 == U32.octet (head0 b) 2))

/-- Generated `TryFrom<&[u32]>` (generate_message.rs:352-388) with the properties in
declaration order (sysex7.rs:18-36, sysex8.rs:19-35); `MinSizeUmp` is 2 and 4.  The
validations without effect on UMP (begin and end byte) are left out. -/
def tryFrom (k : Sx) (b : Buf .ump) : Res (Buf .ump) :=
  if b.length < k.stride then .err .invalidData
  else do
    Res.check (U32.nibble (← at' b 0) 0 == k.typ)
    validateStatuses (fun p => U32.nibble (head0 p) 2 == 0x0)
      (fun p => U32.nibble (head0 p) 2 == 0x1) (fun p => U32.nibble (head0 p) 2 == 0x2)
      (fun p => U32.nibble (head0 p) 2 == 0x3) k.stride k.typ b
    k.validSizes b
    consistentGroups k.stride k.typ b
    match k with
    | s7 => pure ()
    | s8 => validStreamId b
    return b

/-- `ValidPacketSizes::write` (sysex7.rs:191, sysex8.rs:85-94). -/
def writeSizes (k : Sx) (b : Buf .ump) : Buf .ump :=
  match k with
  | s7 => b
  | s8 => s8.onTyped b fun w =>
      U32.setNibble w 3 (if U32.nibble w 3 < 1 then 1 else U32.nibble w 3)

/-- Generated `initialise_property_statements` (generate_message.rs:125-143): defaults of
all properties in order: type, sizes, group 0 and, for sysex8, stream id 0. -/
def init (k : Sx) (b : Buf .ump) : Res (Buf .ump) := do
  let b ← modifyAt b 0 fun w => U32.setNibble w 0 k.typ
  let b := k.setGroup (k.writeSizes b) 0
  return match k with
  | s7 => b
  | s8 => setStreamId b 0

/-- `new()` on `Vec` (generate_message.rs:470-495). -/
def newVec (k : Sx) : Res (Buf .ump) := k.init (vecResize [] k.stride)

/-- `new_with_buffer` (generate_message.rs:497-525). -/
def newWithBuffer (k : Sx) (b : Buf .ump) : Res (Buf .ump) :=
  k.init (zeroPrefix (vecResize b k.stride) k.stride)

/-- `try_new_with_buffer` (generate_message.rs:527-555) over an array or mutable slice. -/
def tryNewWithBuffer (k : Sx) (b : Buf .ump) : Res (Buf .ump) := do
  let b ← fixedTryResize b k.stride
  k.init (zeroPrefix b k.stride)

/-- Array `new()` (generate_message.rs:557-590); a too small array is a compile error. -/
def newArray (k : Sx) (size : Nat) : Res (Buf .ump) :=
  if size < k.stride then .panic else k.init (List.replicate size 0)

/-- `try_new()` over an array (generate_message.rs:592-617). -/
def tryNew (k : Sx) (size : Nat) : Res (Buf .ump) := do
  let b ← fixedTryResize (List.replicate size (0 : BitVec 32)) k.stride
  k.init b

/-- `buffer_size_from_payload_size(_ump)` (sysex7.rs:812-822, sysex8.rs:570-580). -/
def bufferSize (k : Sx) (n : Nat) : Nat :=
  if n % k.cap = 0 then
    if n = 0 then k.stride
    else match k with
      | s7 => n / 3
      | s8 => n * 4 / 13
  else k.stride * (n / k.cap + 1)

/-- `u4::new(x)`: panics above 15.
(ux crate; used at sysex7.rs:780, sysex8.rs:538 and sysex8.rs:557.) -/
def u4New (x : Nat) : Res (BitVec 4) := if x < 16 then .ok (BitVec.ofNat 4 x) else .panic

/-- `u4::new(payload_size as u8)` (sysex7.rs:780), `u4::new(payload_size as u8 + 1)`
(sysex8.rs:538; the addition overflows for 255, which `u4New` rejects as well). -/
def sizeNibble (k : Sx) (n : Nat) : Res (BitVec 4) := u4New (n % 256 + k.bias)

/-- `u4::new(6)` / `u4::new(14)`. sysex7.rs:769-782 and sysex8.rs:534. -/
def fullNibble (k : Sx) : BitVec 4 := BitVec.ofNat 4 (k.cap + k.bias)

/-- The first packet in `try_resize_ump` / `try_resize` (sysex7.rs:769-782,
sysex8.rs:527-540). -/
def firstHead (k : Sx) (n : Nat) (only : Bool) (w : BitVec 32) : Res (BitVec 32) := do
  let w := U32.setNibble w 0 k.typ
  if only then
    return U32.setNibble (U32.setNibble w 2 0x0) 3 (← k.sizeNibble n)
  else
    return U32.setNibble (U32.setNibble w 2 0x1) 3 k.fullNibble

/-- Zeroing of the unused octets of the last packet (sysex7.rs:801-803,
sysex8.rs:559-561). -/
def zeroTail (k : Sx) (r : Nat) (p : Buf .ump) : Res (Buf .ump) :=
  (List.range' r (k.cap - r)).foldlM
    (fun p i => modifyAt p ((i + k.off) / 4) fun w => U32.setOctet w ((i + k.off) % 4) 0x0) p

/-- The packets after the first (sysex7.rs:784-807, sysex8.rs:542-565). -/
def restPackets (k : Sx) (n : Nat) (g : BitVec 4) : List (Buf .ump) → Res (List (Buf .ump))
  | [] => .ok []
  | [p] => do
    let p ← modifyAt p 0 fun w => U32.setNibble (U32.setNibble (U32.setNibble w 0 k.typ) 1 g) 2 0x3
    if n % k.cap = 0 then
      return [← modifyAt p 0 fun w => U32.setNibble w 3 k.fullNibble]
    else do
      let s ← k.sizeNibble (n % k.cap)
      let p ← modifyAt p 0 fun w => U32.setNibble w 3 s
      return [← k.zeroTail (n % k.cap) p]
  | p :: q :: ps => do
    let p ← modifyAt p 0 fun w => U32.setNibble
      (U32.setNibble (U32.setNibble (U32.setNibble w 0 k.typ) 1 g) 2 0x2) 3 k.fullNibble
    return p :: (← k.restPackets n g (q :: ps))

/-- Writing the packet headers in `try_resize_ump` / `try_resize` (sysex7.rs:755-808,
sysex8.rs:513-565): `chunks_exact_mut(stride).take(m)`. -/
def packets (k : Sx) (n : Nat) : List (Buf .ump) → Res (List (Buf .ump))
  | [] => .ok []
  | p :: ps => do
    let w ← at' p 0
    let w' ← k.firstHead n ps.isEmpty w
    let p ← modifyAt p 0 fun _ => w'
    return p :: (← k.restPackets n (U32.nibble w' 1) ps)

/-- The closure which resizes the buffer: `Vec::resize` never fails; fixed buffers
keep their length (buffer.rs:293-311); `compact` passes a closure doing nothing; `grow` and
`tryGrow` are buffers written by the user (buffer.rs:149-168): what their `resize` makes of
the contents, and for `try_resize` also whether it returned `Ok`. -/
inductive Mem where
  | vec | fixed | keep
  | grow (f : (w : Nat) → List (BitVec w) → Nat → List (BitVec w))
  | tryGrow (f : (w : Nat) → List (BitVec w) → Nat → List (BitVec w) × Bool)

/-- The buffer after the closure and whether it succeeded. buffer.rs:293-333. -/
def Mem.resize {w : Nat} : Mem → List (BitVec w) → Nat → List (BitVec w) × Bool
  | .vec, b, n => (vecResize b n, true)
  | .fixed, b, n => (b, decide (n ≤ b.length))
  | .keep, b, _ => (b, true)
  | .grow f, b, n => (f w b n, true)
  | .tryGrow f, b, n => f w b n

/-- `try_resize_ump` (sysex7.rs:738-810), `try_resize` (sysex8.rs:495-568). -/
def tryResize (k : Sx) (m : Mem) (b : Buf .ump) (n : Nat) : Res (Buf .ump × Option Nat) := do
  let sz := k.bufferSize n
  let (b, fine) := m.resize b sz
  let sz := if fine then sz else b.length
  let n := if fine then n else (sz / k.stride) * k.cap
  let cs := (chunksExact k.stride b).take (sz / k.stride)
  let cs' ← k.packets n cs
  return (cs'.flatten ++ b.drop (k.stride * cs.length), if fine then none else some n)

/-- `write_datum` (sysex7.rs:588-595, sysex8.rs:440-450). -/
def writeDatum (k : Sx) (b : Buf .ump) (v : k.Byte) (i : Nat) : Res (Buf .ump) :=
  modifyAt b (k.stride * (i / k.cap) + (i % k.cap + k.off) / 4)
    fun w => k.set w ((i % k.cap + k.off) % 4) v

/-- The closure `index` (sysex7.rs:623-626, sysex8.rs:459-462), as an octet address. -/
def addr (k : Sx) (i : Nat) : Nat := i + k.off * (1 + i / k.cap)

/-- `let v = buffer[src.0].octet(src.1); buffer[dst.0].set_octet(dst.1, v)`.
sysex7.rs:600-650, sysex8.rs:452-483, sysex8.rs:627-629. -/
def copyOctet (b : Buf .ump) (src dst : Nat) : Res (Buf .ump) := do
  let w ← at' b (src / 4)
  modifyAt b (dst / 4) fun x => U32.setOctet x (dst % 4) (U32.octet w (src % 4))

/-- `is_compact` (sysex7.rs:662-686, sysex8.rs:584-600).  Both files iterate
`chunks_exact(4)`, although a sysex7 packet has two words. -/
def isCompact (k : Sx) (b : Buf .ump) : Bool :=
  ((chunksExact 4 b).takeWhile (fun p => U32.nibble (head0 p) 0 == k.typ)).all fun p =>
    !((U32.nibble (head0 p) 2 == 0x1 || U32.nibble (head0 p) 2 == 0x2) &&
      U32.nibble (head0 p) 3 != k.fullNibble)

/-- `move_payload_tail` (sysex7.rs:600-650, sysex8.rs:452-483). -/
def moveTail (k : Sx) (dbg : Bool) (b : Buf .ump) (tail to : Nat) : Res (Buf .ump) := do
  Res.assert (!dbg || k.isCompact b)
  let ps ← k.payloadSize b
  if tail < to then
    let d := to - tail
    let hi ← usub ps d
    (List.range' tail (hi - tail)).reverse.foldlM
      (fun b i => copyOctet b (k.addr i) (k.addr (i + d))) b
  else if to < tail then
    let d := tail - to
    (List.range' tail (ps - tail)).foldlM
      (fun b i => copyOctet b (k.addr i) (k.addr (i - d))) b
  else return b

/-- The inner loop of `compact` (sysex7.rs:715-725, sysex8.rs:625-635): the source octets
`i` of the list, with the running destination packet and index. -/
def compactPacket (k : Sx) (src : Nat) : List Nat → Buf .ump → Nat → Nat →
    Res (Buf .ump × Nat × Nat)
  | [], b, dp, di => .ok (b, dp, di)
  | i :: is, b, dp, di => do
    let w ← at' b (src * k.stride + (i + k.off) / 4)
    let b ← modifyAt b (dp * k.stride + (di + k.off) / 4)
      fun x => U32.setOctet x ((di + k.off) % 4) (U32.octet w ((i + k.off) % 4))
    if di + 1 = k.cap then k.compactPacket src is b (dp + 1) 0
    else k.compactPacket src is b dp (di + 1)

/-- The outer loop of `compact` (sysex7.rs:704-732, sysex8.rs:614-642).  `fuel` bounds
the packets visited: past the end of the buffer the index panics. -/
def compactLoop (k : Sx) : Nat → Buf .ump → Nat → Nat → Nat → Res (Buf .ump)
  | 0, _, _, _, _ => .panic
  | fuel + 1, b, src, dp, di => do
    let w ← at' b (src * k.stride)
    if U32.nibble w 2 = 0x0 then return b
    let size ← k.packetSize w
    let (b, dp, di) ← k.compactPacket src (List.range size) b dp di
    if U32.nibble w 2 = 0x3 then return b
    k.compactLoop fuel b (src + 1) dp di

/-- `compact` (sysex7.rs:652-659, 690-736; sysex8.rs:485-492, 604-646). -/
def compact (k : Sx) (b : Buf .ump) : Res (Buf .ump) :=
  if k.isCompact b then .ok b
  else do
    let n ← k.payloadSize b
    let b ← k.compactLoop (b.length + 1) b 0 0 0
    match ← k.tryResize .keep b n with
    | (b, none) => return b
    | (_, some _) => .panic

/-- The loop of `set_byte` (sysex7.rs:484-494, sysex8.rs:384-393).  `fuel` bounds the
packets visited: past the end of the buffer the index panics. -/
def setByteLoop (k : Sx) (v : k.Byte) : Nat → Buf .ump → Nat → Nat → Res (Buf .ump)
  | 0, _, _, _ => .panic
  | fuel + 1, b, packet, i => do
    let sz ← k.packetSize (← at' b (packet * k.stride))
    if i < sz then
      modifyAt b (packet * k.stride + (i + k.off) / 4) fun w => k.set w ((i + k.off) % 4) v
    else k.setByteLoop v fuel b (packet + 1) (i - sz)

/-- `set_byte` (sysex7.rs:479-495, sysex8.rs:374-394). -/
def setByte (k : Sx) (b : Buf .ump) (v : k.Byte) (i : Nat) : Res (Buf .ump) :=
  k.setByteLoop v (b.length + 1) b 0 i

/-- `SysexInternal` for the message over the given kind of buffer.
sysex7.rs:526-660, sysex8.rs:418-493. -/
def ops (k : Sx) (dbg : Bool) (m : Mem) : SxOps (Buf .ump) k.Byte where
  compact := k.compact
  payloadSize := k.payloadSize
  moveTail := k.moveTail dbg
  writeDatum := k.writeDatum
  resize := k.tryResize m

end Sx

end Midi2
