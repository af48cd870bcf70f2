import Verif.Model.Sysex

/-!
# `Sysex7` over bytes

Model of the `UNIT_ID_U8` branches of /repo/midi2/src/sysex7.rs and of the conversions
between the two representations (sysex7.rs:286-410).
-/

namespace Midi2

namespace Sxb

/-- `0xF0` and `0xF7` (sysex7.rs:41-42). -/
def startByte : BitVec 8 := 0xF0
/-- `END_BYTE` (sysex7.rs:42). -/
def endByte : BitVec 8 := 0xF7

/-- `.iter().position(|b| *b == 0xF7)` (sysex7.rs:101, 265). -/
def endPos (b : Buf .bytes) : Option Nat := b.findIdx? (· == endByte)

/-- `Size::size` (sysex7.rs:260-267): `expect` on the position. -/
def size (b : Buf .bytes) : Res Nat :=
  match endPos b with
  | some i => .ok (i + 1)
  | none => .panic

/-- `data()` (generate_message.rs:328-337). -/
def data (b : Buf .bytes) : Res (Buf .bytes) := do sliceTo b (← size b)

/-- Generated `TryFrom<&[u8]>` (generate_message.rs:352-388) with `MinSizeBytes(2)`, the
begin byte (sysex7.rs:56-68) and the end byte (sysex7.rs:96-107); the other properties
accept every byte buffer. -/
def tryFrom (b : Buf .bytes) : Res (Buf .bytes) :=
  if b.length < 2 then .err .invalidData
  else do
    Res.check ((← at' b 0) == startByte)
    Res.check (endPos b).isSome
    return b

/-- `PayloadIterator` over bytes: the borrowed payload and the index (sysex7.rs:845-853;
`packet_index` and `size_cache` stay 0). -/
structure It where
  data : List (BitVec 8)
  idx : Nat
deriving DecidableEq, Repr

/-- `payload()` (sysex7.rs:424-430): `&buffer[1..data().len() - 1]`. -/
def payload (b : Buf .bytes) : Res It := do
  let d ← data b
  let e ← usub d.length 1
  if 1 ≤ e ∧ e ≤ b.length then return ⟨(b.take e).drop 1, 0⟩ else .panic

/-- `u7::new` (ux crate): panics for values which do not fit. Used at sysex7.rs:864. -/
def u7New (v : BitVec 8) : Res (BitVec 7) :=
  if v.toNat < 128 then .ok (v.setWidth 7) else .panic

/-- `next` (sysex7.rs:859-867). -/
def next (it : It) : Res (Option (BitVec 7) × It) :=
  match it.data[it.idx]? with
  | none => .ok (none, it)
  | some v => do
    let v ← u7New v
    return (some v, { it with idx := it.idx + 1 })

/-- `nth` (sysex7.rs:892-895). -/
def nth (n : Nat) (it : It) : Res (Option (BitVec 7) × It) := next { it with idx := it.idx + n }

/-- `len` (sysex7.rs:1011): `self.data[self.payload_index..].len()`. -/
def len (it : It) : Res Nat := usub it.data.length it.idx

/-- `size_hint` (sysex7.rs:955-957): `size_cache` is 0 in byte mode (sysex7.rs:429). -/
def sizeHint (_ : It) : Nat × Option Nat := (0, some 0)

/-- Running the iterator to its end. (std over `next`, sysex7.rs:859-867.) -/
def collect : Nat → It → Res (List (BitVec 7))
  | 0, _ => .panic
  | fuel + 1, it => do
    match ← next it with
    | (none, _) => return []
    | (some v, it) => return v :: (← collect fuel it)

/-- `payload().collect()`. (std over `payload`, sysex7.rs:424-430.) -/
def payloadList (b : Buf .bytes) : Res (List (BitVec 7)) := do
  let it ← payload b
  collect (it.data.length + 1) it

/-- `payload_size()` (sysex7.rs:521-523). -/
def payloadSize (b : Buf .bytes) : Res Nat := do len (← payload b)

/-- `set_byte` (sysex7.rs:475-478). -/
def setByte (b : Buf .bytes) (v : BitVec 7) (i : Nat) : Res (Buf .bytes) :=
  modifyAt b (i + 1) fun w => U8.setSeptet w v

/-- `write_datum` (sysex7.rs:584-586). -/
def writeDatum (b : Buf .bytes) (v : BitVec 7) (i : Nat) : Res (Buf .bytes) :=
  modifyAt b (i + 1) fun _ => v.setWidth 8

/-- `resize` on `Vec` (sysex7.rs:532-541). -/
def resizeVec (b : Buf .bytes) (n : Nat) : Res (Buf .bytes) := do
  let old ← payloadSize b
  let b := vecResize b (n + 2)
  let b ← if n > old then modifyAt b (old + 1) fun _ => 0 else .ok b
  modifyAt b (n + 2 - 1) fun _ => endByte

/-- `try_resize` on arrays and mutable slices (sysex7.rs:559-573). -/
def tryResizeFixed (b : Buf .bytes) (n : Nat) : Res (Buf .bytes × Option Nat) := do
  let old ← payloadSize b
  let fits := decide (n + 2 ≤ b.length)
  let sz := if fits then n + 2 else b.length
  let b ← if sz > old then modifyAt b (old + 1) fun _ => 0 else .ok b
  let b ← modifyAt b (← usub sz 1) fun _ => endByte
  return (b, if fits then none else some (b.length - 2))

/-- `slice::copy_within(first..last, to)` (std): panics for an invalid range or a
destination out of bounds. Used at sysex7.rs:612 and sysex7.rs:615. -/
def copyWithin (b : Buf .bytes) (first last to : Nat) : Res (Buf .bytes) :=
  if first ≤ last ∧ last ≤ b.length ∧ to + (last - first) ≤ b.length then
    .ok (b.take to ++ (b.take last).drop first ++ b.drop (to + (last - first)))
  else .panic

/-- `move_payload_tail` (sysex7.rs:606-619); the `debug_assert!` holds, since `is_compact`
is constantly true over bytes (sysex7.rs:665). -/
def moveTail (b : Buf .bytes) (tail to : Nat) : Res (Buf .bytes) := do
  let size ← payloadSize b
  if tail < to then copyWithin b (1 + tail) (1 + tail + (size - to)) (to + 1)
  else if to < tail then copyWithin b (1 + tail) (1 + size) (to + 1)
  else .ok b

/-- `resize` on a buffer written by the user (sysex7.rs:532-541). -/
def resizeGrow (f : Buf .bytes → Nat → Buf .bytes) (b : Buf .bytes) (n : Nat) : Res (Buf .bytes) := do
  let old ← payloadSize b
  let b := f b (n + 2)
  let b ← if n > old then modifyAt b (old + 1) fun _ => 0 else .ok b
  modifyAt b (n + 2 - 1) fun _ => endByte

/-- `try_resize` on a buffer written by the user (sysex7.rs:559-573). -/
def tryResizeGrow (f : Buf .bytes → Nat → Buf .bytes × Bool) (b : Buf .bytes) (n : Nat) :
    Res (Buf .bytes × Option Nat) := do
  let old ← payloadSize b
  let (b, fits) := f b (n + 2)
  let sz := if fits then n + 2 else b.length
  let b ← if sz > old then modifyAt b (old + 1) fun _ => 0 else .ok b
  let b ← modifyAt b (← usub sz 1) fun _ => endByte
  return (b, if fits then none else some (sz - 2))

/-- The closures passed to the splice: `resize` for `Vec`, `try_resize` for fixed buffers
(`Mem.keep` is not used over bytes). sysex7.rs:527-578, passed at helpers.rs:92-135. -/
def resize : Sx.Mem → Buf .bytes → Nat → Res (Buf .bytes × Option Nat)
  | .vec, b, n => do return (← resizeVec b n, none)
  | .grow f, b, n => do return (← resizeGrow (f 8) b n, none)
  | .tryGrow f, b, n => tryResizeGrow (f 8) b n
  | _, b, n => tryResizeFixed b n

/-- `SysexInternal` over bytes; `compact` does nothing (sysex7.rs:652-659). -/
def ops (m : Sx.Mem) : SxOps (Buf .bytes) (BitVec 7) where
  compact b := .ok b
  payloadSize := payloadSize
  moveTail := moveTail
  writeDatum := writeDatum
  resize := resize m

/-- Writing the defaults of all properties: begin byte (sysex7.rs:75-79) and end byte
(sysex7.rs:113-119); the others do nothing over bytes. -/
def init (b : Buf .bytes) : Res (Buf .bytes) := do
  let b ← modifyAt b 0 fun _ => startByte
  modifyAt b 1 fun _ => endByte

/-- `new()` on `Vec` (generate_message.rs:470-495). -/
def newVec : Res (Buf .bytes) := init (vecResize [] 2)

/-- `new_with_buffer` (generate_message.rs:497-525). -/
def newWithBuffer (b : Buf .bytes) : Res (Buf .bytes) := init (zeroPrefix (vecResize b 2) 2)

/-- `try_new_with_buffer` (generate_message.rs:527-555). -/
def tryNewWithBuffer (b : Buf .bytes) : Res (Buf .bytes) := do
  let b ← fixedTryResize b 2
  init (zeroPrefix b 2)

/-- Array `new()` (generate_message.rs:557-590). -/
def newArray (size : Nat) : Res (Buf .bytes) :=
  if size < 2 then .panic else init (List.replicate size 0)

/-- `try_new()` over an array (generate_message.rs:592-617). -/
def tryNew (size : Nat) : Res (Buf .bytes) := do
  let b ← fixedTryResize (List.replicate size (0 : BitVec 8)) 2
  init b

/-! ### Conversion between the representations (sysex7.rs:286-410)

The payload iterator of the source feeds `set_payload` of the destination.  The model
collects it first.  Simplification: for a source which panics while being iterated (a byte
with the top bit set) the model panics, where a fallible conversion of the code may have
returned `BufferOverflow` before it reached that byte.  `size_hint` is asked before
iteration.  `Verif/Model/LazyConvert.lean` has the same conversions without this
simplification. -/

/-- The payload of a byte message as an iterator.
sysex7.rs:424-430, with the `size_hint` of sysex7.rs:955-957. -/
def source (b : Buf .bytes) : Res (Src (BitVec 7)) := do
  let it ← payload b
  let l ← payloadList b
  return ⟨l, (sizeHint it).1, (sizeHint it).2⟩

/-- The payload of a UMP message as an iterator.
sysex7.rs:431-444, with the `size_hint` of sysex7.rs:955-957. -/
def sourceUmp (b : Buf .ump) : Res (Src (BitVec 7)) := do
  let it ← Sx.s7.payload b
  let l ← Sx.s7.payloadList b
  return ⟨l, (Sx.sizeHint it).1, (Sx.sizeHint it).2⟩

/-- `convert_generated_properties` to UMP (sysex7.rs:393-410): message type and, since the
group of a byte message reads as 0, group 0. -/
def convertToUmp (b : Buf .ump) : Res (Buf .ump) := do
  let b ← modifyAt b 0 fun w => U32.setNibble w 0 Sx.s7.typ
  return Sx.s7.setGroup b 0

/-- `from_bytes` (sysex7.rs:294-308). -/
def fromBytes (dbg : Bool) (a : Buf .bytes) : Res (Buf .ump) := do
  let b ← convertToUmp (vecResize [] 2)
  (Sx.s7.ops dbg .vec).setPayload b (← source a)

/-- `try_from_bytes` into an array of `size` words (sysex7.rs:342-348). -/
def tryFromBytes (dbg : Bool) (size : Nat) (a : Buf .bytes) : Res (Buf .ump) := do
  let b ← fixedTryResize (List.replicate size (0 : BitVec 32)) 2
  let b ← convertToUmp b
  let (b, e) ← (Sx.s7.ops dbg .fixed).trySetPayload b (← source a)
  match e with
  | some e => .err e
  | none => return b

/-- `from_ump` (sysex7.rs:318-331). -/
def fromUmp (a : Buf .ump) : Res (Buf .bytes) := do
  let b ← init (vecResize [] 2)
  (ops .vec).setPayload b (← sourceUmp a)

/-- `try_from_ump` into an array of `size` bytes (sysex7.rs:359-365). -/
def tryFromUmp (size : Nat) (a : Buf .ump) : Res (Buf .bytes) := do
  let b ← fixedTryResize (List.replicate size (0 : BitVec 8)) 2
  let b ← init b
  let (b, e) ← (ops .fixed).trySetPayload b (← sourceUmp a)
  match e with
  | some e => .err e
  | none => return b

end Sxb

end Midi2
