import Verif.Model.Packet
import Verif.Model.SysexBytes

/-!
# Machine integers

The other model files compute with unbounded numbers, and panic where a subtraction goes below
zero.  Here the functions of /repo which compute with `usize` (and `u8`) in the way of variable
operands are modelled once more, with the arithmetic as a parameter: every `+`, `-` and `*` of
the code is a call of `add`, `sub` or `mul`.

Three instances: `unbounded`, which the other files use; `checked w`, a `usize` of `w` bits with
overflow checks (debug builds); `wrapping w`, a `usize` of `w` bits without them (release builds).

Simplifications: additions which count the elements of a slice (`enumerate`) and the divisions
and remainders, which cannot overflow, are those of `Nat`; `Vec::resize` does not run out of
memory.
-/

namespace Midi2

/-- The arithmetic of `usize` (`sub`, `add`, `mul`) and of `u8` (`sub8`, `add8`).
The places in the crate which compute on these are the functions below, helpers.rs:142-254,
sysex7.rs and sysex8.rs. -/
structure Arith where
  sub : Nat → Nat → Res Nat
  add : Nat → Nat → Res Nat
  mul : Nat → Nat → Res Nat
  sub8 : Nat → Nat → Res Nat
  add8 : Nat → Nat → Res Nat

namespace Arith

/-- Unbounded numbers; below zero is a panic.
The arithmetic with which Splice.lean reads helpers.rs:142-254. -/
def unbounded : Arith where
  sub := usub
  add a b := .ok (a + b)
  mul a b := .ok (a * b)
  sub8 := usub
  add8 a b := .ok (a + b)

/-- `usize` of `w` bits with overflow checks (rustc `-C overflow-checks=on`, the default of
debug builds).
Applied to every sum, difference and product of helpers.rs:142-254, sysex7.rs:420-1016 and
sysex8.rs:192-646. -/
def checked (w : Nat) : Arith where
  sub := usub
  add a b := if a + b < 2 ^ w then .ok (a + b) else .panic
  mul a b := if a * b < 2 ^ w then .ok (a * b) else .panic
  sub8 := usub
  add8 a b := if a + b < 2 ^ 8 then .ok (a + b) else .panic

/-- `usize` of `w` bits without overflow checks (the default of release builds): two's
complement wrapping.  The operands are below `2 ^ w`.
Applied to every sum, difference and product of helpers.rs:142-254, sysex7.rs:420-1016 and
sysex8.rs:192-646. -/
def wrapping (w : Nat) : Arith where
  sub a b := .ok (if b ≤ a then a - b else 2 ^ w + a - b)
  add a b := .ok (if a + b < 2 ^ w then a + b else (a + b) % 2 ^ w)
  mul a b := .ok (if a * b < 2 ^ w then a * b else (a * b) % 2 ^ w)
  sub8 a b := .ok (if b ≤ a then a - b else 2 ^ 8 + a - b)
  add8 a b := .ok (if a + b < 2 ^ 8 then a + b else (a + b) % 2 ^ 8)

end Arith

/-! ### `detail/helpers.rs` -/

/-- helpers.rs:161-165 -/
def Bound.spliceBeginU (A : Arith) : Bound → Res Nat
  | .included v => .ok v
  | .excluded v => A.add v 1
  | .unbounded => .ok 0

/-- helpers.rs:166-170 -/
def Bound.spliceEndU (A : Arith) (initialSize : Nat) : Bound → Res Nat
  | .included v => A.add v 1
  | .excluded v => .ok v
  | .unbounded => .ok initialSize

namespace SxOps

variable {S β : Type}

/-- The inner loop (helpers.rs:198-208). -/
def fillU (A : Arith) (ops : SxOps S β) (begin est : Nat) :
    List β → S → Nat → Res (S × List β × Nat × Bool)
  | [], s, w => .ok (s, [], w, decide (w < est))
  | v :: rest, s, w =>
    if w < est then do
      let i ← A.add begin w
      let s ← ops.writeDatum s v i
      let w ← A.add w 1
      ops.fillU A begin est rest s w
    else .ok (s, v :: rest, w, false)

/-- The growth before the loop (helpers.rs:182-192). -/
def firstGrowU (A : Arith) (ops : SxOps S β) (s : S) (end' initial spliceSize est : Nat) :
    Res (S × Nat) := do
  let e ← A.add end' est
  let grown ← A.sub e spliceSize
  if end' < grown then do
    let n ← A.add est initial
    let n ← A.sub n spliceSize
    let r ← ops.resize s n
    match r with
    | (s, some sz) => do
      let kept ← A.sub initial spliceSize
      .ok (s, sz - kept)
    | (s, none) => .ok (s, est)
  else .ok (s, est)

/-- The growth inside the loop (helpers.rs:220-234); `saturating_sub` does not overflow. -/
def growMoreU (A : Arith) (ops : SxOps S β) (s : S)
    (begin tail initial spliceSize est : Nat) : Res (S × Nat × Nat) := do
  let to ← A.add begin est
  if tail < to then do
    let n ← A.add est initial
    let n ← A.sub n spliceSize
    let r ← ops.resize s n
    match r with
    | (s, some sz) => do
      let kept ← A.sub initial spliceSize
      let to ← A.add begin (sz - kept)
      let to ← A.sub to spliceSize
      .ok (s, sz - kept, to)
    | (s, none) => .ok (s, est, to)
  else .ok (s, est, to)

/-- The main loop (helpers.rs:197-245). -/
def mainLoopU (A : Arith) (ops : SxOps S β) (begin initial spliceSize : Nat) :
    Nat → S → List β → Nat → Nat → Nat → Nat → Res (LoopEnd S)
  | 0, _, _, _, _, _, _ => .panic
  | fuel + 1, s, data, written, est, add, tail => do
    let (s, data, written, exhausted) ← ops.fillU A begin est data s written
    if exhausted then return .done s written tail
    Res.assert (written == est)
    if data.isEmpty then return .done s written tail
    let est ← A.add est add
    let (s, est, to) ← ops.growMoreU A s begin tail initial spliceSize est
    let s ← ops.moveTail s tail to
    let tail ← A.add begin est
    let add ← A.mul add 2
    if written ≥ est then return .overflow s
    ops.mainLoopU A begin initial spliceSize fuel s data written est add tail

/-- `detail::try_splice_sysex_data` (helpers.rs:142-254). -/
def trySpliceDetailU (A : Arith) (ops : SxOps S β) (s : S) (d : Src β)
    (rb re : Bound) : Res (S × Option Error) := do
  let s ← ops.compact s
  let initial ← ops.payloadSize s
  let begin ← rb.spliceBeginU A
  let end' ← re.spliceEndU A initial
  let spliceSize ← A.sub end' begin
  let est := d.estimate
  let (s, est) ← ops.firstGrowU A s end' initial spliceSize est
  let e ← A.add end' est
  let tail ← A.sub e spliceSize
  let s ← ops.moveTail s end' tail
  match ← ops.mainLoopU A begin initial spliceSize (d.items.length + 1) s d.items 0 est 1 tail with
  | .overflow s => return (s, some .bufferOverflow)
  | .done s written tail => do
    let to ← A.add begin written
    let s ← ops.moveTail s tail to
    let n ← A.add written initial
    let n ← A.sub n spliceSize
    let (s, r) ← ops.resize s n
    return (s, r.map fun _ => .bufferOverflow)

/-- `try_splice_sysex_data` (helpers.rs:92-113). -/
def trySpliceU (A : Arith) (ops : SxOps S β) (s : S) (d : Src β) (rb re : Bound) :
    Res (S × Option Error) := do
  match ← ops.trySpliceDetailU A s d rb re with
  | (s, some e) => do
    let (s, r) ← ops.resize s 0
    return (s, match r with
      | some _ => some .bufferOverflow
      | none => some e)
  | (s, none) => return (s, none)

/-- `splice_sysex_data` (helpers.rs:115-135). -/
def spliceU (A : Arith) (ops : SxOps S β) (s : S) (d : Src β) (rb re : Bound) : Res S := do
  match ← ops.trySpliceDetailU A s d rb re with
  | (_, some _) => .panic
  | (s, none) => return s

/-- `insert_payload` (traits.rs:561-567). -/
def insertU (A : Arith) (ops : SxOps S β) (s : S) (d : Src β) (index : Nat) : Res S :=
  ops.spliceU A s d (.included index) (.excluded index)

/-- `try_insert_payload` (traits.rs:578-588). -/
def tryInsertU (A : Arith) (ops : SxOps S β) (s : S) (d : Src β) (index : Nat) :
    Res (S × Option Error) :=
  ops.trySpliceU A s d (.included index) (.excluded index)

/-- `append_payload` (traits.rs:592-598). -/
def appendU (A : Arith) (ops : SxOps S β) (s : S) (d : Src β) : Res S := do
  ops.insertU A s d (← ops.payloadSize s)

/-- `try_append_payload` (traits.rs:606-615). -/
def tryAppendU (A : Arith) (ops : SxOps S β) (s : S) (d : Src β) : Res (S × Option Error) := do
  ops.tryInsertU A s d (← ops.payloadSize s)

/-- `append_byte` (traits.rs:640-645). -/
def appendByteU (A : Arith) (ops : SxOps S β) (s : S) (v : β) : Res S := do
  ops.insertU A s ⟨[v], 1, some 1⟩ (← ops.payloadSize s)

/-- `try_append_byte` (traits.rs:653-661). -/
def tryAppendByteU (A : Arith) (ops : SxOps S β) (s : S) (v : β) : Res (S × Option Error) := do
  ops.tryInsertU A s ⟨[v], 1, some 1⟩ (← ops.payloadSize s)

/-- `set_payload` (sysex7.rs:449-456, sysex8.rs:352-359). -/
def setPayloadU (A : Arith) (ops : SxOps S β) (s : S) (d : Src β) : Res S := do
  let (s, r) ← ops.resize s 0
  match r with
  | some _ => .panic
  | none => ops.insertU A s d 0

/-- `try_set_payload` (sysex7.rs:458-468, sysex8.rs:360-370). -/
def trySetPayloadU (A : Arith) (ops : SxOps S β) (s : S) (d : Src β) :
    Res (S × Option Error) := do
  let (s, r) ← ops.resize s 0
  match r with
  | some _ => return (s, some .bufferOverflow)
  | none => ops.tryInsertU A s d 0

end SxOps

/-! ### `sysex7.rs` over words and `sysex8.rs` -/

namespace Sx

/-- `packet_size` (sysex7.rs:1001-1003, sysex8.rs:309-311): only sysex8 subtracts. -/
def packetSizeU (A : Arith) (k : Sx) (w : BitVec 32) : Res Nat :=
  match k with
  | s7 => .ok (U32.nibble w 3).toNat
  | s8 => A.sub (U32.nibble w 3).toNat 1

/-- The same with the subtraction of `u8`: `set_byte` (sysex7.rs:485, sysex8.rs:385) and
`compact` (sysex7.rs:715, sysex8.rs:625). -/
def packetSize8U (A : Arith) (k : Sx) (w : BitVec 32) : Res Nat :=
  match k with
  | s7 => .ok (U32.nibble w 3).toNat
  | s8 => A.sub8 (U32.nibble w 3).toNat 1

/-- `Size::size` (sysex7.rs:269-280, sysex8.rs:191-205). -/
def sizeU (A : Arith) (k : Sx) (b : Buf .ump) : Res Nat :=
  match (chunksExact k.stride b).findIdx? (fun p => isLast (head0 p)) with
  | some i => do
    let n ← A.mul i k.stride
    A.add n k.stride
  | none => .panic

/-- `data()` (generate_message.rs:328-337). -/
def dataU (A : Arith) (k : Sx) (b : Buf .ump) : Res (Buf .ump) := do
  let n ← k.sizeU A b
  sliceTo b n

/-- `.map(packet_size).sum()` (sysex7.rs:432-438, sysex8.rs:345-349), from the left. -/
def sumSizesU (A : Arith) (k : Sx) : Nat → List (Buf .ump) → Res Nat
  | acc, [] => .ok acc
  | acc, p :: ps => do
    let n ← k.packetSizeU A (head0 p)
    let acc ← A.add acc n
    k.sumSizesU A acc ps

/-- `payload()` (sysex7.rs:431-445, sysex8.rs:337-350). -/
def payloadU (A : Arith) (k : Sx) (b : Buf .ump) : Res It := do
  let d ← k.dataU A b
  let n ← k.sumSizesU A 0 (chunksExact k.stride d)
  return ⟨0, 0, n⟩

/-- `current_packet_size_ump` (sysex7.rs:997-999), `size_of_current_packet`
(sysex8.rs:315-317). -/
def curSizeU (A : Arith) (k : Sx) (b : Buf .ump) (packet : Nat) : Res Nat := do
  let i ← A.mul packet k.stride
  let j ← A.add i k.stride
  if i ≤ j ∧ j ≤ b.length then do
    let w ← at' b i
    k.packetSizeU A w
  else .panic

/-- `skip_empty_packets_ump` (sysex7.rs:975-980), the loop in `next` (sysex8.rs:223-226). -/
def skipEmptyU (A : Arith) (k : Sx) (b : Buf .ump) : Nat → It → Res It
  | 0, _ => .panic
  | fuel + 1, it =>
    if it.cache = 0 then .ok it
    else do
      let sz ← k.curSizeU A b it.packet
      if sz = 0 then do
        let p ← A.add it.packet 1
        k.skipEmptyU A b fuel { it with idx := 0, packet := p }
      else return it

/-- `value_ump` (sysex7.rs:965-969), `value` (sysex8.rs:304-308). -/
def valueU (A : Arith) (k : Sx) (b : Buf .ump) (it : It) : Res k.Byte := do
  let p ← A.mul it.packet k.stride
  let o ← A.add it.idx k.off
  let i ← A.add p (o / 4)
  let w ← at' b i
  return k.get w (o % 4)

/-- `advance_ump` (sysex7.rs:982-995), `advance` (sysex8.rs:318-328); the cache is only lowered
when it is not 0. -/
def advanceU (A : Arith) (k : Sx) (b : Buf .ump) (it : It) : Res It := do
  let i ← A.add it.idx 1
  let it := { it with idx := i, cache := it.cache - 1 }
  let sz ← k.curSizeU A b it.packet
  match k with
  | s7 =>
    if it.idx = sz then do
      let p ← A.add it.packet 1
      s7.skipEmptyU A b (b.length + 1) { it with packet := p, idx := 0 }
    else s7.skipEmptyU A b (b.length + 1) it
  | s8 =>
    if it.idx ≥ sz then do
      let p ← A.add it.packet 1
      return { it with packet := p, idx := 0 }
    else return it

/-- `Iterator::next` (sysex7.rs:869-880, sysex8.rs:218-231). -/
def nextU (A : Arith) (k : Sx) (b : Buf .ump) (it : It) : Res (Option k.Byte × It) :=
  if it.cache = 0 then .ok (none, it)
  else do
    let it ← k.skipEmptyU A b (b.length + 1) it
    let v ← k.valueU A b it
    let it ← k.advanceU A b it
    return (some v, it)

/-- The scan in `nth` (sysex7.rs:918-930, sysex8.rs:258-270). -/
def nthLoopU (A : Arith) (k : Sx) : List (Buf .ump) → Nat → Nat → It → Res (It × Bool)
  | [], _, _, it => .ok (it, false)
  | p :: ps, rel, n, it => do
    let size ← k.packetSizeU A (head0 p)
    if n < size then do
      let q ← A.add it.packet rel
      let c ← A.sub it.cache n
      return (⟨q, n, c⟩, true)
    else do
      let c ← A.sub it.cache size
      k.nthLoopU A ps (rel + 1) (n - size) { it with cache := c }

/-- The closure `do_nth` (sysex7.rs:898-932, sysex8.rs:237-272). -/
def doNthU (A : Arith) (k : Sx) (b : Buf .ump) (n : Nat) (it : It) :
    Res (Option k.Byte × It) := do
  let at0 ← A.mul it.packet k.stride
  if b.length < at0 then .panic
  else match chunksExact k.stride (b.drop at0) with
  | [] => .ok (none, it)
  | p :: ps => do
    let sz ← k.packetSizeU A (head0 p)
    let remaining ← A.sub sz it.idx
    if n < remaining then do
      let i ← A.add it.idx n
      let c ← A.sub it.cache n
      k.nextU A b { it with idx := i, cache := c }
    else do
      let c ← A.sub it.cache remaining
      match ← k.nthLoopU A ps 1 (n - remaining) { it with cache := c } with
      | (it, true) => k.nextU A b it
      | (it, false) => pure (none, it)

/-- `Iterator::nth` (sysex7.rs:891-943, sysex8.rs:236-282). -/
def nthU (A : Arith) (k : Sx) (b : Buf .ump) (n : Nat) (it : It) : Res (Option k.Byte × It) := do
  match ← k.doNthU A b n it with
  | (none, it) => return (none, { it with packet := b.length / 2, cache := 0 })
  | (some v, it) => return (some v, it)

/-- Repeated `next` until `None`, as `collect` does.
(std over `next`, sysex7.rs:857-888, sysex8.rs:217-234.) -/
def collectU (A : Arith) (k : Sx) (b : Buf .ump) : Nat → It → Res (List k.Byte)
  | 0, _ => .panic
  | fuel + 1, it => do
    match ← k.nextU A b it with
    | (none, _) => return []
    | (some v, it) => do
      let vs ← k.collectU A b fuel it
      return v :: vs

/-- `payload().collect()`. (std over `payload`, sysex7.rs:420-447, sysex8.rs:337-350.) -/
def payloadListU (A : Arith) (k : Sx) (b : Buf .ump) : Res (List k.Byte) := do
  let it ← k.payloadU A b
  k.collectU A b (it.cache + 1) it

/-- `payload_size()` (sysex7.rs:521-523, sysex8.rs:371-373). -/
def payloadSizeU (A : Arith) (k : Sx) (b : Buf .ump) : Res Nat := do
  let it ← k.payloadU A b
  return len it

/-- `buffer_size_from_payload_size(_ump)` (sysex7.rs:812-822, sysex8.rs:570-580). -/
def bufferSizeU (A : Arith) (k : Sx) (n : Nat) : Res Nat :=
  if n % k.cap = 0 then
    if n = 0 then .ok k.stride
    else match k with
      | s7 => .ok (n / 3)
      | s8 => do
        let m ← A.mul n 4
        return m / 13
  else do
    let m ← A.add (n / k.cap) 1
    A.mul k.stride m

/-- `u4::new(payload_size as u8)` (sysex7.rs:780), `u4::new(payload_size as u8 + 1)`
(sysex8.rs:538), and the same for the last packet (sysex7.rs:799, sysex8.rs:557). -/
def sizeNibbleU (A : Arith) (k : Sx) (n : Nat) : Res (BitVec 4) :=
  match k with
  | s7 => u4New (n % 256)
  | s8 => do
    let m ← A.add8 (n % 256) 1
    u4New m

/-- The first packet in `try_resize_ump` / `try_resize` (sysex7.rs:769-782,
sysex8.rs:527-540). -/
def firstHeadU (A : Arith) (k : Sx) (n : Nat) (only : Bool) (w : BitVec 32) : Res (BitVec 32) := do
  let w := U32.setNibble w 0 k.typ
  if only then do
    let s ← k.sizeNibbleU A n
    return U32.setNibble (U32.setNibble w 2 0x0) 3 s
  else
    return U32.setNibble (U32.setNibble w 2 0x1) 3 k.fullNibble

/-- The packets after the first (sysex7.rs:784-807, sysex8.rs:542-565). -/
def restPacketsU (A : Arith) (k : Sx) (n : Nat) (g : BitVec 4) :
    List (Buf .ump) → Res (List (Buf .ump))
  | [] => .ok []
  | [p] => do
    let p ← modifyAt p 0 fun w => U32.setNibble (U32.setNibble (U32.setNibble w 0 k.typ) 1 g) 2 0x3
    if n % k.cap = 0 then do
      let p ← modifyAt p 0 fun w => U32.setNibble w 3 k.fullNibble
      return [p]
    else do
      let s ← k.sizeNibbleU A (n % k.cap)
      let p ← modifyAt p 0 fun w => U32.setNibble w 3 s
      let p ← k.zeroTail (n % k.cap) p
      return [p]
  | p :: q :: ps => do
    let p ← modifyAt p 0 fun w => U32.setNibble
      (U32.setNibble (U32.setNibble (U32.setNibble w 0 k.typ) 1 g) 2 0x2) 3 k.fullNibble
    let ps ← k.restPacketsU A n g (q :: ps)
    return p :: ps

/-- Writing the packet headers (sysex7.rs:755-808, sysex8.rs:513-565). -/
def packetsU (A : Arith) (k : Sx) (n : Nat) : List (Buf .ump) → Res (List (Buf .ump))
  | [] => .ok []
  | p :: ps => do
    let w ← at' p 0
    let w' ← k.firstHeadU A n ps.isEmpty w
    let p ← modifyAt p 0 fun _ => w'
    let ps ← k.restPacketsU A n (U32.nibble w' 1) ps
    return p :: ps

/-- The payload size which is written: what was asked for, or what fits
(sysex7.rs:750-753, sysex8.rs:507-511). -/
def takenU (A : Arith) (k : Sx) (n sz : Nat) (fine : Bool) : Res Nat :=
  if fine then .ok n else A.mul (sz / k.stride) k.cap

/-- `try_resize_ump` (sysex7.rs:738-810), `try_resize` (sysex8.rs:495-568). -/
def tryResizeU (A : Arith) (k : Sx) (m : Mem) (b : Buf .ump) (n : Nat) :
    Res (Buf .ump × Option Nat) := do
  let sz ← k.bufferSizeU A n
  let (b, fine) := m.resize b sz
  let sz := if fine then sz else b.length
  let n ← k.takenU A n sz fine
  let cs := (chunksExact k.stride b).take (sz / k.stride)
  let cs' ← k.packetsU A n cs
  return (cs'.flatten ++ b.drop (k.stride * cs.length), if fine then none else some n)

/-- `write_datum` (sysex7.rs:588-595, sysex8.rs:440-450). -/
def writeDatumU (A : Arith) (k : Sx) (b : Buf .ump) (v : k.Byte) (i : Nat) : Res (Buf .ump) := do
  let p ← A.mul k.stride (i / k.cap)
  let j ← A.add p ((i % k.cap + k.off) / 4)
  modifyAt b j fun w => k.set w ((i % k.cap + k.off) % 4) v

/-- The closure `index` (sysex7.rs:623-626, sysex8.rs:459-462). -/
def addrU (A : Arith) (k : Sx) (i : Nat) : Res Nat := do
  let q ← A.add 1 (i / k.cap)
  let q ← A.mul k.off q
  A.add i q

/-- `for i in (tail..tail + n).rev()`, moving up by `d` (sysex7.rs:630-636,
sysex8.rs:466-472). -/
def moveUpU (A : Arith) (k : Sx) (d tail : Nat) : Nat → Buf .ump → Res (Buf .ump)
  | 0, b => .ok b
  | n + 1, b => do
    let src ← k.addrU A (tail + n)
    let j ← A.add (tail + n) d
    let dst ← k.addrU A j
    let b ← copyOctet b src dst
    k.moveUpU A d tail n b

/-- `for i in tail..tail + n`, moving down by `d` (sysex7.rs:640-643, sysex8.rs:476-479). -/
def moveDownU (A : Arith) (k : Sx) (d : Nat) : Nat → Nat → Buf .ump → Res (Buf .ump)
  | _, 0, b => .ok b
  | i, n + 1, b => do
    let src ← k.addrU A i
    let j ← A.sub i d
    let dst ← k.addrU A j
    let b ← copyOctet b src dst
    k.moveDownU A d (i + 1) n b

/-- `move_payload_tail` (sysex7.rs:600-650, sysex8.rs:452-483). -/
def moveTailU (A : Arith) (k : Sx) (dbg : Bool) (b : Buf .ump) (tail to : Nat) :
    Res (Buf .ump) := do
  Res.assert (!dbg || k.isCompact b)
  let ps ← k.payloadSizeU A b
  if tail < to then do
    let hi ← A.sub ps (to - tail)
    k.moveUpU A (to - tail) tail (hi - tail) b
  else if to < tail then k.moveDownU A (tail - to) tail (ps - tail) b
  else return b

/-- The inner loop of `compact` (sysex7.rs:715-725, sysex8.rs:625-635). -/
def compactPacketU (A : Arith) (k : Sx) (src : Nat) : List Nat → Buf .ump → Nat → Nat →
    Res (Buf .ump × Nat × Nat)
  | [], b, dp, di => .ok (b, dp, di)
  | i :: is, b, dp, di => do
    let s ← A.mul src k.stride
    let so ← A.add i k.off
    let s ← A.add s (so / 4)
    let w ← at' b s
    let t ← A.mul dp k.stride
    let to ← A.add di k.off
    let t ← A.add t (to / 4)
    let b ← modifyAt b t fun x => U32.setOctet x (to % 4) (U32.octet w (so % 4))
    let di ← A.add di 1
    if di = k.cap then do
      let dp ← A.add dp 1
      k.compactPacketU A src is b dp 0
    else k.compactPacketU A src is b dp di

/-- The outer loop of `compact` (sysex7.rs:704-732, sysex8.rs:614-642). -/
def compactLoopU (A : Arith) (k : Sx) : Nat → Buf .ump → Nat → Nat → Nat → Res (Buf .ump)
  | 0, _, _, _, _ => .panic
  | fuel + 1, b, src, dp, di => do
    let s ← A.mul src k.stride
    let w ← at' b s
    if U32.nibble w 2 = 0x0 then return b
    let size ← k.packetSize8U A w
    let (b, dp, di) ← k.compactPacketU A src (List.range size) b dp di
    let src ← A.add src 1
    if U32.nibble w 2 = 0x3 then return b
    k.compactLoopU A fuel b src dp di

/-- `compact` (sysex7.rs:652-659, 690-736; sysex8.rs:485-492, 604-646). -/
def compactU (A : Arith) (k : Sx) (b : Buf .ump) : Res (Buf .ump) :=
  if k.isCompact b then .ok b
  else do
    let n ← k.payloadSizeU A b
    let b ← k.compactLoopU A (b.length + 1) b 0 0 0
    match ← k.tryResizeU A .keep b n with
    | (b, none) => return b
    | (_, some _) => .panic

/-- The loop of `set_byte` (sysex7.rs:484-494, sysex8.rs:384-393). -/
def setByteLoopU (A : Arith) (k : Sx) (v : k.Byte) : Nat → Buf .ump → Nat → Nat → Res (Buf .ump)
  | 0, _, _, _ => .panic
  | fuel + 1, b, packet, i => do
    let p ← A.mul packet k.stride
    let w ← at' b p
    let sz ← k.packetSize8U A w
    if i < sz then do
      let o ← A.add i k.off
      let j ← A.add p (o / 4)
      modifyAt b j fun w => k.set w (o % 4) v
    else do
      let packet ← A.add packet 1
      k.setByteLoopU A v fuel b packet (i - sz)

/-- `set_byte` (sysex7.rs:479-495, sysex8.rs:374-394). -/
def setByteU (A : Arith) (k : Sx) (b : Buf .ump) (v : k.Byte) (i : Nat) : Res (Buf .ump) :=
  k.setByteLoopU A v (b.length + 1) b 0 i

/-- `SysexInternal` for the message over the given kind of buffer.
sysex7.rs:526-660, sysex8.rs:418-493. -/
def opsU (A : Arith) (k : Sx) (dbg : Bool) (m : Mem) : SxOps (Buf .ump) k.Byte where
  compact := k.compactU A
  payloadSize := k.payloadSizeU A
  moveTail := k.moveTailU A dbg
  writeDatum := k.writeDatumU A
  resize := k.tryResizeU A m

end Sx

/-! ### `sysex7.rs` over bytes -/

namespace Sxb

/-- `Size::size` (sysex7.rs:260-267): the position plus 1. -/
def sizeU (A : Arith) (b : Buf .bytes) : Res Nat :=
  match endPos b with
  | some i => A.add i 1
  | none => .panic

/-- `payload()` (sysex7.rs:424-430). -/
def payloadU (A : Arith) (b : Buf .bytes) : Res It := do
  let n ← sizeU A b
  let d ← sliceTo b n
  let e ← A.sub d.length 1
  if 1 ≤ e ∧ e ≤ b.length then return ⟨(b.take e).drop 1, 0⟩ else .panic

/-- `next` (sysex7.rs:859-867). -/
def nextU (A : Arith) (it : It) : Res (Option (BitVec 7) × It) :=
  match it.data[it.idx]? with
  | none => .ok (none, it)
  | some v => do
    let v ← u7New v
    let i ← A.add it.idx 1
    return (some v, { it with idx := i })

/-- `nth` (sysex7.rs:893-896). -/
def nthU (A : Arith) (n : Nat) (it : It) : Res (Option (BitVec 7) × It) := do
  let i ← A.add it.idx n
  nextU A { it with idx := i }

/-- Running the iterator to its end. (std over `next`, sysex7.rs:859-867.) -/
def collectU (A : Arith) : Nat → It → Res (List (BitVec 7))
  | 0, _ => .panic
  | fuel + 1, it => do
    match ← nextU A it with
    | (none, _) => return []
    | (some v, it) => do
      let vs ← collectU A fuel it
      return v :: vs

/-- `payload().collect()`. (std over `payload`, sysex7.rs:424-430.) -/
def payloadListU (A : Arith) (b : Buf .bytes) : Res (List (BitVec 7)) := do
  let it ← payloadU A b
  collectU A (it.data.length + 1) it

/-- `payload_size()` (sysex7.rs:521-523); `len` (sysex7.rs:1010) slices, and slicing panics in
every build. -/
def payloadSizeU (A : Arith) (b : Buf .bytes) : Res Nat := do
  let it ← payloadU A b
  len it

/-- `set_byte` (sysex7.rs:475-478). -/
def setByteU (A : Arith) (b : Buf .bytes) (v : BitVec 7) (i : Nat) : Res (Buf .bytes) := do
  let j ← A.add i 1
  modifyAt b j fun w => U8.setSeptet w v

/-- `write_datum` (sysex7.rs:584-586). -/
def writeDatumU (A : Arith) (b : Buf .bytes) (v : BitVec 7) (i : Nat) : Res (Buf .bytes) := do
  let j ← A.add i 1
  modifyAt b j fun _ => v.setWidth 8

/-- `specialise_u8_mut()[old_payload_size + 1] = 0`, when the message grows
(sysex7.rs:536-539, 566-569). -/
def eraseEndU (A : Arith) (grows : Bool) (old : Nat) (b : Buf .bytes) : Res (Buf .bytes) :=
  if grows then do
    let j ← A.add old 1
    modifyAt b j fun _ => 0
  else .ok b

/-- `resize` on `Vec` (sysex7.rs:532-541). -/
def resizeVecU (A : Arith) (b : Buf .bytes) (n : Nat) : Res (Buf .bytes) := do
  let sz ← A.add n 2
  let old ← payloadSizeU A b
  let b ← eraseEndU A (decide (n > old)) old (vecResize b sz)
  let j ← A.sub sz 1
  modifyAt b j fun _ => endByte

/-- `try_resize` on arrays and mutable slices (sysex7.rs:559-573). -/
def tryResizeFixedU (A : Arith) (b : Buf .bytes) (n : Nat) : Res (Buf .bytes × Option Nat) := do
  let old ← payloadSizeU A b
  let want ← A.add n 2
  let fits := decide (want ≤ b.length)
  let sz := if fits then want else b.length
  let b ← eraseEndU A (decide (sz > old)) old b
  let j ← A.sub sz 1
  let b ← modifyAt b j fun _ => endByte
  return (b, if fits then none else some (b.length - 2))

/-- `move_payload_tail` (sysex7.rs:607-620). -/
def moveTailU (A : Arith) (b : Buf .bytes) (tail to : Nat) : Res (Buf .bytes) := do
  let size ← payloadSizeU A b
  if tail < to then do
    let i ← A.add 1 tail
    let j ← A.add i (size - to)
    let t ← A.add to 1
    copyWithin b i j t
  else if to < tail then do
    let i ← A.add 1 tail
    let j ← A.add 1 size
    let t ← A.add to 1
    copyWithin b i j t
  else .ok b

/-- The closures passed to the splice, for `Vec` and for buffers of fixed size.
sysex7.rs:527-578. -/
def resizeU (A : Arith) (fixed : Bool) (b : Buf .bytes) (n : Nat) :
    Res (Buf .bytes × Option Nat) :=
  if fixed then tryResizeFixedU A b n
  else do
    let b ← resizeVecU A b n
    return (b, none)

/-- `SysexInternal` over bytes. sysex7.rs:526-660. -/
def opsU (A : Arith) (fixed : Bool) : SxOps (Buf .bytes) (BitVec 7) where
  compact b := .ok b
  payloadSize := payloadSizeU A
  moveTail := moveTailU A
  writeDatum := writeDatumU A
  resize := resizeU A fixed

end Sxb

/-! ### `sysex7/packet.rs`, `sysex8/packet.rs` -/

namespace Packet

/-- `packet_size` (sysex7/packet.rs:125-130, sysex8/packet.rs:153-158). -/
def payloadSizeU (A : Arith) (dbg : Bool) (k : Sx) (p : Buf .ump) : Res Nat := do
  let w ← at' p 0
  let n ← k.packetSizeU A w
  if dbg && decide (n > k.cap) then .panic else return n

/-- `self.data[(index + o) / 4].septet((index + o) % 4)`.
sysex7/packet.rs:85-93, sysex8/packet.rs:113-121. -/
def payloadValueU (A : Arith) (k : Sx) (p : Buf .ump) (i : Nat) : Res k.Byte := do
  let o ← A.add i k.off
  let w ← at' p (o / 4)
  return k.get w (o % 4)

/-- `next` (sysex7/packet.rs:85-93, sysex8/packet.rs:113-121). -/
def nextU (A : Arith) (dbg : Bool) (k : Sx) (p : Buf .ump) (i : Nat) :
    Res (Option k.Byte × Nat) := do
  let n ← payloadSizeU A dbg k p
  if i ≥ n then return (none, i)
  else do
    let v ← payloadValueU A k p i
    let i ← A.add i 1
    return (some v, i)

/-- `nth` (sysex7/packet.rs:95-104, sysex8/packet.rs:123-132). -/
def nthU (A : Arith) (dbg : Bool) (k : Sx) (p : Buf .ump) (n i : Nat) :
    Res (Option k.Byte × Nat) := do
  let j ← A.add i n
  let sz ← payloadSizeU A dbg k p
  if j ≥ sz then
    return (none, match k with
      | .s7 => min j 6
      | .s8 => j)
  else do
    let v ← payloadValueU A k p j
    match k with
    | .s7 => do
      let m ← A.add n 1
      let i ← A.add i m
      return (some v, i)
    | .s8 => return (some v, min j 13)

/-- `len` (sysex7/packet.rs:118-122, sysex8/packet.rs:146-150). -/
def lenU (A : Arith) (dbg : Bool) (k : Sx) (p : Buf .ump) (i : Nat) : Res Nat := do
  let n ← payloadSizeU A dbg k p
  A.sub n i

end Packet

end Midi2
