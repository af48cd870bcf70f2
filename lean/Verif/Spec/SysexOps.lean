import Verif.Spec.Sysex

/-!
# System exclusive messages: what a user observes

The observations are the public accessors; what they should say is stated with lists and
the wire layout of `Spec/Sysex.lean`.
-/

namespace Midi2

/-- What a user sees of a message with the given group and payload: `payload()` yields the
bytes, `payload_size()` counts them, `group()` is the group, and `data()` is the message
cut into packets, all full but the last. -/
structure Sx.Holds (k : Sx) (b : Buf .ump) (g : BitVec 4) (l : List k.Byte) : Prop where
  payload : k.payloadList b = .ok l
  size : k.payloadSize b = .ok l.length
  group : Sx.group b = .ok g
  wire : ∃ d, k.data b = .ok d ∧
    d.length = k.layout.words * (k.layout.fill l.length).length ∧
    k.layout.IsMessage d g.toNat (k.layout.fill l.length) ∧
    k.layout.payload d (k.layout.fill l.length) = l.map BitVec.toNat

/-- Messages the library compacts correctly: all packets but the last are full, or a packet at
a multiple of four words is partly filled. -/
def SysexLayout.Compactable (L : SysexLayout) (sizes : List Nat) : Prop :=
  (∀ j, j + 1 < sizes.length → sizes[j]? = some L.capacity) ∨
  (∃ j s, j + 1 < sizes.length ∧ L.words * j % 4 = 0 ∧ sizes[j]? = some s ∧ s ≠ L.capacity)

/-- What may lie in the buffer behind the packets its payload of `n` bytes needs, in builds
with debug assertions: over buffers of fixed size nothing may be partly filled, over resizable
ones nothing that directly follows. -/
def SysexLayout.Behind (L : SysexLayout) (fixed : Bool) (n : Nat) (b : List (BitVec 32)) : Prop :=
  if fixed then L.Tidy (L.words * (L.fill n).length) b
  else L.TidyRun (L.words * (L.fill n).length) b

/-- Messages that can be spliced. -/
structure SysexLayout.Spliceable (L : SysexLayout) (dbg fixed : Bool) (b : List (BitVec 32))
    (sizes : List Nat) : Prop where
  compactable : L.Compactable sizes
  behind : dbg = true → L.Behind fixed sizes.sum b

/-- What a splice takes for the payload of a message: the declared bytes if the library sees
that a packet is partly filled, and otherwise as many bytes from the beginning of the packets as
if all but the last were full. -/
def SysexLayout.Assumed (L : SysexLayout) (b : List (BitVec 32)) (sizes : List Nat)
    (l : List Nat) : Prop :=
  (¬ L.TidyRun 0 b → l = L.payload b sizes) ∧ (L.TidyRun 0 b → l = L.payload b (L.fill sizes.sum))

/-! ### Histories of calls -/

/-- A call that changes a message over a resizable buffer. -/
inductive SxCall (k : Sx) where
  | setGroup (g : BitVec 4)
  | setPayload (d : Src k.Byte)
  | splicePayload (d : Src k.Byte) (first last : Bound)
  | insertPayload (d : Src k.Byte) (i : Nat)
  | appendPayload (d : Src k.Byte)
  | appendByte (v : k.Byte)
  | setPayloadByte (i : Nat) (v : k.Byte)

/-- The library's side of a call. -/
def SxCall.exec {k : Sx} (dbg : Bool) (b : Buf .ump) : SxCall k → Res (Buf .ump)
  | .setGroup g => .ok (k.setGroup b g)
  | .setPayload d => (k.ops dbg .vec).setPayload b d
  | .splicePayload d rb re => (k.ops dbg .vec).splice b d rb re
  | .insertPayload d i => (k.ops dbg .vec).insert b d i
  | .appendPayload d => (k.ops dbg .vec).append b d
  | .appendByte v => (k.ops dbg .vec).appendByte b v
  | .setPayloadByte i v => k.setByte b v i

/-- The same on a group and a list of bytes. -/
def SxCall.apply {k : Sx} (s : BitVec 4 × List k.Byte) : SxCall k → BitVec 4 × List k.Byte
  | .setGroup g => (g, s.2)
  | .setPayload d => (s.1, d.items)
  | .splicePayload d rb re => (s.1, spliced s.2 rb.first (re.last s.2.length) d.items)
  | .insertPayload d i => (s.1, s.2.take i ++ d.items ++ s.2.drop i)
  | .appendPayload d => (s.1, s.2 ++ d.items)
  | .appendByte v => (s.1, s.2 ++ [v])
  | .setPayloadByte i v => (s.1, s.2.set i v)

/-- Arguments are in range. -/
def SxCall.InRange {k : Sx} (l : List k.Byte) : SxCall k → Prop
  | .splicePayload _ rb re => rb.first ≤ re.last l.length ∧ re.last l.length ≤ l.length
  | .insertPayload _ i => i ≤ l.length
  | .setPayloadByte i _ => i < l.length
  | _ => True

/-- A sequence of calls. -/
def SxCall.execAll {k : Sx} (dbg : Bool) : List (SxCall k) → Buf .ump → Res (Buf .ump)
  | [], b => .ok b
  | c :: cs, b => do SxCall.execAll dbg cs (← c.exec dbg b)

def SxCall.applyAll {k : Sx} : List (SxCall k) → BitVec 4 × List k.Byte → BitVec 4 × List k.Byte
  | [], s => s
  | c :: cs, s => SxCall.applyAll cs (c.apply s)

def SxCall.AllInRange {k : Sx} : List (SxCall k) → BitVec 4 × List k.Byte → Prop
  | [], _ => True
  | c :: cs, s => c.InRange s.2 ∧ SxCall.AllInRange cs (c.apply s)

/-- The iterator in a call knows how many bytes it has, or the bytes go to the end of the
payload. -/
def SxCall.Sized {k : Sx} (l : List k.Byte) : SxCall k → Prop
  | .splicePayload d rb _ => d.upper.getD d.lower = d.items.length ∨ rb.first = l.length
  | .insertPayload d i => d.upper.getD d.lower = d.items.length ∨ i = l.length
  | _ => True

def SxCall.AllSized {k : Sx} : List (SxCall k) → BitVec 4 × List k.Byte → Prop
  | [], _ => True
  | c :: cs, s => c.Sized s.2 ∧ SxCall.AllSized cs (c.apply s)

/-- The payloads after each of the calls. -/
def SxCall.payloads {k : Sx} : List (SxCall k) → BitVec 4 × List k.Byte → List (List k.Byte)
  | [], _ => []
  | c :: cs, s => (c.apply s).2 :: SxCall.payloads cs (c.apply s)

/-- Byte `i` of the last of the payloads which has one, zero if none has. -/
def lastHeld {k : Sx} (ps : List (List k.Byte)) (i : Nat) : Nat :=
  ((ps.reverse.findSome? (·[i]?)).map BitVec.toNat).getD 0

/-- A call that may fail, on a message over a buffer of fixed size. -/
inductive SxTryCall (k : Sx) where
  | setGroup (g : BitVec 4)
  | setPayload (d : Src k.Byte)
  | splicePayload (d : Src k.Byte) (first last : Bound)
  | insertPayload (d : Src k.Byte) (i : Nat)
  | appendPayload (d : Src k.Byte)
  | appendByte (v : k.Byte)
  | setPayloadByte (i : Nat) (v : k.Byte)

/-- The library's side: the message afterwards and the error returned. -/
def SxTryCall.exec {k : Sx} (dbg : Bool) (b : Buf .ump) :
    SxTryCall k → Res (Buf .ump × Option Error)
  | .setGroup g => .ok (k.setGroup b g, none)
  | .setPayload d => (k.ops dbg .fixed).trySetPayload b d
  | .splicePayload d rb re => (k.ops dbg .fixed).trySplice b d rb re
  | .insertPayload d i => (k.ops dbg .fixed).tryInsert b d i
  | .appendPayload d => (k.ops dbg .fixed).tryAppend b d
  | .appendByte v => (k.ops dbg .fixed).tryAppendByte b v
  | .setPayloadByte i v => (k.setByte b v i).bind fun b => .ok (b, none)

/-- The payload asked for. -/
def SxTryCall.wanted {k : Sx} (l : List k.Byte) : SxTryCall k → List k.Byte
  | .setGroup _ => l
  | .setPayload d => d.items
  | .splicePayload d rb re => spliced l rb.first (re.last l.length) d.items
  | .insertPayload d i => l.take i ++ d.items ++ l.drop i
  | .appendPayload d => l ++ d.items
  | .appendByte v => l ++ [v]
  | .setPayloadByte i v => l.set i v

/-- On a group and a list of bytes, in a buffer of `n` words: the payload asked for if its
packets fit, and an empty payload and `BufferOverflow` otherwise. -/
def SxTryCall.apply {k : Sx} (n : Nat) (s : BitVec 4 × List k.Byte) (c : SxTryCall k) :
    (BitVec 4 × List k.Byte) × Option Error :=
  let g := match c with
    | .setGroup g => g
    | _ => s.1
  if k.layout.wireLength (c.wanted s.2).length ≤ 4 * n then ((g, c.wanted s.2), none)
  else ((g, []), some .bufferOverflow)

/-- Arguments are in range; a splice that replaces a non-empty range must not be given an
iterator whose size hint is below the number of its items. -/
def SxTryCall.InRange {k : Sx} (l : List k.Byte) : SxTryCall k → Prop
  | .splicePayload d rb re => rb.first ≤ re.last l.length ∧ re.last l.length ≤ l.length ∧
      (rb.first = re.last l.length ∨ d.items.length ≤ d.upper.getD d.lower)
  | .insertPayload _ i => i ≤ l.length
  | .setPayloadByte i _ => i < l.length
  | _ => True

/-- A sequence of calls, with the errors returned. -/
def SxTryCall.execAll {k : Sx} (dbg : Bool) :
    List (SxTryCall k) → Buf .ump → Res (Buf .ump × List (Option Error))
  | [], b => .ok (b, [])
  | c :: cs, b => do
    let (b, e) ← c.exec dbg b
    let (b, es) ← SxTryCall.execAll dbg cs b
    return (b, e :: es)

def SxTryCall.applyAll {k : Sx} (n : Nat) :
    List (SxTryCall k) → BitVec 4 × List k.Byte → (BitVec 4 × List k.Byte) × List (Option Error)
  | [], s => (s, [])
  | c :: cs, s =>
    let r := SxTryCall.applyAll n cs (c.apply n s).1
    (r.1, (c.apply n s).2 :: r.2)

def SxTryCall.AllInRange {k : Sx} (n : Nat) :
    List (SxTryCall k) → BitVec 4 × List k.Byte → Prop
  | [], _ => True
  | c :: cs, s => c.InRange s.2 ∧ SxTryCall.AllInRange n cs (c.apply n s).1

/-! ### Iterating -/

/-- A call on the payload iterator. -/
inductive ItCall where
  | next
  | nth (n : Nat)

/-- The library's side: the item returned and the iterator afterwards. -/
def ItCall.exec (k : Sx) (b : Buf .ump) (it : Sx.It) : ItCall → Res (Option k.Byte × Sx.It)
  | .next => k.next b it
  | .nth n => k.nth b n it

/-- The same on the list of items still to come. -/
def ItCall.apply {α : Type} (l : List α) : ItCall → Option α × List α
  | .next => (l.head?, l.tail)
  | .nth n => (l[n]?, l.drop (n + 1))

/-- A sequence of calls: after each the item returned, `len()` and `size_hint()`. -/
def ItCall.execAll (k : Sx) (b : Buf .ump) :
    List ItCall → Sx.It → Res (List (Option k.Byte × Nat × Nat × Option Nat))
  | [], _ => .ok []
  | c :: cs, it => do
    let (v, it) ← c.exec k b it
    let vs ← ItCall.execAll k b cs it
    return (v, Sx.len it, Sx.sizeHint it) :: vs

def ItCall.applyAll {α : Type} : List ItCall → List α → List (Option α × Nat × Nat × Option Nat)
  | [], _ => []
  | c :: cs, l => ((c.apply l).1, (c.apply l).2.length, (c.apply l).2.length,
      some (c.apply l).2.length) :: ItCall.applyAll cs (c.apply l).2

/-- No `nth` after an `nth` that returned `None`. -/
def ItCall.StopsAtNone {α : Type} : List ItCall → List α → Prop
  | [], _ => True
  | .next :: cs, l => ItCall.StopsAtNone cs l.tail
  | .nth n :: cs, l => (l.length ≤ n → ∀ m, ItCall.nth m ∉ cs) ∧ ItCall.StopsAtNone cs (l.drop (n + 1))

/-- A scan that went past the end of the payload by `n` bytes gets by the packets behind the `p`
packets of the message: those before the first which is not empty do not matter; that one
must not be reached, and must not declare a size below zero. -/
def SysexLayout.Passable (L : SysexLayout) (b : List (BitVec 32)) (p n : Nat) : Prop :=
  ∀ i s, L.words * (p + i) + L.words ≤ b.length →
    (∀ i', i' < i → fieldAt b (L.words * (p + i')) 12 4 = some L.extra) →
    fieldAt b (L.words * (p + i)) 12 4 = some s → s = L.extra ∨ n = 0 ∧ L.extra ≤ s

/-- The sequences of calls which do not panic, on the items `l` still to come: no `nth` runs into
the packets behind the message, and `nth` is not called again after it has returned `None`
(`over`), unless the packets are of two words. -/
def ItCall.Fine {α : Type} (L : SysexLayout) (b : List (BitVec 32)) (p : Nat) :
    List ItCall → List α → (over : Bool) → Prop
  | [], _, _ => True
  | .next :: cs, l, over => ItCall.Fine L b p cs l.tail over
  | .nth n :: cs, l, false => (l.length ≤ n → L.Passable b p (n - l.length)) ∧
      ItCall.Fine L b p cs (l.drop (n + 1)) (decide (l.length ≤ n))
  | .nth _ :: cs, l, true => L.words = 2 ∧ ItCall.Fine L b p cs l true

end Midi2
