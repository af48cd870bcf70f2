import Verif.Model.SysexBytes
import Verif.Spec.SysexOps

/-!
# What `Sysex7` over bytes should do

A MIDI 1.0 system exclusive message is `F0`, bytes below `0x80`, `F7`.
-/

namespace Midi2

/-- The message with this payload. -/
def sysexBytes (l : List (BitVec 7)) : List (BitVec 8) :=
  0xF0 :: (l.map fun v => v.setWidth 8) ++ [0xF7]

/-- What `data()`, `payload()` and `payload_size()` return. -/
structure HoldsBytes (b : Buf .bytes) (l : List (BitVec 7)) : Prop where
  payload : Sxb.payloadList b = .ok l
  size : Sxb.payloadSize b = .ok l.length
  data : Sxb.data b = .ok (sysexBytes l)

/-- The calls of `SxCall` on a byte message.  The group is not stored. -/
def SxCall.execBytes (b : Buf .bytes) : SxCall .s7 → Res (Buf .bytes)
  | .setGroup _ => .ok b
  | .setPayload d => (Sxb.ops .vec).setPayload b d
  | .splicePayload d rb re => (Sxb.ops .vec).splice b d rb re
  | .insertPayload d i => (Sxb.ops .vec).insert b d i
  | .appendPayload d => (Sxb.ops .vec).append b d
  | .appendByte v => (Sxb.ops .vec).appendByte b v
  | .setPayloadByte i v => Sxb.setByte b v i

/-- A sequence of calls. -/
def SxCall.execAllBytes : List (SxCall .s7) → Buf .bytes → Res (Buf .bytes)
  | [], b => .ok b
  | c :: cs, b => do SxCall.execAllBytes cs (← c.execBytes b)

/-- The fallible calls of `SxTryCall` on a byte message in a fixed buffer. -/
def SxTryCall.execBytes (b : Buf .bytes) : SxTryCall .s7 → Res (Buf .bytes × Option Error)
  | .setGroup _ => .ok (b, none)
  | .setPayload d => (Sxb.ops .fixed).trySetPayload b d
  | .splicePayload d rb re => (Sxb.ops .fixed).trySplice b d rb re
  | .insertPayload d i => (Sxb.ops .fixed).tryInsert b d i
  | .appendPayload d => (Sxb.ops .fixed).tryAppend b d
  | .appendByte v => (Sxb.ops .fixed).tryAppendByte b v
  | .setPayloadByte i v => (Sxb.setByte b v i).bind fun b => .ok (b, none)

/-- A sequence of them, with the errors returned. -/
def SxTryCall.execAllBytes :
    List (SxTryCall .s7) → Buf .bytes → Res (Buf .bytes × List (Option Error))
  | [], b => .ok (b, [])
  | c :: cs, b => do
    let (b, e) ← c.execBytes b
    let (b, es) ← SxTryCall.execAllBytes cs b
    return (b, e :: es)

/-- On a list of bytes, in a buffer of `n` bytes: the payload asked for if it fits between
`F0` and `F7`, and an empty payload and `BufferOverflow` otherwise. -/
def SxTryCall.applyBytes (n : Nat) (l : List (BitVec 7)) (c : SxTryCall .s7) :
    List (BitVec 7) × Option Error :=
  if (SxTryCall.wanted (k := .s7) l c).length + 2 ≤ n then (SxTryCall.wanted (k := .s7) l c, none)
  else ([], some .bufferOverflow)

def SxTryCall.applyAllBytes (n : Nat) :
    List (SxTryCall .s7) → List (BitVec 7) → List (BitVec 7) × List (Option Error)
  | [], l => (l, [])
  | c :: cs, l =>
    let r := SxTryCall.applyAllBytes n cs (c.applyBytes n l).1
    (r.1, (c.applyBytes n l).2 :: r.2)

/-- Arguments are in range and size hints exact, and a call that writes before the end of the
payload lengthens it by one byte at most. -/
def SxTryCall.Gentle (l : List (BitVec 7)) : SxTryCall .s7 → Prop
  | .setGroup _ => True
  | .setPayload d => d.upper.getD d.lower = d.items.length
  | .splicePayload d rb re => d.upper.getD d.lower = d.items.length ∧
      rb.first ≤ re.last l.length ∧ re.last l.length ≤ l.length ∧
      (re.last l.length = l.length ∨ d.items.length ≤ re.last l.length - rb.first + 1)
  | .insertPayload d i => d.upper.getD d.lower = d.items.length ∧ i ≤ l.length ∧
      (i = l.length ∨ d.items.length ≤ 1)
  | .appendPayload d => d.upper.getD d.lower = d.items.length
  | .appendByte _ => True
  | .setPayloadByte i _ => i < l.length

def SxTryCall.AllGentle (n : Nat) : List (SxTryCall .s7) → List (BitVec 7) → Prop
  | [], _ => True
  | c :: cs, l => c.Gentle l ∧ SxTryCall.AllGentle n cs (c.applyBytes n l).1

/-- Iterator calls over bytes: the items returned and the iterator afterwards. -/
def ItCall.execBytes : List ItCall → Sxb.It → Res (List (Option (BitVec 7)) × Sxb.It)
  | [], it => .ok ([], it)
  | c :: cs, it => do
    let (v, it) ← match c with
      | .next => Sxb.next it
      | .nth n => Sxb.nth n it
    let (vs, it) ← ItCall.execBytes cs it
    return (v :: vs, it)

/-- The same on a list: the items returned and the items left. -/
def ItCall.items {α : Type} : List ItCall → List α → List (Option α) × List α
  | [], l => ([], l)
  | c :: cs, l =>
    let r := ItCall.items cs (c.apply l).2
    ((c.apply l).1 :: r.1, r.2)

/-- No call `nth(n)` with more than `n` items missing. -/
def ItCall.Within {α : Type} : List ItCall → List α → Prop
  | [], _ => True
  | .next :: cs, l => ItCall.Within cs l.tail
  | .nth n :: cs, l => n ≤ l.length ∧ ItCall.Within cs (l.drop (n + 1))

end Midi2
