import Verif.Spec.SysexBytes
import Verif.Model.Custom

/-!
# What a user-written buffer may be expected to do

Nothing in the library states this contract; it is what `Vec::resize` does, except that
the new units may hold anything.
-/

namespace Midi2

/-- A buffer that can always be resized: it has the requested size afterwards, and keeps
the units it had before. -/
structure Grows {w : Nat} (f : List (BitVec w) → Nat → List (BitVec w)) : Prop where
  length : ∀ b n, (f b n).length = n
  keeps : ∀ b n i, i < n → i < b.length → (f b n)[i]? = b[i]?

/-- A buffer that can be resized to any size up to `cap`, and is left alone by a request
for more. -/
structure TryGrows {w : Nat} (f : List (BitVec w) → Nat → List (BitVec w) × Bool) (cap : Nat) :
    Prop where
  ok : ∀ b n, n ≤ cap → (f b n).2 = true
  length : ∀ b n, n ≤ cap → (f b n).1.length = n
  keeps : ∀ b n i, n ≤ cap → i < n → i < b.length → (f b n).1[i]? = b[i]?
  full : ∀ b n, cap < n → f b n = (b, false)

/-- A buffer that can always be resized, and may have more units afterwards than were requested,
as one that grows by whole pages. -/
structure Roomy {w : Nat} (f : List (BitVec w) → Nat → List (BitVec w)) : Prop where
  length : ∀ b n, n ≤ (f b n).length
  keeps : ∀ b n i, i < n → i < b.length → (f b n)[i]? = b[i]?

/-- Every unit is 0, or was there before. -/
def AddsZeros {w : Nat} (f : List (BitVec w) → Nat → List (BitVec w)) : Prop :=
  ∀ (b : List (BitVec w)) (n i : Nat) (v : BitVec w), (f b n)[i]? = some v → v = 0 ∨ b[i]? = some v

/-- Of the requested bytes those that were not there before are below `0x80`, and so are all that
were not requested. -/
def ClearsRest (f : List (BitVec 8) → Nat → List (BitVec 8)) : Prop :=
  ∀ (b : List (BitVec 8)) (n i : Nat) (v : BitVec 8), n ≤ i ∨ b.length ≤ i → (f b n)[i]? = some v →
    v.toNat < 128

/-- A buffer of whole pages of `page` units in which all that was not requested is 0. -/
def growCleared (page : Nat) (w : Nat) (b : List (BitVec w)) (n : Nat) : List (BitVec w) :=
  b.take n ++ List.replicate ((n + page - 1) / page * page - min n b.length) 0

/-- A buffer that grows by whole pages of `page` units, filled with `v`, and never shrinks. -/
def growPages (page v : Nat) (w : Nat) (b : List (BitVec w)) (n : Nat) : List (BitVec w) :=
  b ++ List.replicate ((n + page - 1) / page * page - b.length) (BitVec.ofNat w v)

/-- What growth adds to a buffer of bytes is below `0x80`. -/
def GrowsSeptets (f : List (BitVec 8) → Nat → List (BitVec 8)) : Prop :=
  ∀ b n i v, b.length ≤ i → (f b n)[i]? = some v → v.toNat < 128

/-- A resizable buffer whose new units hold `v`. -/
def growFilled {w : Nat} (v : BitVec w) (b : List (BitVec w)) (n : Nat) : List (BitVec w) :=
  b.take n ++ List.replicate (n - b.length) v

/-- A buffer of limited capacity whose new units hold `v`. -/
def tryGrowFilled {w : Nat} (cap : Nat) (v : BitVec w) (b : List (BitVec w)) (n : Nat) :
    List (BitVec w) × Bool :=
  if n ≤ cap then (growFilled v b n, true) else (b, false)

/-- The same units in all buffers, for `Sx.Mem`, which takes a function for all widths. -/
def growAll (v : Nat) (w : Nat) : List (BitVec w) → Nat → List (BitVec w) :=
  growFilled (BitVec.ofNat w v)

/-- As `growAll`, with a capacity. -/
def tryGrowAll (cap v : Nat) (w : Nat) : List (BitVec w) → Nat → List (BitVec w) × Bool :=
  tryGrowFilled cap (BitVec.ofNat w v)

/-- The library's side of a call on a message over the given kind of buffer. -/
def SxCall.execOn {k : Sx} (m : Sx.Mem) (dbg : Bool) (b : Buf .ump) : SxCall k → Res (Buf .ump)
  | .setGroup g => .ok (k.setGroup b g)
  | .setPayload d => (k.ops dbg m).setPayload b d
  | .splicePayload d rb re => (k.ops dbg m).splice b d rb re
  | .insertPayload d i => (k.ops dbg m).insert b d i
  | .appendPayload d => (k.ops dbg m).append b d
  | .appendByte v => (k.ops dbg m).appendByte b v
  | .setPayloadByte i v => k.setByte b v i

/-- A sequence of calls. -/
def SxCall.execAllOn {k : Sx} (m : Sx.Mem) (dbg : Bool) : List (SxCall k) → Buf .ump → Res (Buf .ump)
  | [], b => .ok b
  | c :: cs, b => do SxCall.execAllOn m dbg cs (← c.execOn m dbg b)

/-- The library's side of a fallible call. -/
def SxTryCall.execOn {k : Sx} (m : Sx.Mem) (dbg : Bool) (b : Buf .ump) :
    SxTryCall k → Res (Buf .ump × Option Error)
  | .setGroup g => .ok (k.setGroup b g, none)
  | .setPayload d => (k.ops dbg m).trySetPayload b d
  | .splicePayload d rb re => (k.ops dbg m).trySplice b d rb re
  | .insertPayload d i => (k.ops dbg m).tryInsert b d i
  | .appendPayload d => (k.ops dbg m).tryAppend b d
  | .appendByte v => (k.ops dbg m).tryAppendByte b v
  | .setPayloadByte i v => (k.setByte b v i).bind fun b => .ok (b, none)

/-- A sequence of fallible calls, with the errors returned. -/
def SxTryCall.execAllOn {k : Sx} (m : Sx.Mem) (dbg : Bool) :
    List (SxTryCall k) → Buf .ump → Res (Buf .ump × List (Option Error))
  | [], b => .ok (b, [])
  | c :: cs, b => do
    let (b, e) ← c.execOn m dbg b
    let (b, es) ← SxTryCall.execAllOn m dbg cs b
    return (b, e :: es)

/-- The iterators given to the call announce exactly the items they yield (as those of
slices, vectors and ranges do). -/
def SxTryCall.ExactHint {k : Sx} : SxTryCall k → Prop
  | .setPayload d | .splicePayload d _ _ | .insertPayload d _ | .appendPayload d =>
    d.upper.getD d.lower = d.items.length
  | _ => True

/-- As `ExactHint`, for the calls that replace bytes in the middle only. -/
def SxTryCall.ExactSplice {k : Sx} : SxTryCall k → Prop
  | .splicePayload d _ _ => d.upper.getD d.lower = d.items.length
  | _ => True

/-- The group after the call. -/
def SxTryCall.group {k : Sx} (g : BitVec 4) : SxTryCall k → BitVec 4
  | .setGroup g' => g'
  | _ => g

/-- How many items the library makes room for: as many as the size hint says or, if there are
more, less than twice as many as there are. -/
def Src.reach {β : Type} (d : Src β) : Nat :=
  if d.items.length ≤ d.upper.getD d.lower then d.upper.getD d.lower else 2 * d.items.length

/-- Arguments are in range. -/
def SxTryCall.InBounds {k : Sx} (l : List k.Byte) : SxTryCall k → Prop
  | .splicePayload _ rb re => rb.first ≤ re.last l.length ∧ re.last l.length ≤ l.length
  | .insertPayload _ i => i ≤ l.length
  | .setPayloadByte i _ => i < l.length
  | _ => True

/-- The bytes the library makes room for. -/
def SxTryCall.room {k : Sx} (l : List k.Byte) : SxTryCall k → Nat
  | .setGroup _ | .setPayloadByte _ _ => l.length
  | .setPayload d => d.reach
  | .splicePayload d rb re => l.length - (re.last l.length - rb.first) + d.reach
  | .insertPayload d _ | .appendPayload d => l.length + d.reach
  | .appendByte _ => l.length + 1

/-- A sequence of calls on a group and a list of bytes. -/
def SxTryCall.wantAll {k : Sx} : List (SxTryCall k) → BitVec 4 × List k.Byte → BitVec 4 × List k.Byte
  | [], s => s
  | c :: cs, s => SxTryCall.wantAll cs (c.group s.1, c.wanted s.2)

/-- All arguments are in range, and `cap` words are enough for what the library makes room for. -/
def SxTryCall.AllRoomy {k : Sx} (cap : Nat) : List (SxTryCall k) → BitVec 4 × List k.Byte → Prop
  | [], _ => True
  | c :: cs, s => c.InBounds s.2 ∧ k.layout.wireLength (c.room s.2) ≤ 4 * cap ∧
      SxTryCall.AllRoomy cap cs (c.group s.1, c.wanted s.2)

/-- What a call that returned `e` leaves of a group and a list of bytes. -/
def SxTryCall.after {k : Sx} (s : BitVec 4 × List k.Byte) (e : Option Error) (c : SxTryCall k) :
    BitVec 4 × List k.Byte :=
  (c.group s.1, if e = none then c.wanted s.2 else [])

/-- A sequence of calls that returned `es`. -/
def SxTryCall.afterAll {k : Sx} :
    List (SxTryCall k) → List (Option Error) → BitVec 4 × List k.Byte → BitVec 4 × List k.Byte
  | c :: cs, e :: es, s => SxTryCall.afterAll cs es (c.after s e)
  | _, _, s => s

/-- The arguments are in range; and where a call replaces bytes in the middle, its iterator
announces exactly the items it yields, or there is room for what the library makes room for. -/
def SxTryCall.Fair {k : Sx} (cap : Nat) (l : List k.Byte) (c : SxTryCall k) : Prop :=
  c.InBounds l ∧ (c.ExactSplice ∨ k.layout.wireLength (c.room l) ≤ 4 * cap)

/-- The same for all calls of a sequence that returned `es`. -/
def SxTryCall.AllFair {k : Sx} (cap : Nat) :
    List (SxTryCall k) → List (Option Error) → BitVec 4 × List k.Byte → Prop
  | c :: cs, e :: es, s => c.Fair cap s.2 ∧ SxTryCall.AllFair cap cs es (c.after s e)
  | _, _, _ => True

/-- The calls of `SxCall` on a byte message over the given kind of buffer. -/
def SxCall.execBytesOn (m : Sx.Mem) (b : Buf .bytes) : SxCall .s7 → Res (Buf .bytes)
  | .setGroup _ => .ok b
  | .setPayload d => (Sxb.ops m).setPayload b d
  | .splicePayload d rb re => (Sxb.ops m).splice b d rb re
  | .insertPayload d i => (Sxb.ops m).insert b d i
  | .appendPayload d => (Sxb.ops m).append b d
  | .appendByte v => (Sxb.ops m).appendByte b v
  | .setPayloadByte i v => Sxb.setByte b v i

/-- A sequence of calls. -/
def SxCall.execAllBytesOn (m : Sx.Mem) : List (SxCall .s7) → Buf .bytes → Res (Buf .bytes)
  | [], b => .ok b
  | c :: cs, b => do SxCall.execAllBytesOn m cs (← c.execBytesOn m b)

end Midi2
