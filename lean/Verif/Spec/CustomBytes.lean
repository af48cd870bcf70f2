import Verif.Spec.Custom

/-!
# Byte messages over a user-written buffer with a capacity
-/

namespace Midi2

/-- What growth adds to a limited buffer of bytes is below `0x80`. -/
def TryGrowsSeptets (f : List (BitVec 8) → Nat → List (BitVec 8) × Bool) : Prop :=
  ∀ b n i v, b.length ≤ i → (f b n).1[i]? = some v → v.toNat < 128

/-- The fallible calls on a byte message over the given kind of buffer. -/
def SxTryCall.execBytesOn (m : Sx.Mem) (b : Buf .bytes) : SxTryCall .s7 → Res (Buf .bytes × Option Error)
  | .setGroup _ => .ok (b, none)
  | .setPayload d => (Sxb.ops m).trySetPayload b d
  | .splicePayload d rb re => (Sxb.ops m).trySplice b d rb re
  | .insertPayload d i => (Sxb.ops m).tryInsert b d i
  | .appendPayload d => (Sxb.ops m).tryAppend b d
  | .appendByte v => (Sxb.ops m).tryAppendByte b v
  | .setPayloadByte i v => (Sxb.setByte b v i).bind fun b => .ok (b, none)

/-- A sequence of them, with the errors returned. -/
def SxTryCall.execAllBytesOn (m : Sx.Mem) :
    List (SxTryCall .s7) → Buf .bytes → Res (Buf .bytes × List (Option Error))
  | [], b => .ok (b, [])
  | c :: cs, b => do
    let (b, e) ← c.execBytesOn m b
    let (b, es) ← SxTryCall.execAllBytesOn m cs b
    return (b, e :: es)

/-- How many bytes of the payload a call starts from: `set_payload` empties it first. -/
def SxTryCall.startsFrom (l : List (BitVec 7)) : SxTryCall .s7 → Nat
  | .setPayload _ => 0
  | _ => l.length

/-- What a call makes of a payload of `had` bytes in a buffer of `cap` bytes, when it starts from
`start` bytes and should give `wanted`.  As expected: the payload asked for if it fits, and otherwise
an empty payload and `BufferOverflow`.  But the call panics if it makes the payload shorter by one
byte, if it first empties a payload of one byte, and if it overflows a buffer of three bytes, or one
of four bytes starting from an empty payload. -/
def cappedOutcome (cap had start : Nat) (wanted : List (BitVec 7)) :
    Res (List (BitVec 7) × Option Error) :=
  if start = 0 ∧ had = 1 then .panic
  else if wanted.length + 1 = start then .panic
  else if wanted.length + 2 ≤ cap then .ok (wanted, none)
  else if cap = 3 ∨ (cap = 4 ∧ start = 0) then .panic
  else .ok ([], some .bufferOverflow)

/-- What a call does to a list of bytes in a buffer of `cap` bytes. -/
def SxTryCall.cappedBytes (cap : Nat) (l : List (BitVec 7)) (c : SxTryCall .s7) :
    Res (List (BitVec 7) × Option Error) :=
  cappedOutcome cap l.length (c.startsFrom l) (SxTryCall.wanted (k := .s7) l c)

/-- A sequence of them. -/
def SxTryCall.cappedAllBytes (cap : Nat) :
    List (SxTryCall .s7) → List (BitVec 7) → Res (List (BitVec 7) × List (Option Error))
  | [], l => .ok (l, [])
  | c :: cs, l => do
    let (l, e) ← c.cappedBytes cap l
    let (l, es) ← SxTryCall.cappedAllBytes cap cs l
    return (l, e :: es)

/-- The arguments of every call are in range for the payload it finds. -/
def SxTryCall.AllInRangeBytes (cap : Nat) : List (SxTryCall .s7) → List (BitVec 7) → Prop
  | [], _ => True
  | c :: cs, l => SxTryCall.InRange (k := .s7) l c ∧
    ∀ l' e, c.cappedBytes cap l = .ok (l', e) → SxTryCall.AllInRangeBytes cap cs l'

end Midi2
