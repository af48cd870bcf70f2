import Verif.Model.Usize
import Verif.Spec.SysexBytes
import Verif.Spec.Packet

/-!
# Histories of calls with machine integers

The same as in `Spec/SysexOps`, `Spec/SysexBytes` and `Spec/Packet`, for the arithmetic `A`.
-/

namespace Midi2

/-- The library's side of a call on a message over `Vec<u32>`. -/
def SxCall.execU (A : Arith) {k : Sx} (dbg : Bool) (b : Buf .ump) : SxCall k → Res (Buf .ump)
  | .setGroup g => .ok (k.setGroup b g)
  | .setPayload d => (k.opsU A dbg .vec).setPayloadU A b d
  | .splicePayload d rb re => (k.opsU A dbg .vec).spliceU A b d rb re
  | .insertPayload d i => (k.opsU A dbg .vec).insertU A b d i
  | .appendPayload d => (k.opsU A dbg .vec).appendU A b d
  | .appendByte v => (k.opsU A dbg .vec).appendByteU A b v
  | .setPayloadByte i v => k.setByteU A b v i

/-- A sequence of calls. -/
def SxCall.execAllU (A : Arith) {k : Sx} (dbg : Bool) :
    List (SxCall k) → Buf .ump → Res (Buf .ump)
  | [], b => .ok b
  | c :: cs, b => do
    let b ← c.execU A dbg b
    SxCall.execAllU A dbg cs b

/-- The library's side of a fallible call on a message over a buffer of fixed size. -/
def SxTryCall.execU (A : Arith) {k : Sx} (dbg : Bool) (b : Buf .ump) :
    SxTryCall k → Res (Buf .ump × Option Error)
  | .setGroup g => .ok (k.setGroup b g, none)
  | .setPayload d => (k.opsU A dbg .fixed).trySetPayloadU A b d
  | .splicePayload d rb re => (k.opsU A dbg .fixed).trySpliceU A b d rb re
  | .insertPayload d i => (k.opsU A dbg .fixed).tryInsertU A b d i
  | .appendPayload d => (k.opsU A dbg .fixed).tryAppendU A b d
  | .appendByte v => (k.opsU A dbg .fixed).tryAppendByteU A b v
  | .setPayloadByte i v => (k.setByteU A b v i).bind fun b => .ok (b, none)

/-- A sequence of calls, with the errors returned. -/
def SxTryCall.execAllU (A : Arith) {k : Sx} (dbg : Bool) :
    List (SxTryCall k) → Buf .ump → Res (Buf .ump × List (Option Error))
  | [], b => .ok (b, [])
  | c :: cs, b => do
    let (b, e) ← c.execU A dbg b
    let (b, es) ← SxTryCall.execAllU A dbg cs b
    return (b, e :: es)

/-- A call on a message over `Vec<u8>`. -/
def SxCall.execBytesU (A : Arith) (b : Buf .bytes) : SxCall .s7 → Res (Buf .bytes)
  | .setGroup _ => .ok b
  | .setPayload d => (Sxb.opsU A false).setPayloadU A b d
  | .splicePayload d rb re => (Sxb.opsU A false).spliceU A b d rb re
  | .insertPayload d i => (Sxb.opsU A false).insertU A b d i
  | .appendPayload d => (Sxb.opsU A false).appendU A b d
  | .appendByte v => (Sxb.opsU A false).appendByteU A b v
  | .setPayloadByte i v => Sxb.setByteU A b v i

/-- A sequence of calls. -/
def SxCall.execAllBytesU (A : Arith) : List (SxCall .s7) → Buf .bytes → Res (Buf .bytes)
  | [], b => .ok b
  | c :: cs, b => do
    let b ← c.execBytesU A b
    SxCall.execAllBytesU A cs b

/-- A call on the payload iterator of a message over words. -/
def ItCall.execU (A : Arith) (k : Sx) (b : Buf .ump) (it : Sx.It) :
    ItCall → Res (Option k.Byte × Sx.It)
  | .next => k.nextU A b it
  | .nth n => k.nthU A b n it

/-- A sequence of calls: after each the item returned, `len()` and `size_hint()`. -/
def ItCall.execAllU (A : Arith) (k : Sx) (b : Buf .ump) :
    List ItCall → Sx.It → Res (List (Option k.Byte × Nat × Nat × Option Nat))
  | [], _ => .ok []
  | c :: cs, it => do
    let (v, it) ← c.execU A k b it
    let vs ← ItCall.execAllU A k b cs it
    return (v, Sx.len it, Sx.sizeHint it) :: vs

/-- One call on the payload iterator of a message over bytes. -/
def ItCall.execOneBytesU (A : Arith) (it : Sxb.It) : ItCall → Res (Option (BitVec 7) × Sxb.It)
  | .next => Sxb.nextU A it
  | .nth n => Sxb.nthU A n it

/-- A sequence of calls: the items returned and the iterator afterwards. -/
def ItCall.execBytesU (A : Arith) : List ItCall → Sxb.It → Res (List (Option (BitVec 7)) × Sxb.It)
  | [], it => .ok ([], it)
  | c :: cs, it => do
    let (v, it) ← c.execOneBytesU A it
    let (vs, it) ← ItCall.execBytesU A cs it
    return (v :: vs, it)

/-- One call on the payload iterator of a packet. -/
def ItCall.packetExecU (A : Arith) (dbg : Bool) (k : Sx) (p : Buf .ump) (i : Nat) :
    ItCall → Res (Option k.Byte × Nat)
  | .next => Packet.nextU A dbg k p i
  | .nth n => Packet.nthU A dbg k p n i

/-- `len()`, if it is asked for. -/
def ItCall.packetLenU (A : Arith) (dbg withLen : Bool) (k : Sx) (p : Buf .ump) (i : Nat) :
    Res (Option Nat) :=
  if withLen then do
    let n ← Packet.lenU A dbg k p i
    return some n
  else .ok none

/-- A sequence of calls: after each the item returned and, if asked for, `len()`. -/
def ItCall.packetExecAllU (A : Arith) (dbg withLen : Bool) (k : Sx) (p : Buf .ump) :
    List ItCall → Nat → Res (List (Option k.Byte × Option Nat))
  | [], _ => .ok []
  | c :: cs, i => do
    let (v, i) ← c.packetExecU A dbg k p i
    let l ← ItCall.packetLenU A dbg withLen k p i
    let vs ← ItCall.packetExecAllU A dbg withLen k p cs i
    return (v, l) :: vs

/-! ### Sizes -/

/-- At most `M` items, and the size hint says so. -/
structure Src.Small {β : Type} (M : Nat) (d : Src β) : Prop where
  items : d.items.length ≤ M
  lower : d.lower ≤ M
  upper : ∀ u, d.upper = some u → u ≤ M

/-- A bound of a range names an index below `n`. -/
def Bound.Within (n : Nat) : Bound → Prop
  | .included i => i < n
  | .excluded i => i < n
  | .unbounded => True

/-- The arguments of a call are at most `M`; `set_payload_byte` may be given any index. -/
def SxCall.Small {k : Sx} (M : Nat) : SxCall k → Prop
  | .setPayload d | .appendPayload d => d.Small M
  | .splicePayload d rb re => d.Small M ∧ rb.Within M ∧ re.Within M
  | .insertPayload d i => d.Small M ∧ i ≤ M
  | _ => True

def SxTryCall.Small {k : Sx} (M : Nat) : SxTryCall k → Prop
  | .setPayload d | .appendPayload d => d.Small M
  | .splicePayload d rb re => d.Small M ∧ rb.Within M ∧ re.Within M
  | .insertPayload d i => d.Small M ∧ i ≤ M
  | _ => True

/-- Arguments and the buffer before every call are at most `M`. -/
def SxCall.AllSmall {k : Sx} (M : Nat) (dbg : Bool) : List (SxCall k) → Buf .ump → Prop
  | [], _ => True
  | c :: cs, b => b.length ≤ M ∧ c.Small M ∧ ∀ b', c.exec dbg b = .ok b' → AllSmall M dbg cs b'

def SxCall.AllSmallBytes (M : Nat) : List (SxCall .s7) → Buf .bytes → Prop
  | [], _ => True
  | c :: cs, b => b.length ≤ M ∧ c.Small M ∧ ∀ b', c.execBytes b = .ok b' → AllSmallBytes M cs b'

/-- How many items the calls step over. -/
def ItCall.steps : List ItCall → Nat
  | [] => 0
  | .next :: cs => 1 + steps cs
  | .nth n :: cs => n + 1 + steps cs

end Midi2
