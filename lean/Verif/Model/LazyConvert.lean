import Verif.Model.Lazy
import Verif.Model.SysexBytes

/-!
# Converting sysex7 messages, byte by byte

`Verif/Model/SysexBytes.lean` collects the payload of the source before it sets the payload of
the destination.  The code passes the payload iterator itself to `set_payload` or
`try_set_payload` (/repo/midi2/src/sysex7.rs:367-391), which calls `next` when it needs a byte.
Here is the same code with every call of `next` in its place.
-/

namespace Midi2

/-- What call number `n` of `next` does, for an iterator which is now in the state `it`.  After a
panic the iterator is not called again. The iterator is `other.payload()`, sysex7.rs:388. -/
def pollNext {I β : Type} (next : I → Res (Option β × I)) : I → Nat → Poll β
  | it, 0 =>
    match next it with
    | .ok (some v, _) => .item v
    | .ok (none, _) => .none
    | _ => .panic
  | it, n + 1 =>
    match next it with
    | .ok (_, it) => pollNext next it n
    | _ => .panic

/-- The iterator in the state `it` as what `set_payload` is given.
`try_set_payload(&mut ret, other.payload())`, sysex7.rs:388. -/
def Feed.ofNext {I β : Type} (next : I → Res (Option β × I)) (hint : Nat × Option Nat) (it : I) :
    Feed β := ⟨some hint, pollNext next it⟩

/-- What the caller of a conversion sees.  The destination is a local variable of the conversion,
so a panic of the source leaves nothing behind.  `none`: more turns are needed.
sysex7.rs:294-391. -/
def Run.result {S α : Type} : Run S α → Option (Res α)
  | .ok a => some (.ok a)
  | .err e => some (.err e)
  | .panic => some .panic
  | .crashed _ _ => some .panic
  | .running => none

namespace Sxb

/-- `payload()` of a byte message as it is passed on: `next` (sysex7.rs:859-867) and `size_hint`
(sysex7.rs:955-957). -/
def feed (it : It) : Feed (BitVec 7) := .ofNext next (sizeHint it) it

/-- `payload()` of a UMP message as it is passed on: `next` (sysex7.rs:869-880) and `size_hint`
(sysex7.rs:955-957). -/
def feedUmp (b : Buf .ump) (it : Sx.It) : Feed (BitVec 7) := .ofNext (Sx.s7.next b) (Sx.sizeHint it) it

/-- `from_bytes` (sysex7.rs:294-308, 367-389). -/
def fromBytesLazy (dbg : Bool) (turns : Nat) (a : Buf .bytes) : Run (Buf .ump) (Buf .ump) := do
  let b ← Run.of (convertToUmp (vecResize [] 2))
  let it ← Run.of (payload a)
  let (b, _) ← (Sx.s7.ops dbg .vec).feedSetPayload turns b (feed it)
  return b

/-- `try_from_bytes` into an array of `size` words (sysex7.rs:342-348, 367-389). -/
def tryFromBytesLazy (dbg : Bool) (turns size : Nat) (a : Buf .bytes) :
    Run (Buf .ump) (Buf .ump) := do
  let b ← Run.of (fixedTryResize (List.replicate size (0 : BitVec 32)) 2)
  let b ← Run.of (convertToUmp b)
  let it ← Run.of (payload a)
  let (b, e, _) ← (Sx.s7.ops dbg .fixed).feedTrySetPayload turns b (feed it)
  match e with
  | some e => .err e
  | none => return b

/-- `from_ump` (sysex7.rs:318-331, 367-389). -/
def fromUmpLazy (turns : Nat) (a : Buf .ump) : Run (Buf .bytes) (Buf .bytes) := do
  let b ← Run.of (init (vecResize [] 2))
  let it ← Run.of (Sx.s7.payload a)
  let (b, _) ← (ops .vec).feedSetPayload turns b (feedUmp a it)
  return b

/-- `try_from_ump` into an array of `size` bytes (sysex7.rs:359-365, 367-389). -/
def tryFromUmpLazy (turns size : Nat) (a : Buf .ump) : Run (Buf .bytes) (Buf .bytes) := do
  let b ← Run.of (fixedTryResize (List.replicate size (0 : BitVec 8)) 2)
  let b ← Run.of (init b)
  let it ← Run.of (Sx.s7.payload a)
  let (b, e, _) ← (ops .fixed).feedTrySetPayload turns b (feedUmp a it)
  match e with
  | some e => .err e
  | none => return b

end Sxb

end Midi2
