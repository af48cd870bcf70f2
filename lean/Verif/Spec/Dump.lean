import Verif.Spec.Link
import Verif.Spec.SysexOps
import Verif.Spec.SysexBytes
import Verif.Spec.Cable

/-!
# C88: large data in small arrays

A program without an allocator keeps one `Sysex7` or `Sysex8` message in an array and sends large
data with it, block by block, on the line of Spec/Link.lean.
-/

namespace Midi2

/-- Payload bytes an array of `n` words has room for: those of the whole packets in it. -/
def SysexLayout.room (L : SysexLayout) (n : Nat) : Nat := n / L.words * L.capacity

namespace Dump

variable {k : Sx}

/-- Rounds of fallible calls, all on the same message in an array; after every round the message is
sent.  The messages, and what the calls returned. -/
def transmit (k : Sx) (dbg : Bool) : List (List (SxTryCall k)) → List (BitVec 32) →
    Res (List (UmpKind × List (BitVec 32)) × List (List (Option Error)))
  | [], _ => .ok ([], [])
  | cs :: rs, b => do
    let (b, es) ← SxTryCall.execAll dbg cs b
    let x ← k.data b
    let (ms, ess) ← transmit k dbg rs b
    return ((.sysex k, x) :: ms, es :: ess)

/-- What the messages should show, and what the calls should return. -/
def shown (n : Nat) : List (List (SxTryCall k)) → BitVec 4 × List k.Byte →
    List ((BitVec 4 × List k.Byte) × List (Option Error))
  | [], _ => []
  | cs :: rs, s => SxTryCall.applyAll n cs s :: shown n rs (SxTryCall.applyAll n cs s).1

/-- The calls of all rounds are in range. -/
def InRange (n : Nat) : List (List (SxTryCall k)) → BitVec 4 × List k.Byte → Prop
  | [], _ => True
  | cs :: rs, s => SxTryCall.AllInRange n cs s ∧ InRange n rs (SxTryCall.applyAll n cs s).1

/-- `slice::chunks(c)`. -/
def blocksOf {α : Type} (c : Nat) (l : List α) : List (List α) :=
  if h : l = [] ∨ c = 0 then [] else l.take c :: blocksOf c (l.drop c)
termination_by l.length
decreasing_by
  have h1 : 0 < l.length := List.length_pos_iff.mpr (fun e => h (.inl e))
  have h2 : c ≠ 0 := fun e => h (.inr e)
  rw [List.length_drop]; omega

/-- The blocks, sent one after the other: `try_set_payload(block.iter().copied())?`, `data()`. -/
def dumpBlocks (k : Sx) (dbg : Bool) : List (List k.Byte) → List (BitVec 32) →
    Res (List (UmpKind × List (BitVec 32)))
  | [], _ => .ok []
  | l :: ls, b => do
    match ← (k.ops dbg .fixed).trySetPayload b ⟨l, l.length, some l.length⟩ with
    | (_, some e) => .err e
    | (b, none) =>
      let x ← k.data b
      return (.sysex k, x) :: (← dumpBlocks k dbg ls b)

/-- The sender: a message in a `[u32; n]`, its group, and the data in blocks of `c` bytes. -/
def dump (k : Sx) (dbg : Bool) (n c : Nat) (g : BitVec 4) (bytes : List k.Byte) :
    Res (List (UmpKind × List (BitVec 32))) := do
  let b ← k.newArray n
  dumpBlocks k dbg (blocksOf c bytes) (k.setGroup b g)

/-- Whether a message is part of the dump. -/
def ours (k : Sx) (g : BitVec 4) (m : UmpKind × List (BitVec 32)) : Bool :=
  m.1 == .sysex k && Sx.group m.2 == .ok g

/-- The receiver: the payloads of the system exclusive messages of the group behind each other. -/
def gather (k : Sx) (g : BitVec 4) : List (UmpKind × List (BitVec 32)) → Res (List k.Byte)
  | [] => .ok []
  | m :: ms => do
    let l ← if ours k g m then k.payloadList m.2 else .ok []
    return l ++ (← gather k g ms)

/-- The same for a message in a `[u8; n]`: what is put on a MIDI 1.0 cable for every block. -/
def dumpBlocksBytes : List (List (BitVec 7)) → List (BitVec 8) → Res (List (List (BitVec 8)))
  | [], _ => .ok []
  | l :: ls, b => do
    match ← (Sxb.ops .fixed).trySetPayload b ⟨l, l.length, some l.length⟩ with
    | (_, some e) => .err e
    | (b, none) =>
      let x ← Sxb.data b
      return x :: (← dumpBlocksBytes ls b)

/-- The sender. -/
def dumpBytes (n c : Nat) (bytes : List (BitVec 7)) : Res (List (List (BitVec 8))) := do
  let b ← Sxb.newArray n
  dumpBlocksBytes (blocksOf c bytes) b

/-- The receiver: the payloads of the system exclusive messages behind each other. -/
def gatherBytes : List (BytesKind × List (BitVec 8)) → Res (List (BitVec 7))
  | [] => .ok []
  | m :: ms => do
    let l ← if m.1 = .sysex7 then Sxb.payloadList m.2 else .ok []
    return l ++ (← gatherBytes ms)

end Dump

end Midi2
