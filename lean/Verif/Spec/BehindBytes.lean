import Verif.Spec.Holding
import Verif.Spec.SysexBytes
import Verif.Model.Dispatch

/-!
# C77: MIDI 1.0 messages in a part of a larger array of bytes
-/

namespace Midi2

/-- A message to be written: a channel voice or system common message with calls of setters, or a
system exclusive message with a payload. -/
inductive ByteJob where
  | fixed (d : MsgDesc) (calls : List SetCall)
  | sysex (payload : List (BitVec 7))

namespace ByteJob

/-- `try_new_with_buffer` on the array, then the setters, or `try_set_payload`.  The result is the
array, and `data()`. -/
def build (b : List (BitVec 8)) : ByteJob → Res (List (BitVec 8) × List (BitVec 8))
  | fixed d calls => do
    let x ← d.tryNewWithBuffer .bytes b
    let x ← runSetters .bytes calls x
    return (x, ← d.data .bytes x)
  | sysex l => do
    let x ← Sxb.tryNewWithBuffer b
    match ← (Sxb.ops .fixed).trySetPayload x ⟨l, l.length, some l.length⟩ with
    | (x, none) => return (x, ← Sxb.data x)
    | (_, some e) => .err e

/-- Writes the messages one behind the other: `build(&mut array[used..])`,
`used += data().len()`.  The result is the number of bytes used, and the array. -/
def writeAll : List ByteJob → List (BitVec 8) → Res (Nat × List (BitVec 8))
  | [], b => .ok (0, b)
  | j :: js, b => do
    let (x, y) ← j.build b
    let r ← writeAll js (x.drop y.length)
    return (y.length + r.1, x.take y.length ++ r.2)

/-- Bytes the message needs. -/
def size : ByteJob → Nat
  | fixed d _ => d.minSize .bytes
  | sysex l => l.length + 2

/-- The variant of `BytesMessage` the message belongs to. -/
def kind : ByteJob → BytesKind
  | fixed d _ => .fixed d
  | sysex _ => .sysex7

/-- These bytes are the message asked for: the same that `new()` and the setters give on a `Vec`,
with the values set; or the payload between `F0` and `F7`. -/
def Written (m : List (BitVec 8)) : ByteJob → Prop
  | fixed d calls => (d.newVec .bytes >>= runSetters .bytes calls) = .ok m ∧ Holding .bytes d calls m
  | sysex l => m = sysexBytes l ∧ HoldsBytes m l

/-- The type exists over bytes, it is not song position pointer, and the setters exist and get
values they can store. -/
def Legal : ByteJob → Prop
  | fixed d calls => d ∈ Msg.hybridAll ∧ d.name ≠ "system_common::SongPositionPointer" ∧
      ∀ c ∈ calls, c.legal d .bytes
  | sysex _ => True

end ByteJob

end Midi2
