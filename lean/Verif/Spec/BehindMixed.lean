import Verif.Spec.Behind
import Verif.Spec.SysexOps
import Verif.Spec.Text

/-!
# C77: messages of all kinds in a part of a larger array of words
-/

namespace Midi2

/-- A message to be written: one of fixed size with calls of setters, a system exclusive message
with a group and a payload, a flex data text with a group, a channel and a text, or a stream text
with a text and, for `FunctionBlockName`, possibly a number. -/
inductive UmpJob where
  | fixed (d : MsgDesc) (calls : List SetCall)
  | sysex (k : Sx) (group : BitVec 4) (payload : List k.Byte)
  | text (t : FlexText) (group : BitVec 4) (channel : Option (BitVec 4)) (s : String)
  | name (t : StreamText) (number : Option (BitVec 8)) (s : String)

namespace UmpJob

/-- `set_function_block`, if there is a number. -/
def setNumber : Option (BitVec 8) → List (BitVec 32) → List (BitVec 32)
  | some n, x => StreamText.setBlock x n
  | none, x => x

/-- `try_new_with_buffer` on the array, then the setters, or `set_group` and `try_set_payload`,
or `set_group`, `set_optional_channel` and `try_set_text`, or `try_set_name` (`try_set_id`) and
`set_function_block`.  The result is the array, and `data()`. -/
def build (dbg : Bool) (b : List (BitVec 32)) :
    UmpJob → Res (List (BitVec 32) × List (BitVec 32))
  | fixed d calls => do
    let x ← d.tryNewWithBuffer .ump b
    let x ← runSetters .ump calls x
    return (x, ← d.data .ump x)
  | sysex k g l => do
    let x ← k.tryNewWithBuffer b
    match ← (k.ops dbg .fixed).trySetPayload (k.setGroup x g) ⟨l, l.length, some l.length⟩ with
    | (x, none) => return (x, ← k.data x)
    | (_, some e) => .err e
  | text t g c s => do
    let x ← t.tryNewWithBuffer b
    let x ← FlexText.setChannel (FlexText.setGroup x g) c
    let x ← FlexText.trySetText x s
    return (x, ← FlexText.data x)
  | name t n s => do
    let x ← t.tryNewWithBuffer b
    let x ← t.trySetText x s
    let x := setNumber n x
    return (x, ← StreamText.data x)

/-- Writes the messages one behind the other: `build(&mut array[used..])`,
`used += data().len()`.  The result is the number of words used, and the array. -/
def writeAll (dbg : Bool) : List UmpJob → List (BitVec 32) → Res (Nat × List (BitVec 32))
  | [], b => .ok (0, b)
  | j :: js, b => do
    let (x, y) ← j.build dbg b
    let r ← writeAll dbg js (x.drop y.length)
    return (y.length + r.1, x.take y.length ++ r.2)

/-- Words the message needs. -/
def size : UmpJob → Nat
  | fixed d _ => d.umpSize
  | sysex k _ l => k.layout.words * (k.layout.fill l.length).length
  | text _ _ _ s => 4 * textPackets 12 (utf8 s).length
  | name t _ s => 4 * textPackets t.capacity (utf8 s).length

/-- These words are the message asked for: the same that `new()` and the setters give on a `Vec`,
accepted as a message of this type, and with the values set; or a system exclusive message which is
all its `data()`, with this group and this payload; or the packets, bit for bit, of a text with these
values. -/
def Written (m : List (BitVec 32)) : UmpJob → Prop
  | fixed d calls => Job.Written (d, calls) m
  | sysex k g l => k.Holds m g l ∧ k.data m = .ok m
  | text t g c s => t.IsEncoding m g (fun _ => c) s ∧ FlexText.data m = .ok m
  | name t n s => t.IsEncoding m (fun _ => n.getD 0) s ∧ StreamText.data m = .ok m ∧
      t.tryFrom m = .ok m ∧ t.text m = .ok (withoutNul s)

/-- And the words of a system exclusive message are the packets, bit for bit, that the format has
for this group and this payload, and the library accepts them. -/
def Exact (m : List (BitVec 32)) : UmpJob → Prop
  | fixed _ _ => True
  | sysex k g l => octets m = k.layout.wire g.toNat (l.map BitVec.toNat) ∧ k.tryFrom m = .ok m
  | text _ _ _ _ => True
  | name _ _ _ => True

/-- The type exists, it is not `FunctionBlockDiscovery`, and the setters exist and get values they
can store. -/
def Legal : UmpJob → Prop
  | fixed d calls => d ∈ Msg.all ∧ d.name ≠ "ump_stream::FunctionBlockDiscovery" ∧
      ∀ c ∈ calls, c.legal d .ump
  | sysex _ _ _ => True
  | text t _ _ _ => t ∈ FlexText.all
  | name t n _ => t ∈ StreamText.all ∧ (n.isSome → t = .functionBlockName)

/-- Not a stream message and not a text. -/
def KeepsRest : UmpJob → Prop
  | fixed d _ => d ∉ Msg.streamAll
  | sysex _ _ _ => True
  | text _ _ _ _ => False
  | name _ _ _ => False

/-- Neither a stream message of fixed size, nor one with a function block number. -/
def KeepsZeros : UmpJob → Prop
  | fixed d _ => d ∉ Msg.streamAll
  | sysex _ _ _ => True
  | text _ _ _ _ => True
  | name _ n _ => n = none

/-- No word of the array looks like the first word of a packet of a type which building this message
affects behind it, and takes for its own.  Texts do not need it. -/
def Fits (b : List (BitVec 32)) : UmpJob → Prop
  | fixed d _ => d ∈ Msg.streamAll → ∀ w ∈ b, field w 0 4 ≠ 15
  | sysex k _ _ => ∀ w ∈ b, field w 0 4 ≠ k.layout.type
  | text _ _ _ _ => True
  | name _ _ _ => True

end UmpJob

end Midi2
