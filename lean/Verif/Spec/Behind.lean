import Verif.Spec.Holding
import Verif.Spec.Dispatch
import Verif.Spec.Legal
import Verif.Spec.Sysex

/-!
# C77: messages in a part of a larger array

A user hands out the unused rest of an array, `&mut array[used..]`, builds a message at its front,
and goes on behind `data()`.
-/

namespace Midi2

/-- A message to be written: its type, and the calls of setters. -/
abbrev Job := MsgDesc × List SetCall

/-- Writes the messages one behind the other: `try_new_with_buffer(&mut array[used..])`, the
setters, `used += data().len()`.  The result is the number of words used, and the array. -/
def writeAll : List Job → List (BitVec 32) → Res (Nat × List (BitVec 32))
  | [], b => .ok (0, b)
  | j :: js, b => do
    let x ← j.1.tryNewWithBuffer .ump b
    let x ← runSetters .ump j.2 x
    let y ← j.1.data .ump x
    let r ← writeAll js (x.drop y.length)
    return (y.length + r.1, x.take y.length ++ r.2)

/-- These words are the message asked for: the same that `new()` and the setters give on a `Vec`,
accepted by `UmpMessage::try_from` as a message of this type, and with the values set. -/
def Job.Written (j : Job) (m : List (BitVec 32)) : Prop :=
  (j.1.newVec .ump >>= runSetters .ump j.2) = .ok m ∧
  UmpMessage.tryFrom m = .ok (.fixed j.1, m) ∧ Holding .ump j.1 j.2 m

/-- Words the messages need. -/
def Job.total (js : List Job) : Nat := (js.map fun j => j.1.umpSize).sum

/-- `n` packets of `size` words and of this type follow one another from the front of the array
on, the first one being the message just built there: what was in its place does not count. -/
structure RunBehind (size type : Nat) (b : List (BitVec 32)) (n : Nat) : Prop where
  pos : 0 < n
  fits : size * n ≤ b.length
  same : ∀ j, 0 < j → j < n → fieldAt b (size * j) 0 4 = some type
  stop : size * (n + 1) ≤ b.length → fieldAt b (size * n) 0 4 ≠ some type

/-- Word `i` of the array is the first word of a whole packet of `size` words. -/
def HeadAt (size : Nat) (b : List (BitVec 32)) (i : Nat) : Prop := i % size = 0 ∧ i + size ≤ b.length

/-- What building a stream message of this status at the front of the array `b` makes of the words
from `used` on: the first word of every whole packet, of whatever type, gets the status; in those
of the packets of type stream that directly follow the message the format becomes that of a
continuation, and of an end in the last; nothing else changes. -/
def StreamBehind (used status n : Nat) (b x : List (BitVec 32)) : Prop :=
  x.length = b.length ∧ ∀ i, used ≤ i → i < b.length →
    (¬ HeadAt 4 b i → x[i]? = b[i]?) ∧
    (HeadAt 4 b i →
      fieldAt x i 0 4 = fieldAt b i 0 4 ∧ fieldAt x i 16 16 = fieldAt b i 16 16 ∧
      fieldAt x i 6 10 = some status ∧
      fieldAt x i 4 2 = if i / 4 + 1 = n then some 3 else if i / 4 < n then some 2
        else fieldAt b i 4 2)

/-- What building a system exclusive message at the front of the array `b` makes of the words behind
its packet: in the first words of the packets of the same type that directly follow, the group
becomes 0; with 8 bit system exclusive also a size below 1 becomes 1, and the last octet, in which
the first byte of the data is, becomes 0; nothing else changes. -/
def SysexBehind (k : Sx) (n : Nat) (b x : List (BitVec 32)) : Prop :=
  x.length = b.length ∧ ∀ i, k.layout.words ≤ i → i < b.length →
    (¬ (i % k.layout.words = 0 ∧ i / k.layout.words < n) → x[i]? = b[i]?) ∧
    (i % k.layout.words = 0 → i / k.layout.words < n →
      fieldAt x i 0 4 = fieldAt b i 0 4 ∧ fieldAt x i 4 4 = some 0 ∧
      fieldAt x i 8 4 = fieldAt b i 8 4 ∧ fieldAt x i 16 8 = fieldAt b i 16 8 ∧
      match k with
      | .s7 => fieldAt x i 12 4 = fieldAt b i 12 4 ∧ fieldAt x i 24 8 = fieldAt b i 24 8
      | .s8 => fieldAt x i 12 4 = (fieldAt b i 12 4).map (max 1) ∧ fieldAt x i 24 8 = some 0)

/-- What building a flex data text message, or setting its group, at the front of the array `b` makes
of the words behind its packet: in the first words of the packets of type flex data that directly
follow, the group is set; nothing else changes. -/
def FlexBehind (group n : Nat) (b x : List (BitVec 32)) : Prop :=
  x.length = b.length ∧ ∀ i, 4 ≤ i → i < b.length →
    (¬ (i % 4 = 0 ∧ i / 4 < n) → x[i]? = b[i]?) ∧
    (i % 4 = 0 → i / 4 < n →
      fieldAt x i 0 4 = fieldAt b i 0 4 ∧ fieldAt x i 4 4 = some group ∧
      fieldAt x i 8 24 = fieldAt b i 8 24)

/-- What building a stream text message at the front of the array `b` makes of the words behind its
packet: the status and the format as with the other stream messages, and with `FunctionBlockName`
the third octet of the first word of every whole packet, of whatever type, becomes 0. -/
def StreamTextBehind (numbered : Bool) (status n : Nat) (b x : List (BitVec 32)) : Prop :=
  x.length = b.length ∧ ∀ i, 4 ≤ i → i < b.length →
    (¬ HeadAt 4 b i → x[i]? = b[i]?) ∧
    (HeadAt 4 b i →
      fieldAt x i 0 4 = fieldAt b i 0 4 ∧ fieldAt x i 24 8 = fieldAt b i 24 8 ∧
      fieldAt x i 16 8 = (if numbered then some 0 else fieldAt b i 16 8) ∧
      fieldAt x i 6 10 = some status ∧
      fieldAt x i 4 2 = if i / 4 + 1 = n then some 3 else if i / 4 < n then some 2
        else fieldAt b i 4 2)

end Midi2
