import Verif.Spec.Dispatch
import Verif.Model.Messages

/-!
# What may follow a message in the same slice

The parsers look at the words behind a message too.  `Allows m c k` says which words `c` the
parser of type `k` tolerates behind a complete message `m`.
-/

namespace Midi2

/-- The fields at `pos` of all complete packets of `n` words in `b` are equal to that of the first. -/
def SameField (n : Nat) (b : List (BitVec 32)) (pos width : Nat) : Prop :=
  ∀ j, n * (j + 1) ≤ b.length → fieldAt b (n * j) pos width = fieldAt b 0 pos width

/-- Nothing is demanded behind channel voice, system common and utility messages.  Behind a flex
data message every aligned group of four words must repeat its bank and status; behind a stream
message the next packet must not be of type stream, and every aligned group of four words must
repeat its status, whatever the type of those words.  Behind a system exclusive message no packet
of the same type may follow, and all aligned groups of words must have a legal size in their first
word.  Behind text messages moreover the bytes of all aligned groups must be text. -/
def UmpKind.Allows (m c : List (BitVec 32)) : UmpKind → Prop
  | .fixed d =>
    (d ∈ Msg.flexAll → SameField 4 (m ++ c) 16 8 ∧ SameField 4 (m ++ c) 24 8) ∧
    (d ∈ Msg.streamAll → fieldAt (m ++ c) 4 0 4 ≠ some 15 ∧ SameField 4 (m ++ c) 6 10)
  | .sysex s =>
    fieldAt c 0 0 4 ≠ some s.layout.type ∧
    ∀ j, s.layout.words * (j + 1) ≤ c.length → ∃ n, fieldAt c (s.layout.words * j) 12 4 = some n ∧
      s.layout.extra ≤ n ∧ n ≤ s.layout.capacity + s.layout.extra
  | .flexText _ =>
    fieldAt c 0 0 4 ≠ some 13 ∧ SameField 4 (m ++ c) 16 8 ∧ SameField 4 (m ++ c) 24 8 ∧
    ∃ s : String, utf8 s = (FlexText.slots (m ++ c)).dropLast.filter (· ≠ 0)
  | .streamText t =>
    fieldAt c 0 0 4 ≠ some 15 ∧ SameField 4 (m ++ c) 6 10 ∧
    (t.offset = 1 → SameField 4 (m ++ c) 16 8) ∧
    ∃ s : String, utf8 s = (t.slots (m ++ c)).filter (· ≠ 0)

end Midi2
