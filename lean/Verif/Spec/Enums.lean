import Verif.Model.Enums
import Verif.Spec.Layout
import Verif.Spec.Dispatch

/-!
# Vocabulary for the enums
-/

namespace Midi2

/-- `b'` has the length of `b` and differs from it at most in the given bits (unit, position
counted from the most significant bit). -/
def ChangedOnly {n : Nat} (b b' : List (BitVec n)) (bit : Nat → Nat → Prop) : Prop :=
  b'.length = b.length ∧
    ∀ i p, ¬ bit i p → (b'[i]?).map (·.getMsbD p) = (b[i]?).map (·.getMsbD p)

/-- Bytes of the shortest message of the type; an empty system exclusive message is `F0 F7`. -/
def BytesKind.shortest : BytesKind → Nat
  | .fixed d => d.bytesSize.getD 0
  | .sysex7 => [0xF0, 0xF7].length

/-- The parsers of the enums with a group in every message. -/
def groupedParsers : List (Buf .ump → Res (MsgDesc × Buf .ump)) :=
  [SystemCommon.tryFrom .ump, ChannelVoice1.tryFrom .ump, ChannelVoice2.tryFrom]

/-- The parsers of the enums which exist in both representations. -/
def hybridParsers :
    List ((Buf .bytes → Res (MsgDesc × Buf .bytes)) × (Buf .ump → Res (MsgDesc × Buf .ump))) :=
  [(SystemCommon.tryFrom .bytes, SystemCommon.tryFrom .ump),
    (ChannelVoice1.tryFrom .bytes, ChannelVoice1.tryFrom .ump)]

end Midi2
