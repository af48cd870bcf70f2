import Verif.Model.Wrap
import Verif.Spec.Dispatch

/-!
# Messages as values of the enums: what the variants mean
-/

namespace Midi2

/-- The message type that M2-104-UM table 4 gives to the group a variant of `UmpMessage` is named
after. -/
def UmpValue.messageType : UmpValue → Nat
  | utility .. => 0
  | systemCommon .. => 1
  | channelVoice1 .. => 2
  | sysex7 .. => 3
  | channelVoice2 .. => 4
  | sysex8 .. => 5
  | flexData .. => 13
  | umpStream .. => 15

/-- The message in a value of `UmpMessage`: its type and its words. -/
def UmpValue.message : UmpValue → UmpKind × List (BitVec 32)
  | utility d b => (.fixed d, b)
  | systemCommon d b => (.fixed d, b)
  | channelVoice1 d b => (.fixed d, b)
  | sysex7 b => (.sysex .s7, b)
  | channelVoice2 d b => (.fixed d, b)
  | sysex8 b => (.sysex .s8, b)
  | flexData k b => (k, b)
  | umpStream k b => (k, b)

/-- The status bytes of the group a variant of `BytesMessage` is named after. -/
def BytesValue.HasStatus (s : Nat) : BytesValue → Prop
  | channelVoice1 .. => 0x80 ≤ s ∧ s < 0xF0
  | sysex7 .. => s = 0xF0
  | systemCommon .. => 0xF1 ≤ s ∧ s < 0x100

/-- The message in a value of `BytesMessage`. -/
def BytesValue.message : BytesValue → BytesKind × List (BitVec 8)
  | channelVoice1 d b => (.fixed d, b)
  | sysex7 b => (.sysex7, b)
  | systemCommon d b => (.fixed d, b)

end Midi2
