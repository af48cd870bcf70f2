import Verif.Model.Programs
import Verif.Spec.Sysex
import Verif.Spec.Dispatch

/-! # What the example `handling_messages` is meant to print -/

namespace Midi2

/-- What `handle_message` is meant to print for a slice: the error line for slices that are
not accepted; for channel voice 2 messages the channel, and for notes the key and velocity;
for sysex7 the payload. -/
def Handler.Prints (b : Buf .ump) (out : List Handler.Line) : Prop :=
  (out = [.error] ∧ (∀ d ∈ Msg.cv2All, d.tryFrom .ump b ≠ .ok b) ∧ Sx.s7.tryFrom b ≠ .ok b) ∨
  (∃ d ∈ Msg.cv2All, d.tryFrom .ump b = .ok b ∧ ∃ (c : BitVec 4) (rest : List Handler.Line),
    out = .channel c :: rest ∧ fieldAt b 0 12 4 = some c.toNat ∧
    ((∃ (n : BitVec 7) (v : BitVec 16), fieldAt b 0 17 7 = some n.toNat ∧
        fieldAt b 1 0 16 = some v.toNat ∧
        ((d = Msg.cv2NoteOn ∧ rest = [.noteOn n v]) ∨ (d = Msg.cv2NoteOff ∧ rest = [.noteOff n v]))) ∨
      (d ≠ Msg.cv2NoteOn ∧ d ≠ Msg.cv2NoteOff ∧ rest = []))) ∨
  (∃ g sizes l, sysex7Layout.IsMessage b g sizes ∧ out = [.sysex l] ∧
    sysex7Layout.payload b sizes = l.map BitVec.toNat)

end Midi2
