import Verif.Spec.History
import Verif.Model.Enums
import Verif.Spec.Follow

/-!
# Journeys

A message of a fixed-size type is set, moved from buffer to buffer, translated between words and
bytes and sent to somebody else, in any order.  For somebody who only looks at the properties it
should be as if it had stayed where it was: moving and sending do nothing, and a translation takes
away the group, which bytes do not have.
-/

namespace Midi2

/-- The other representation. -/
def Fmt.other : Fmt → Fmt
  | .ump => .bytes
  | .bytes => .ump

/-- A message over words or over bytes. -/
abbrev Held := (m : Fmt) × Buf m

/-- What can be done to a message.  Numbers are the sizes of arrays. -/
inductive Leg where
  /-- A setter. -/
  | set (c : SetCall)
  /-- `rebuffer_into`. -/
  | rebuffer
  /-- `try_rebuffer_into` an array. -/
  | tryRebuffer (size : Nat)
  /-- `array_rebuffer_into`. -/
  | arrayRebuffer (size : Nat)
  /-- `data()`, received in front of something else and parsed. -/
  | send (behind : List Nat)
  /-- `from_bytes` or `from_ump` into a growable buffer. -/
  | convert
  /-- `try_from_bytes` or `try_from_ump` into an array. -/
  | tryConvert (size : Nat)
  /-- `from_bytes` or `from_ump` into an array. -/
  | arrayConvert (size : Nat)

namespace Leg

/-- What the program does. -/
def exec (d : MsgDesc) (x : Held) : Leg → Res Held
  | set c => do return ⟨x.1, ← c.fld.write x.1 x.2 c.val⟩
  | rebuffer => do return ⟨x.1, ← d.rebufferFrom x.1 x.2⟩
  | tryRebuffer n => do return ⟨x.1, ← d.tryRebufferArray x.1 n x.2⟩
  | arrayRebuffer n => do return ⟨x.1, ← d.arrayRebuffer x.1 n x.2⟩
  | send r => do
    let w ← d.data x.1 x.2
    return ⟨x.1, ← d.tryFrom x.1 (w ++ r.map (BitVec.ofNat x.1.w))⟩
  | convert => do return ⟨x.1.other, ← d.convertVec x.1 x.1.other x.2⟩
  | tryConvert n => do return ⟨x.1.other, ← d.tryConvertArray x.1 x.1.other n x.2⟩
  | arrayConvert n => do return ⟨x.1.other, ← d.convertArray x.1 x.1.other n x.2⟩

/-- One after the other, to the first error. -/
def execAll (d : MsgDesc) : List Leg → Held → Res Held
  | [], x => .ok x
  | l :: ls, x => do execAll d ls (← l.exec d x)

/-- What it amounts to for somebody who looks at the properties only. -/
def meaning : Leg → List SetCall
  | set c => [c]
  | convert | tryConvert _ | arrayConvert _ => [⟨"group", groupFld, (0 : BitVec 4)⟩]
  | _ => []

/-- The representation and the length of the buffer afterwards; `none` if an array is too small. -/
def shape (d : MsgDesc) (s : Fmt × Nat) : Leg → Option (Fmt × Nat)
  | set _ | rebuffer => some s
  | tryRebuffer n => if s.2 ≤ n then some (s.1, n) else none
  | arrayRebuffer n => some (s.1, n)
  | send r => some (s.1, d.minSize s.1 + r.length)
  | convert => some (s.1.other, d.minSize s.1.other)
  | tryConvert n => if d.minSize s.1.other ≤ n then some (s.1.other, n) else none
  | arrayConvert n => some (s.1.other, n)

/-- What compiles, for a message in this representation: setters it has, arrays of the minimum
size, translations for the types that have both representations.  Values the setters do not store
faithfully are left out, as in C09; translations of `SongPositionPointer`, see C13; and sending
flex data and stream messages in front of other words, see C12. -/
def Legal (d : MsgDesc) (m : Fmt) : Leg → Prop
  | set c => c.legal d m
  | rebuffer | tryRebuffer _ => True
  | arrayRebuffer n => d.minSize m ≤ n
  | send _ => d ∈ Msg.cv1All ++ Msg.cv2All ++ Msg.sysAll ++ Msg.utilAll
  | convert | tryConvert _ => d ∈ Msg.hybridAll ∧ d.name ≠ "system_common::SongPositionPointer"
  | arrayConvert n =>
    d ∈ Msg.hybridAll ∧ d.name ≠ "system_common::SongPositionPointer" ∧ d.minSize m.other ≤ n

/-- The representation afterwards. -/
def fmt (m : Fmt) : Leg → Fmt
  | convert | tryConvert _ | arrayConvert _ => m.other
  | _ => m

/-- All steps compile, each for the representation it meets. -/
def AllLegal (d : MsgDesc) : Fmt → List Leg → Prop
  | _, [] => True
  | m, l :: ls => l.Legal d m ∧ AllLegal d (l.fmt m) ls

/-- Representation and length at the end; `none` if some array on the way was too small. -/
def shapes (d : MsgDesc) (s : Fmt × Nat) : List Leg → Option (Fmt × Nat)
  | [] => some s
  | l :: ls => l.shape d s >>= fun s => shapes d s ls

/-! ### Words only, exactly

What is behind the message in its buffer matters to the parsers of flex data and stream messages
(`Verif/Spec/Follow.lean`), so these journeys keep account of it. -/

/-- What compiles for a message over words, without translations. -/
def Words (d : MsgDesc) : Leg → Prop
  | set c => c.legal d .ump
  | rebuffer | tryRebuffer _ | send _ => True
  | arrayRebuffer n => d.umpSize ≤ n
  | convert | tryConvert _ | arrayConvert _ => False

instance (n : Nat) (b : List (BitVec 32)) (p w : Nat) [NeZero n] : Decidable (SameField n b p w) :=
  decidable_of_iff (∀ j, j < b.length → n * (j + 1) ≤ b.length →
      fieldAt b (n * j) p w = fieldAt b 0 p w)
    ⟨fun h j hj => h j (Nat.lt_of_lt_of_le (Nat.lt_succ_self j) (Nat.le_trans
      (Nat.le_mul_of_pos_left (j + 1) (Nat.pos_of_ne_zero (NeZero.ne n))) hj)) hj, fun h j _ => h j⟩

instance (d : MsgDesc) (m c : List (BitVec 32)) : Decidable (UmpKind.Allows m c (.fixed d)) :=
  inferInstanceAs (Decidable ((d ∈ Msg.flexAll → SameField 4 (m ++ c) 16 8 ∧ SameField 4 (m ++ c) 24 8) ∧
    (d ∈ Msg.streamAll → fieldAt (m ++ c) 4 0 4 ≠ some 15 ∧ SameField 4 (m ++ c) 6 10)))

/-- What is behind the message after a step, `m` being the message and `c` what is behind it
before; or the error the step reports: an array is too small, or the receiver does not tolerate
what comes behind the message. -/
def tail (d : MsgDesc) (m c : List (BitVec 32)) : Leg → Except Error (List (BitVec 32))
  | tryRebuffer n =>
    if m.length + c.length ≤ n then .ok (c ++ List.replicate (n - (m.length + c.length)) 0)
    else .error .bufferOverflow
  | arrayRebuffer n => .ok (List.replicate (n - m.length) 0)
  | send r =>
    let r := r.map (BitVec.ofNat 32)
    if UmpKind.Allows m r (.fixed d) then .ok r else .error .invalidData
  | _ => .ok c

/-- The same after all steps. -/
def tails (d : MsgDesc) (m : List (BitVec 32)) :
    List Leg → List (BitVec 32) → Except Error (List (BitVec 32))
  | [], c => .ok c
  | l :: ls, c => tail d m c l >>= tails d m ls

end Leg

end Midi2
