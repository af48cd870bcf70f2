import Verif.Spec.TextHistory
import Verif.Model.Enums

/-!
# C72: journeys of text messages

Between the calls that change it a text message in a growable buffer is moved to other buffers,
is worked on in arrays, and is sent and received again.
-/

namespace Midi2

/-- What can be done to a text message in a growable buffer. -/
inductive TextLeg (Op : Type) where
  /-- A setter. -/
  | call (o : Op)
  /-- `rebuffer_into`. -/
  | rebuffer
  /-- `try_rebuffer_into` an array of so many words, calls there, and `rebuffer_into` a growable
  buffer again. -/
  | array (words : Nat) (os : List Op)
  /-- `data()` and `try_from`. -/
  | send

namespace FlexText

/-- What the program does. -/
def exec (t : FlexText) : TextLeg Op → Buf .ump → Res (Buf .ump)
  | .call o, b => do return (← o.exec false b).1
  | .rebuffer, b => (UmpKind.flexText t).rebufferFrom b
  | .array n os, b => do
    let a ← (UmpKind.flexText t).tryRebufferArray n b
    let x ← Op.execAll true os a
    (UmpKind.flexText t).rebufferFrom x.1
  | .send, b => do t.tryFrom (← data b)

/-- One after the other, to the first error. -/
def execLegs (t : FlexText) : List (TextLeg Op) → Buf .ump → Res (Buf .ump)
  | [], b => .ok b
  | l :: ls, b => do t.execLegs ls (← t.exec l b)

/-- What somebody sees of the message, and the words of its buffer. -/
structure Place where
  state : State
  words : Nat

/-- Packets of a text. -/
def packetsOf (s : String) : Nat := textPackets 12 (utf8 s).length

/-- What a leg amounts to.  Only a text of a whole number of packets that ends in a character of
several octets is refused by a receiver (C29). -/
def Place.step (p : Place) : TextLeg Op → Except Error Place
  | .call (.setText s) => .ok ⟨p.state.step (.setText s), 4 * packetsOf s⟩
  | .call o => .ok ⟨p.state.step o, p.words⟩
  | .rebuffer => .ok p
  | .array n os =>
    if p.words ≤ n then
      .ok ⟨(os.filter (Op.Fits (some n))).foldl State.step p.state, n⟩
    else .error .bufferOverflow
  | .send =>
    if readBack (packetsOf p.state.text) p.state.text = none then .error .invalidData
    else .ok ⟨p.state, 4 * packetsOf p.state.text⟩

def Place.steps (p : Place) : List (TextLeg Op) → Except Error Place
  | [] => .ok p
  | l :: ls => p.step l >>= fun p => p.steps ls

end FlexText

namespace StreamText

/-- What the program does. -/
def exec (t : StreamText) : TextLeg Op → Buf .ump → Res (Buf .ump)
  | .call o, b => do return (← o.exec t false b).1
  | .rebuffer, b => (UmpKind.streamText t).rebufferFrom b
  | .array n os, b => do
    let a ← (UmpKind.streamText t).tryRebufferArray n b
    let x ← Op.execAll t true os a
    (UmpKind.streamText t).rebufferFrom x.1
  | .send, b => do t.tryFrom (← data b)

/-- One after the other, to the first error. -/
def execLegs (t : StreamText) : List (TextLeg Op) → Buf .ump → Res (Buf .ump)
  | [], b => .ok b
  | l :: ls, b => do t.execLegs ls (← t.exec l b)

/-- What somebody sees of the message, and the words of its buffer; `numbers` also counts its whole
packets. -/
structure Place where
  numbers : Numbers
  text : String
  words : Nat

/-- Packets of a text. -/
def packetsOf (t : StreamText) (s : String) : Nat := textPackets t.capacity (utf8 s).length

/-- Words of a growable buffer after a call. -/
def wordsAfter (t : StreamText) (words : Nat) : Op → Nat
  | .setText s => 4 * t.packetsOf s
  | .setBlock _ => words

/-- What a leg amounts to.  A receiver refuses a function block name whose packets have different
numbers (C32). -/
def Place.step (t : StreamText) (p : Place) : TextLeg Op → Except Error Place
  | .call o => .ok ⟨p.numbers.step t false o, (lastText [o]).getD p.text, t.wordsAfter p.words o⟩
  | .rebuffer => .ok p
  | .array n os =>
    if p.words ≤ n then
      let done := os.filter (Op.Fits t (some n))
      .ok ⟨done.foldl (Numbers.step t true) ⟨n / 4, p.numbers.blocks⟩, (lastText done).getD p.text, n⟩
    else .error .bufferOverflow
  | .send =>
    let n := t.packetsOf p.text
    if t = .functionBlockName ∧ ∃ j, j < n ∧ p.numbers.blocks j ≠ p.numbers.blocks 0 then
      .error .invalidData
    else .ok ⟨⟨n, fun j => if j < n then p.numbers.blocks j else 0⟩, p.text, 4 * n⟩

def Place.steps (t : StreamText) (p : Place) : List (TextLeg Op) → Except Error Place
  | [] => .ok p
  | l :: ls => p.step t l >>= fun p => p.steps t ls

/-- The calls of a leg. -/
def legCalls : TextLeg Op → List Op
  | .call o => [o]
  | .array _ os => os
  | _ => []

end StreamText

end Midi2
