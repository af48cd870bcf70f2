import Verif.Spec.Journey
import Verif.Spec.SysexBytes

/-!
# Journeys of system exclusive messages

The same as `Spec/Journey.lean` for `Sysex7` messages in growable buffers: between the calls that
change them they are moved to other buffers, visit arrays, are sent and translated.
-/

namespace Midi2

/-- What can be done to a `Sysex7` message in a growable buffer. -/
inductive SxLeg where
  /-- A setter. -/
  | call (c : SxCall .s7)
  /-- `rebuffer_into`. -/
  | rebuffer
  /-- `try_rebuffer_into` an array and `rebuffer_into` a growable buffer again. -/
  | visit (size : Nat)
  /-- `data()` and `try_from`. -/
  | send
  /-- `from_bytes` or `from_ump`. -/
  | convert

/-- Where a message is and what somebody sees of it. -/
structure Sight where
  fmt : Fmt
  group : BitVec 4
  payload : List (BitVec 7)
  length : Nat
  deriving DecidableEq

/-- The length of a message with `n` bytes of payload, in words or bytes. -/
def sysex7Length (m : Fmt) (n : Nat) : Nat :=
  match m with
  | .ump => sysex7Layout.words * (sysex7Layout.fill n).length
  | .bytes => n + 2

namespace SxLeg

/-- What the program does. -/
def exec (dbg : Bool) : SxLeg → Held → Res Held
  | call c, ⟨.ump, b⟩ => do return ⟨.ump, ← c.exec dbg b⟩
  | call c, ⟨.bytes, b⟩ => do return ⟨.bytes, ← c.execBytes b⟩
  | rebuffer, ⟨.ump, b⟩ => do return ⟨.ump, ← (UmpKind.sysex .s7).rebufferFrom b⟩
  | rebuffer, ⟨.bytes, b⟩ => do return ⟨.bytes, ← BytesKind.sysex7.rebufferFrom b⟩
  | visit n, ⟨.ump, b⟩ => do
    return ⟨.ump, ← (UmpKind.sysex .s7).rebufferFrom (← (UmpKind.sysex .s7).tryRebufferArray n b)⟩
  | visit n, ⟨.bytes, b⟩ => do
    return ⟨.bytes, ← BytesKind.sysex7.rebufferFrom (← BytesKind.sysex7.tryRebufferArray n b)⟩
  | send, ⟨.ump, b⟩ => do return ⟨.ump, ← Sx.s7.tryFrom (← Sx.s7.data b)⟩
  | send, ⟨.bytes, b⟩ => do return ⟨.bytes, ← Sxb.tryFrom (← Sxb.data b)⟩
  | convert, ⟨.ump, b⟩ => do return ⟨.bytes, ← Sxb.fromUmp b⟩
  | convert, ⟨.bytes, b⟩ => do return ⟨.ump, ← Sxb.fromBytes dbg b⟩

/-- One after the other, to the first error. -/
def execAll (dbg : Bool) : List SxLeg → Held → Res Held
  | [], x => .ok x
  | l :: ls, x => do execAll dbg ls (← l.exec dbg x)

/-- What it amounts to.  Calls that change the payload leave nothing behind the message; a
translation loses the group; arrays add to the length of the buffer, and `none` says that one is
too small. -/
def apply (s : Sight) : SxLeg → Option Sight
  | call (.setGroup g) => some { s with group := g }
  | call (.setPayloadByte i v) => some { s with payload := s.payload.set i v }
  | call c =>
    let l := (c.apply (k := .s7) (s.group, s.payload)).2
    some { s with payload := l, length := sysex7Length s.fmt l.length }
  | rebuffer => some s
  | visit n => if s.length ≤ n then some { s with length := n } else none
  | send => some { s with length := sysex7Length s.fmt s.payload.length }
  | convert =>
    some { s with fmt := s.fmt.other, group := 0,
                  length := sysex7Length s.fmt.other s.payload.length }

def applyAll (s : Sight) : List SxLeg → Option Sight
  | [] => some s
  | l :: ls => apply s l >>= fun s => applyAll s ls

/-- Arguments are in range, and there is no group to set over bytes. -/
def Legal (s : Sight) : SxLeg → Prop
  | call c => c.InRange (k := .s7) s.payload ∧ ∀ g, c = .setGroup g → s.fmt = .ump
  | _ => True

def AllLegal (s : Sight) : List SxLeg → Prop
  | [] => True
  | l :: ls => l.Legal s ∧ ∀ s', apply s l = some s' → AllLegal s' ls

end SxLeg

/-- This is what somebody sees of the message: the accessors say so, and what is sent is the
message of the wire format. -/
def Sight.Of (s : Sight) : Held → Prop
  | ⟨.ump, b⟩ => s.fmt = .ump ∧ b.length = s.length ∧ Sx.s7.Holds b s.group s.payload
  | ⟨.bytes, b⟩ => s.fmt = .bytes ∧ b.length = s.length ∧ HoldsBytes b s.payload

end Midi2
