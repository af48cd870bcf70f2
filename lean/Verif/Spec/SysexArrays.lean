import Verif.Spec.SysexOps
import Verif.Model.Enums

/-!
# Journeys of system exclusive messages through arrays

Both kinds of system exclusive message in words.  Between the calls on growable buffers the
message visits arrays, where the fallible calls are made on it, and receivers.
-/

namespace Midi2

/-- What can be done to a message in a growable buffer. -/
inductive SxTrip (k : Sx) where
  /-- A setter. -/
  | call (c : SxCall k)
  /-- `rebuffer_into`. -/
  | rebuffer
  /-- `try_rebuffer_into` an array, fallible calls there, and `rebuffer_into` a growable buffer. -/
  | array (size : Nat) (cs : List (SxTryCall k))
  /-- `data()` and `try_from`. -/
  | send

/-- What somebody sees of the message, and the length of its buffer in words. -/
structure SxView (k : Sx) where
  group : BitVec 4
  payload : List k.Byte
  length : Nat

namespace SxTrip

variable {k : Sx}

/-- What the program does: the message, and what the fallible calls returned. -/
def exec (dbg : Bool) (b : Buf .ump) : SxTrip k → Res (Buf .ump × List (Option Error))
  | call c => do return (← c.exec dbg b, [])
  | rebuffer => do return (← (UmpKind.sysex k).rebufferFrom b, [])
  | array n cs => do
    let (b, es) ← SxTryCall.execAll dbg cs (← (UmpKind.sysex k).tryRebufferArray n b)
    return (← (UmpKind.sysex k).rebufferFrom b, es)
  | send => do return (← k.tryFrom (← k.data b), [])

/-- One after the other, to the first that fails as a whole. -/
def execAll (dbg : Bool) : List (SxTrip k) → Buf .ump → Res (Buf .ump × List (Option Error))
  | [], b => .ok (b, [])
  | t :: ts, b => do
    let (b, es) ← t.exec dbg b
    let (b, es') ← execAll dbg ts b
    return (b, es ++ es')

/-- What it amounts to.  Calls on growable buffers that change the payload leave nothing behind
the message, an array keeps its length, and `none` says that it is too small to move there. -/
def apply (s : SxView k) : SxTrip k → Option (SxView k × List (Option Error))
  | call (.setGroup g) => some ({ s with group := g }, [])
  | call (.setPayloadByte i v) => some ({ s with payload := s.payload.set i v }, [])
  | call c =>
    let l := (c.apply (s.group, s.payload)).2
    some ({ s with payload := l, length := k.layout.words * (k.layout.fill l.length).length }, [])
  | rebuffer => some (s, [])
  | array n cs =>
    if s.length ≤ n then
      let r := SxTryCall.applyAll n cs (s.group, s.payload)
      some (⟨r.1.1, r.1.2, n⟩, r.2)
    else none
  | send =>
    some ({ s with length := k.layout.words * (k.layout.fill s.payload.length).length }, [])

def applyAll (s : SxView k) : List (SxTrip k) → Option (SxView k × List (Option Error))
  | [] => some (s, [])
  | t :: ts => do
    let (s, es) ← apply s t
    let (s, es') ← applyAll s ts
    return (s, es ++ es')

/-- Arguments are in range. -/
def Legal (s : SxView k) : SxTrip k → Prop
  | call c => c.InRange s.payload
  | array n cs => s.length ≤ n → SxTryCall.AllInRange n cs (s.group, s.payload)
  | _ => True

def AllLegal (s : SxView k) : List (SxTrip k) → Prop
  | [] => True
  | t :: ts => t.Legal s ∧ ∀ s' es, apply s t = some (s', es) → AllLegal s' ts

end SxTrip

end Midi2
