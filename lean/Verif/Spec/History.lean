import Verif.Spec.Footprint

/-!
# Histories of setter calls
-/

namespace Midi2

/-- A call `message.set_<name>(val)`. -/
structure SetCall where
  name : String
  fld : Fld
  val : fld.Ty

/-- The message type has this setter, and the value is one the setter stores
faithfully (see `Fld.faithful`). -/
def SetCall.legal (c : SetCall) (d : MsgDesc) (m : Fmt) : Prop :=
  (c.name, c.fld) ∈ d.props ∧ c.fld.accessible m = true ∧ c.fld.faithful c.val = true

/-- Perform the calls in order. -/
def runSetters (m : Fmt) : List SetCall → Buf m → Res (Buf m)
  | [], b => .ok b
  | c :: cs, b => do
    let b ← c.fld.write m b c.val
    runSetters m cs b

end Midi2
