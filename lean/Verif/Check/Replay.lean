import Verif.Model.Enums
import Verif.Model.Packet
import Verif.Model.Ci
import Verif.Model.Programs

/-!
# Replaying the crate's own tests on the model

The modules in this directory run the crate's unit tests and documentation examples on
the model.  They are tests, not proofs of any property: each is one `example` over
literals.  They check the model against the expectations the authors of the crate wrote
down, which is evidence (independent of the model's author) that the definitions in
`Verif/Model` describe the code.

The examples are generated from the Rust source by the scripts in /verif/replay.  Each
test becomes a computation `Res Unit`: every call is the model's function, `unwrap` on an
error or a `None` is a panic, and `assert_eq!(a, b)` is `Res.assert (decide (a = b))`.
The comment before each example gives the file (below /repo/midi2/src) and the line.
Errors are compared by kind; the text of an error is not modelled.
-/

namespace Midi2.Replay

/-- `Option::unwrap` in a test body. -/
def unwrapO {α : Type} : Option α → Res α
  | some a => .ok a
  | none => .panic

/-- The message after a `try_` setter: changed on success, as before otherwise.  Models a
test which keeps using the message after the call. -/
def orElse {α : Type} : Res α → α → α
  | .ok a, _ => a
  | _, b => b

end Midi2.Replay
