import Verif.Spec.History
import Verif.Spec.Defaults

/-!
# What a message holds after calls of its setters
-/

namespace Midi2

/-- The value a property has after the calls: the last one set, else the default. -/
def Holding (m : Fmt) (d : MsgDesc) (calls : List SetCall) (b : Buf m) : Prop :=
  (∀ pre n f v post, calls = pre ++ ⟨n, f, v⟩ :: post → (∀ c ∈ post, c.name ≠ n) →
    f.read m b = .ok v) ∧
  (∀ n f, (n, f) ∈ d.props → f.accessible m = true → (∀ c ∈ calls, c.name ≠ n) →
    f.read m b = .ok f.freshValue)

end Midi2
