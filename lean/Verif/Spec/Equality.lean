import Verif.Spec.Layout
import Verif.Spec.Lens

/-! # Which bits of a message mean something (C61) -/

namespace Midi2

/-- Bit `t`, counted from the most significant, of unit `i` belongs to a constant field or to a
property. -/
def Layout.Covers (l : Layout) (i t : Nat) : Prop :=
  (∃ p n v, (i, p, n, v) ∈ l.consts ∧ p ≤ t ∧ t < p + n) ∨
  (∃ name ps p n, (name, ps) ∈ l.props ∧ (i, p, n) ∈ ps ∧ p ≤ t ∧ t < p + n)

end Midi2
