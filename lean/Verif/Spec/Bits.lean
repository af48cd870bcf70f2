/-!
# What it means to be a bit field of a word

Bits are counted from the most significant end (`getMsbD`).
-/

namespace Midi2

/-- `get`/`set` access the `m` bits starting at position `pos` (counted from the most
significant bit) of an `n`-bit word, and nothing else. -/
def IsFieldAt {n m : Nat} (pos : Nat) (get : BitVec n → BitVec m)
    (set : BitVec n → BitVec m → BitVec n) : Prop :=
  (∀ w k, k < m → (get w).getMsbD k = w.getMsbD (pos + k)) ∧
  (∀ w v k, k < n → (set w v).getMsbD k =
    if pos ≤ k ∧ k < pos + m then v.getMsbD (k - pos) else w.getMsbD k)

end Midi2
