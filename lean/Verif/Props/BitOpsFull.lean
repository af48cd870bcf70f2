import Verif.Model.BitOpsFull
import Verif.Props.BitOps

/-!
# C42 for every index
-/

namespace Midi2

open BitOps

/-- The first bit of part `i`, from the most significant end.  A septet is the lower seven bits of
an octet. -/
def BitOps.Part.at : Part → Nat → Nat
  | .septet, i => 8 * i + 1
  | p, i => p.width * i

/-- How many parts of a kind the implementation for an integer of `n` bits has. -/
def BitOps.Part.count (n : Nat) : Part → Nat
  | .bit => n
  | .crumb => if n = 32 then 16 else 0
  | .nibble => if n = 32 then 8 else if n = 8 then 2 else 0
  | .septet => if n = 32 then 4 else if n = 8 then 1 else 0
  | .octet => if n = 32 then 4 else if n = 8 then 1 else 0
  | .word => if n = 32 then 2 else 0

/-- The accessors of a part access its bits and nothing else, if the integer has it; otherwise they
panic. -/
def BitOps.Behaves (n : Nat) (p : Part) (i : Nat) (get : BitVec n → Nat → Res (BitVec p.width))
    (set : BitVec n → Nat → BitVec p.width → Res (BitVec n)) : Prop :=
  (i < p.count n → ∃ g s, (∀ w, get w i = .ok (g w)) ∧ (∀ w v, set w i v = .ok (s w v)) ∧
    IsFieldAt (p.at i) g s) ∧
  (p.count n ≤ i → (∀ w, get w i = .panic) ∧ ∀ w v, set w i v = .panic)

theorem behaves_of {n : Nat} {p : Part} {i : Nat} {get : BitVec n → Nat → Res (BitVec p.width)}
    {set : BitVec n → Nat → BitVec p.width → Res (BitVec n)} {c : Bool}
    (g : BitVec n → BitVec p.width) (s : BitVec n → BitVec p.width → BitVec n)
    (hc : c = decide (i < p.count n)) (hg : ∀ w, get w i = asserting c (g w))
    (hs : ∀ w v, set w i v = asserting c (s w v)) (h : i < p.count n → IsFieldAt (p.at i) g s) :
    Behaves n p i get set := by
  subst hc
  constructor
  · intro hi
    refine ⟨g, s, fun w => ?_, fun w v => ?_, h hi⟩
    · rw [hg, decide_eq_true hi]; rfl
    · rw [hs, decide_eq_true hi]; rfl
  · intro hi
    refine ⟨fun w => ?_, fun w v => ?_⟩
    · rw [hg, decide_eq_false (by omega)]; rfl
    · rw [hs, decide_eq_false (by omega)]; rfl

/-- C42 for `u32` and every index. -/
theorem C42_u32_exactly (p : Part) (i : Nat) :
    Behaves 32 p i (fun w i => get32 w i p) (fun w i v => set32 w i p v) := by
  obtain ⟨h1, h2, h3, h4, h5, h6⟩ := C42_u32_positions
  cases p with
  | bit =>
    exact behaves_of _ _ rfl (fun _ => rfl) (fun _ _ => rfl) fun hi => by
      have := h1 i hi
      rwa [show Part.bit.at i = i from Nat.one_mul i]
  | crumb => exact behaves_of _ _ rfl (fun _ => rfl) (fun _ _ => rfl) fun hi => h2 i hi
  | nibble => exact behaves_of _ _ rfl (fun _ => rfl) (fun _ _ => rfl) fun hi => h3 i hi
  | septet => exact behaves_of _ _ rfl (fun _ => rfl) (fun _ _ => rfl) fun hi => h4 i hi
  | octet => exact behaves_of _ _ rfl (fun _ => rfl) (fun _ _ => rfl) fun hi => h5 i hi
  | word => exact behaves_of _ _ rfl (fun _ => rfl) (fun _ _ => rfl) fun hi => h6 i hi

/-- C42 for `u7` and every index. -/
theorem C42_u7_exactly (p : Part) (i : Nat) :
    Behaves 7 p i (fun w i => get7 w i p) (fun w i v => set7 w i p v) := by
  obtain ⟨-, -, -, h4⟩ := C42_u8_u7_positions
  cases p with
  | bit =>
    exact behaves_of _ _ rfl (fun _ => rfl) (fun _ _ => rfl) fun hi => by
      have := h4 i hi
      rwa [show Part.bit.at i = i from Nat.one_mul i]
  | _ => exact ⟨fun h => absurd h (Nat.not_lt_zero i), fun _ => ⟨fun _ => rfl, fun _ _ => rfl⟩⟩

/-- C42 for `u8`: every setter and index, and every getter and index but the septets and octets
behind the first, which the getters do not refuse but take for the first. -/
theorem C42_u8_exactly (p : Part) (i : Nat) :
    ((p ≠ .septet ∧ p ≠ .octet ∨ i = 0) →
      Behaves 8 p i (fun w i => get8 w i p) (fun w i v => set8 w i p v)) ∧
    ((p = .septet ∨ p = .octet) → i ≠ 0 →
      (∀ w, get8 w i p = get8 w 0 p) ∧ ∀ w v, set8 w i p v = .panic) := by
  obtain ⟨h1, h2, h3, -⟩ := C42_u8_u7_positions
  cases p with
  | bit =>
    refine ⟨fun _ => behaves_of _ _ rfl (fun _ => rfl) (fun _ _ => rfl) fun hi => ?_, fun h => by simp at h⟩
    have := h1 i hi
    rwa [show Part.bit.at i = i from Nat.one_mul i]
  | crumb => exact ⟨fun _ => ⟨fun h => absurd h (Nat.not_lt_zero i), fun _ => ⟨fun _ => rfl, fun _ _ => rfl⟩⟩,
      fun h => by simp at h⟩
  | nibble =>
    exact ⟨fun _ => behaves_of _ _ rfl (fun _ => rfl) (fun _ _ => rfl) fun hi => h2 i hi, fun h => by simp at h⟩
  | septet =>
    refine ⟨fun h => ?_, fun _ h0 => ⟨fun _ => rfl, fun w v => ?_⟩⟩
    · have : i = 0 := by simpa using h
      subst this
      exact ⟨fun _ => ⟨_, _, fun _ => rfl, fun _ _ => rfl, h3⟩, fun h => absurd h (by decide)⟩
    · show asserting (i == 0) _ = _
      rw [beq_eq_false_iff_ne.mpr h0]; rfl
  | octet =>
    refine ⟨fun h => ?_, fun _ h0 => ⟨fun _ => rfl, fun w v => ?_⟩⟩
    · have : i = 0 := by simpa using h
      subst this
      refine ⟨fun _ => ⟨id, fun _ v => v, fun _ => rfl, fun _ _ => rfl, ?_, ?_⟩, fun h => absurd h (by decide)⟩
      · intro w k _
        show w.getMsbD k = w.getMsbD (0 + k)
        rw [Nat.zero_add]
      · intro w v k hk
        rw [if_pos ⟨Nat.zero_le _, show k < 0 + 8 by omega⟩]
        rfl
    · show asserting (i == 0) _ = _
      rw [beq_eq_false_iff_ne.mpr h0]; rfl
  | word => exact ⟨fun _ => ⟨fun h => absurd h (Nat.not_lt_zero i), fun _ => ⟨fun _ => rfl, fun _ _ => rfl⟩⟩,
      fun h => by simp at h⟩

-- The unit tests of bit_ops.rs:252-262 (`octet` and `set_octet`), and indices that are too large.
example : get8 0xFC 0 .octet = .ok 0xFC ∧ set8 1 0 .octet 6 = .ok 6 ∧ set8 0 0 .octet 0xBE = .ok 0xBE ∧
    get8 0xFC 1 .octet = .ok 0xFC ∧ set8 0 1 .octet 6 = .panic ∧ get32 0x01234567 3 .octet = .ok 0x67 ∧
    get32 0x01234567 4 .octet = .panic ∧ get7 0x40 0 .bit = .ok 1 ∧ get7 0x40 7 .bit = .panic := by
  decide +kernel

end Midi2
