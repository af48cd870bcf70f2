import Verif.Lemmas.Behind
import Verif.Props.SysexNew

/-! # Lemmas: system exclusive messages in a part of a larger array -/

namespace Midi2

theorem RunBehind.unique {size type : Nat} {b : List (BitVec 32)} {n n' : Nat}
    (h : RunBehind size type b n) (h' : RunBehind size type b n') : n = n' := by
  have key : ∀ {n n'}, RunBehind size type b n → RunBehind size type b n' → ¬ n < n' := by
    intro n n' h h' hlt
    refine h.stop (Nat.le_trans (Nat.mul_le_mul_left _ hlt) h'.fits) (h'.same n h.pos hlt)
  have := key h h'
  have := key h' h
  omega

namespace Sx

/-- `y` has a packet of this type at the front, and behind it the types of `b`. -/
def Like (k : Sx) (b y : List (BitVec 32)) : Prop :=
  y.length = b.length ∧ fieldAt y 0 0 4 = some k.layout.type ∧
  ∀ i, k.stride ≤ i → fieldAt y i 0 4 = fieldAt b i 0 4

theorem typ_iff (k : Sx) (w : BitVec 32) : (U32.nibble w 0 == k.typ) = true ↔
    field w 0 4 = k.layout.type := by
  rw [beq_iff_eq, ← nibble_field w (i := 0) (by omega)]
  cases k
  · exact ⟨fun h => by rw [h]; rfl, fun h => BitVec.eq_of_toNat_eq h⟩
  · exact ⟨fun h => by rw [h]; rfl, fun h => BitVec.eq_of_toNat_eq h⟩

theorem Like.lead {k : Sx} {b y : Buf .ump} (h : k.Like b y) (hb : k.stride ≤ b.length) :
    RunBehind k.stride k.layout.type b (k.lead y) := by
  have hs := k.stride_pos
  obtain ⟨h1, h2, h3⟩ := h
  have hmax : ∀ p, k.stride * p ≤ b.length →
      (∀ j, 0 < j → j < p → fieldAt b (k.stride * j) 0 4 = some k.layout.type) → p ≤ k.lead y := by
    intro p hp hj
    apply le_leading hs _ y p (by rw [h1]; exact hp)
    intro j hjp
    have hx : fieldAt y (k.stride * j) 0 4 = some k.layout.type := by
      by_cases h0 : j = 0
      · subst h0; exact h2
      · rw [h3 _ (Nat.le_mul_of_pos_right _ (by omega))]; exact hj j (by omega) hjp
    unfold fieldAt at hx
    obtain ⟨w, w1, w2⟩ := Option.map_eq_some_iff.mp hx
    exact ⟨w, w1, (typ_iff k w).mpr w2⟩
  have hspec : ∀ j, 0 < j → j < k.lead y → fieldAt b (k.stride * j) 0 4 = some k.layout.type := by
    intro j h0 hj
    obtain ⟨_, w, w1, w2⟩ := leading_spec hs _ y j hj
    rw [← h3 _ (Nat.le_mul_of_pos_right _ h0), fieldAt_ext w1, (typ_iff k w).mp w2]
  have hpos : 0 < k.lead y := hmax 1 (by omega) (fun j _ _ => by omega)
  refine ⟨hpos, ?_, hspec, fun g1 g2 => ?_⟩
  · have := (leading_spec hs _ y (k.lead y - 1) (by show _ < k.lead y; omega)).1
    rw [Nat.sub_add_cancel hpos, h1] at this
    exact this
  · have := hmax (k.lead y + 1) g1 (fun j j1 j2 => by
      by_cases hj : j = k.lead y
      · rw [hj]; exact g2
      · exact hspec j j1 (by omega))
    omega

/-- Setting something in the headers of the message, seen from the words behind it. -/
theorem Like.onTyped {k : Sx} {b y : Buf .ump} (h : k.Like b y) (hb : k.stride ≤ b.length)
    {n : Nat} (hn : RunBehind k.stride k.layout.type b n) (f : BitVec 32 → BitVec 32) :
    (∀ i : Nat, (k.onTyped y f)[i]? =
      if i % k.stride = 0 ∧ i / k.stride < n then (y[i]?).map f else y[i]?) ∧
    ((∀ w, field (f w) 0 4 = field w 0 4) → k.Like b (k.onTyped y f)) := by
  have hs := k.stride_pos
  have e : k.lead y = n := (h.lead hb).unique hn
  have hg : ∀ i : Nat, (k.onTyped y f)[i]? =
      if i % k.stride = 0 ∧ i / k.stride < n then (y[i]?).map f else y[i]? := by
    intro i
    rw [onTyped_eq, onHeads_getElem? hs, ← e]; rfl
  refine ⟨hg, fun hf => ?_⟩
  have hfa : ∀ i, fieldAt (k.onTyped y f) i 0 4 = fieldAt y i 0 4 := by
    intro i
    unfold fieldAt
    rw [hg]
    split
    · rw [Option.map_map]; congr 1; funext w; exact hf w
    · rfl
  exact ⟨by rw [onTyped_eq, onHeads_length hs]; exact h.1, by rw [hfa]; exact h.2.1,
    fun i hi => by rw [hfa]; exact h.2.2 i hi⟩

end Sx

theorem field_nibble_ne (w : BitVec 32) (j : Nat) (v : BitVec 4) {pos width : Nat} (hj : j < 8)
    (hp : pos + width ≤ 32) (h : pos + width ≤ 4 * j ∨ 4 * j + 4 ≤ pos) :
    field (U32.setNibble w j v) pos width = field w pos width := by
  rw [U32.setNibble_eq, field_ins_ne]; omega

theorem field_nibble_same (w : BitVec 32) (j : Nat) (v : BitVec 4) (hj : j < 8) :
    field (U32.setNibble w j v) (4 * j) 4 = v.toNat := by
  rw [U32.setNibble_eq, show 28 - j * 4 = 32 - 4 * j - 4 by omega, field_ins_same _ _ (by omega)]

theorem field_octet_ne (w : BitVec 32) (j : Nat) (v : BitVec 8) {pos width : Nat} (hj : j < 4)
    (hp : pos + width ≤ 32) (h : pos + width ≤ 8 * j ∨ 8 * j + 8 ≤ pos) :
    field (U32.setOctet w j v) pos width = field w pos width := by
  rw [U32.setOctet_eq, field_ins_ne]; omega

theorem field_octet_same (w : BitVec 32) (j : Nat) (v : BitVec 8) (hj : j < 4) :
    field (U32.setOctet w j v) (8 * j) 8 = v.toNat := by
  rw [U32.setOctet_eq, show 24 - j * 8 = 32 - 8 * j - 8 by omega, field_ins_same _ _ (by omega)]

theorem nibble_max (w : BitVec 32) :
    (if U32.nibble w 3 < 1 then (1 : BitVec 4) else U32.nibble w 3).toNat = max 1 (field w 12 4) := by
  rw [← nibble_field w (i := 3) (by omega)]
  generalize U32.nibble w 3 = v
  revert v
  decide

/-- Building a message at the front. -/
theorem Sx.init_behind (k : Sx) {b z x : Buf .ump} (hb : k.stride ≤ b.length)
    (hz : z.length = b.length) (hzb : ∀ i, k.stride ≤ i → z[i]? = b[i]?) (hx : k.init z = .ok x) :
    ∃ n, RunBehind k.stride k.layout.type b n ∧ SysexBehind k n b x := by
  have hs := k.stride_pos
  have hz0 : 0 < z.length := by omega
  obtain ⟨y, e1, hl1, hy0, hyi⟩ : ∃ y, modifyAt z 0 (fun w => U32.setNibble w 0 k.typ) = .ok y ∧
      y.length = z.length ∧ y[0]? = some (U32.setNibble z[0] 0 k.typ) ∧
      ∀ i, 0 < i → y[i]? = z[i]? := by
    cases z with
    | nil => cases hz0
    | cons a z =>
      refine ⟨U32.setNibble a 0 k.typ :: z, rfl, rfl, rfl, fun i hi => ?_⟩
      cases i with
      | zero => omega
      | succ i => rfl
  have hyb : ∀ i, k.stride ≤ i → y[i]? = b[i]? := fun i hi => by
    rw [hyi i (by omega), hzb i hi]
  have L : k.Like b y := by
    refine ⟨by omega, ?_, fun i hi => by unfold fieldAt; rw [hyb i hi]⟩
    rw [fieldAt_ext hy0]
    have := field_nibble_same z[0] 0 k.typ (by omega)
    rw [show field (U32.setNibble z[0] 0 k.typ) 0 4 = _ from this]
    cases k <;> rfl
  have R := L.lead hb
  generalize k.lead y = n at R
  refine ⟨n, R, ?_⟩
  unfold Sx.init at hx
  rw [e1, Res.ok_bind] at hx
  have lenOf : ∀ (u : Buf .ump) f, (k.onTyped u f).length = u.length := fun u f => by
    rw [onTyped_eq, onHeads_length hs]
  cases k with
  | s7 =>
    cases hx
    obtain ⟨g1, _⟩ := L.onTyped hb R (fun w => U32.setNibble w 1 0)
    refine ⟨(lenOf y _).trans (by omega), fun i hi hlt => ?_⟩
    have hi : Sx.s7.stride ≤ i := hi
    have xb : b[i]? = some b[i] := List.getElem?_eq_getElem hlt
    constructor
    · intro hh
      have hh : ¬ (i % Sx.s7.stride = 0 ∧ i / Sx.s7.stride < n) := hh
      exact (g1 i).trans (by rw [if_neg hh, hyb i hi])
    · intro h1 h2
      have h1 : i % Sx.s7.stride = 0 := h1
      have h2 : i / Sx.s7.stride < n := h2
      have e : (Sx.s7.setGroup (Sx.s7.writeSizes y) 0)[i]? = some (U32.setNibble b[i] 1 0) :=
        (g1 i).trans (by rw [if_pos ⟨h1, h2⟩, hyb i hi, xb]; rfl)
      have a : ∀ p w, p + w ≤ 32 → (p + w ≤ 4 ∨ 8 ≤ p) → field (U32.setNibble b[i] 1 0) p w =
          field b[i] p w := fun p w h1 h2 => field_nibble_ne _ _ _ (by omega) h1 (by omega)
      have b1 := field_nibble_same b[i] 1 0 (by omega)
      simp only [fieldAt_ext e, fieldAt_ext xb]
      rw [a 0 4 (by omega) (by omega), a 8 4 (by omega) (by omega), a 16 8 (by omega) (by omega),
        a 12 4 (by omega) (by omega), a 24 8 (by omega) (by omega)]
      exact ⟨rfl, congrArg some b1, rfl, rfl, rfl, rfl⟩
  | s8 =>
    cases hx
    let f1 : BitVec 32 → BitVec 32 := fun w =>
      U32.setNibble w 3 (if U32.nibble w 3 < 1 then 1 else U32.nibble w 3)
    obtain ⟨g1, L1⟩ := L.onTyped hb R f1
    have L1 := L1 (fun w => field_nibble_ne _ _ _ (by omega) (by omega) (by omega))
    obtain ⟨g2, L2⟩ := L1.onTyped hb R (fun w => U32.setNibble w 1 0)
    have L2 := L2 (fun w => field_nibble_ne _ _ _ (by omega) (by omega) (by omega))
    obtain ⟨g3, _⟩ := L2.onTyped hb R (fun w => U32.setOctet w 3 0)
    refine ⟨(lenOf _ _).trans L2.1, fun i hi hlt => ?_⟩
    have hi : Sx.s8.stride ≤ i := hi
    have xb : b[i]? = some b[i] := List.getElem?_eq_getElem hlt
    constructor
    · intro hh
      have hh : ¬ (i % Sx.s8.stride = 0 ∧ i / Sx.s8.stride < n) := hh
      exact (g3 i).trans (by rw [if_neg hh, g2, if_neg hh, g1, if_neg hh, hyb i hi])
    · intro h1 h2
      have h1 : i % Sx.s8.stride = 0 := h1
      have h2 : i / Sx.s8.stride < n := h2
      have e : (Sx.setStreamId (Sx.s8.setGroup (Sx.s8.writeSizes y) 0) 0)[i]? =
          some (U32.setOctet (U32.setNibble (f1 b[i]) 1 0) 3 0) :=
        (g3 i).trans (by
          rw [if_pos ⟨h1, h2⟩, g2, if_pos ⟨h1, h2⟩, g1, if_pos ⟨h1, h2⟩, hyb i hi, xb]; rfl)
      have c : ∀ p w, p + w ≤ 24 → field (U32.setOctet (U32.setNibble (f1 b[i]) 1 0) 3 0) p w =
          field (U32.setNibble (f1 b[i]) 1 0) p w := fun p w h =>
        field_octet_ne _ _ _ (by omega) (by omega) (by omega)
      have c3 := field_octet_same (U32.setNibble (f1 b[i]) 1 0) 3 0 (by omega)
      have a : ∀ p w, p + w ≤ 32 → (p + w ≤ 4 ∨ 8 ≤ p) → field (U32.setNibble (f1 b[i]) 1 0) p w =
          field (f1 b[i]) p w := fun p w h1 h2 => field_nibble_ne _ _ _ (by omega) h1 (by omega)
      have a1 := field_nibble_same (f1 b[i]) 1 0 (by omega)
      have d : ∀ p w, p + w ≤ 32 → (p + w ≤ 12 ∨ 16 ≤ p) → field (f1 b[i]) p w = field b[i] p w :=
        fun p w h1 h2 => field_nibble_ne _ _ _ (by omega) h1 (by omega)
      have d3 := field_nibble_same b[i] 3
        (if U32.nibble b[i] 3 < 1 then 1 else U32.nibble b[i] 3) (by omega)
      rw [nibble_max] at d3
      simp only [fieldAt_ext e, fieldAt_ext xb]
      rw [c 0 4 (by omega), a 0 4 (by omega) (by omega), d 0 4 (by omega) (by omega),
        c 4 4 (by omega), c 8 4 (by omega), a 8 4 (by omega) (by omega), d 8 4 (by omega) (by omega),
        c 16 8 (by omega), a 16 8 (by omega) (by omega), d 16 8 (by omega) (by omega),
        c 12 4 (by omega), a 12 4 (by omega) (by omega)]
      exact ⟨rfl, congrArg some a1, rfl, rfl, congrArg some d3, congrArg some c3⟩

end Midi2
