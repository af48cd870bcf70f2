import Verif.Props.Streams

/-!
# Lemmas: messages whose last packet is truncated
-/

namespace Midi2

/-- If the run of packets ends in a truncated one, no complete packet is marked as the last. -/
theorem no_last_packet {k : Nat} (hk : 0 < k) {ty : BitVec 4} {b : Buf .ump} {g : BitVec 32 → Nat}
    {q : BitVec 32 → Bool} (hq : ∀ w, q w = decide (g w = 0 ∨ g w = 3))
    (hs : SeqOk ((typedRun k ty b).map g)) (ht : ¬ k * (typedRun k ty b).length ≤ b.length) :
    (chunksExact k b).findIdx? (fun p => q (head0 p)) = none := by
  rw [List.findIdx?_eq_none_iff, chunksExact_eq_map hk]
  intro x hx
  obtain ⟨i, hi, rfl⟩ := List.mem_map.mp hx
  have hi : i < b.length / k := List.mem_range.mp hi
  have h1 : (i + 1) * k ≤ b.length := (Nat.le_div_iff_mul_le hk).mp hi
  have h2 : i + 1 < (typedRun k ty b).length := by
    refine Nat.lt_of_not_le fun h => ht ?_
    rw [Nat.mul_comm]
    exact Nat.le_trans (Nat.mul_le_mul_right _ h) h1
  obtain ⟨w, e1, e2, _⟩ := typedRun_get hk (show i < (typedRun k ty b).length by omega)
  have := ((seqOk_iff _).mp hs).2 i (g w) (by rw [List.getElem?_map, e2]; rfl)
  rw [List.length_map] at this
  show q (head0 _) = false
  rw [head0_drop_take hk e1, hq, this, decide_eq_false_iff_not]
  unfold statusCode
  split <;> (try split) <;> (try split) <;> omega

theorem crumb_last (i : Nat) (hi : i < 16) (w : BitVec 32) :
    (U32.crumb w i == 0#2 || U32.crumb w i == 3#2) =
      decide (field w (2 * i) 2 = 0 ∨ field w (2 * i) 2 = 3) := by
  rw [← crumb_field w hi]
  generalize U32.crumb w i = c
  revert c; decide

theorem nibble_last (w : BitVec 32) :
    Sx.isLast w = decide (field w 8 4 = 0 ∨ field w 8 4 = 3) := by
  have := nibble_field w (i := 2) (by omega)
  rw [← this]
  unfold Sx.isLast
  generalize U32.nibble w 2 = c
  revert c; decide

theorem Sx.run_typed (k : Sx) (b : Buf .ump) : k.layout.run b = typedRun k.stride k.typ b := by
  cases k <;> rfl

theorem Sx.size_truncated {k : Sx} {b : Buf .ump} (A : k.layout.Accepts b)
    (h : ¬ k.layout.Untruncated b) : k.size b = .panic := by
  have hs := A.statuses
  unfold SysexLayout.Untruncated at h
  rw [k.run_typed] at hs h
  rw [words_eq] at h
  unfold Sx.size
  rw [no_last_packet (q := Sx.isLast) k.stride_pos nibble_last hs h]

theorem FlexText.size_truncated {t : FlexText} {b : Buf .ump} (A : t.Accepts b)
    (h : ¬ 4 * (FlexText.run b).length ≤ b.length) : FlexText.size b = .panic := by
  unfold FlexText.size
  rw [no_last_packet (k := 4) (ty := 0xD) (g := fun w => field w 8 2)
    (q := fun w => U32.crumb w 4 == 0#2 || U32.crumb w 4 == 3#2) (by omega)
    (crumb_last 4 (by omega)) A.formats h]

theorem StreamText.size_truncated {t : StreamText} {b : Buf .ump} (A : t.Accepts b)
    (h : ¬ 4 * (StreamText.run b).length ≤ b.length) : StreamText.size b = .panic := by
  unfold StreamText.size
  rw [no_last_packet (k := 4) (ty := 0xF) (g := fun w => field w 4 2)
    (q := fun w => U32.crumb w 2 == 0#2 || U32.crumb w 2 == 3#2) (by omega)
    (crumb_last 2 (by omega)) A.formats h]

end Midi2
