import Verif.Lemmas.TextFlex

/-!
# UTF-8 of strings with NUL characters and of cut off strings
-/

namespace Midi2

/-- The octets of a character. -/
def encB (c : Char) : List (BitVec 8) := (String.utf8EncodeChar c).map UInt8.toBitVec

theorem strBytes_flatMap (s : String) : strBytes s = s.toList.flatMap encB := by
  unfold strBytes
  rw [← String.utf8Encode_toList]
  unfold List.utf8Encode
  rw [List.data_toByteArray, List.toList_toArray, List.map_flatMap]
  rfl

theorem strBytes_ofList (l : List Char) : strBytes (String.ofList l) = l.flatMap encB := by
  rw [strBytes_flatMap, String.toList_ofList]

theorem filter_encB (c : Char) :
    (encB c).filter (· ≠ 0) = if c ≠ '\x00' then encB c else [] := by
  split
  · next h =>
    rw [List.filter_eq_self]
    intro x hx
    obtain ⟨y, hy, rfl⟩ := List.mem_map.mp hx
    have := encodeChar_ne_zero h y hy
    simp only [decide_eq_true_eq]
    intro e
    exact this (UInt8.toBitVec_inj.mp e)
  · next h =>
    rw [Decidable.not_not] at h
    subst h
    decide +kernel

theorem filter_flatMap_encB (l : List Char) :
    (l.flatMap encB).filter (· ≠ 0) = (l.filter (· ≠ '\x00')).flatMap encB := by
  induction l with
  | nil => rfl
  | cons c l ih =>
    rw [List.flatMap_cons, List.filter_append, ih, filter_encB, List.filter_cons]
    by_cases h : c ≠ '\x00'
    · rw [if_pos h, if_pos (by simpa using h), List.flatMap_cons]
    · rw [if_neg h, if_neg (by simpa using h), List.nil_append]

theorem length_encB (c : Char) : (encB c).length = c.utf8Size := by
  unfold encB
  rw [List.length_map, String.length_utf8EncodeChar]

/-- A character that begins at the same place as another is that other. -/
theorem encB_head {c d : Char} {r r' : List (BitVec 8)} (h : encB c ++ r = encB d ++ r') : c = d := by
  have key : ∀ (c : Char) (r : List (BitVec 8)),
      ByteArray.utf8DecodeChar? (((encB c ++ r).map UInt8.ofBitVec).toByteArray) 0 = some c := by
    intro c r
    have e : ((encB c ++ r).map UInt8.ofBitVec).toByteArray
        = [c].utf8Encode ++ (r.map UInt8.ofBitVec).toByteArray := by
      rw [List.map_append, List.toByteArray_append, List.utf8Encode_singleton]
      congr 2
      unfold encB
      rw [List.map_map]
      have : (UInt8.ofBitVec ∘ UInt8.toBitVec) = id := by funext x; rfl
      rw [this, List.map_id]
    rw [e, List.utf8DecodeChar?_utf8Encode_singleton_append]
  have h1 := key c r
  rw [h, key d r'] at h1
  exact (Option.some.inj h1).symm

theorem flatMap_encB_append {l : List Char} : ∀ {m : List Char} {r : List (BitVec 8)},
    m.flatMap encB = l.flatMap encB ++ r → ∃ k : List Char, k.flatMap encB = r := by
  induction l with
  | nil => intro m r h; exact ⟨m, h⟩
  | cons c l ih =>
    intro m r h
    cases m with
    | nil =>
      have := congrArg List.length h
      simp only [List.flatMap_cons, List.length_append, length_encB, List.flatMap_nil,
        List.length_nil] at this
      have := c.utf8Size_pos
      omega
    | cons d m =>
      rw [List.flatMap_cons, List.flatMap_cons, List.append_assoc] at h
      cases encB_head h
      exact ih (List.append_cancel_left h)

/-- Without its last octet a character of several octets is no text, whatever stands before. -/
theorem cut_char (l : List Char) {c : Char} (h : c.utf8Size ≠ 1) (s : String) :
    strBytes s ≠ l.flatMap encB ++ (encB c).dropLast := by
  intro e
  rw [strBytes_flatMap] at e
  obtain ⟨k, hk⟩ := flatMap_encB_append e
  have hl := congrArg List.length hk
  rw [List.length_dropLast, length_encB] at hl
  have hp := c.utf8Size_pos
  cases k with
  | nil => simp only [List.flatMap_nil, List.length_nil] at hl; omega
  | cons d k =>
    have hne : encB c ≠ [] := by
      intro e0
      have := congrArg List.length e0
      rw [length_encB, List.length_nil] at this
      omega
    have : encB d ++ (k.flatMap encB ++ [(encB c).getLast hne]) = encB c ++ [] := by
      rw [← List.append_assoc, ← List.flatMap_cons, hk, List.append_nil,
        List.dropLast_concat_getLast]
    cases encB_head this
    rw [List.flatMap_cons, List.length_append, length_encB] at hl
    omega

theorem dropLast_encB {c : Char} (h : c.utf8Size = 1) : (encB c).dropLast = [] := by
  apply List.length_eq_zero_iff.mp
  rw [List.length_dropLast, length_encB, h]

theorem dropLast_filter_encB (c : Char) :
    ((encB c).dropLast).filter (· ≠ 0) = (encB c).dropLast := by
  by_cases h : c = '\x00'
  · subst h; decide +kernel
  · rw [List.filter_eq_self]
    intro x hx
    obtain ⟨y, hy, rfl⟩ := List.mem_map.mp (List.dropLast_subset _ hx)
    have := encodeChar_ne_zero h y hy
    simp only [decide_eq_true_eq]
    intro e
    exact this (UInt8.toBitVec_inj.mp e)

end Midi2
