import Verif.Lemmas.SysexBytesEnd
import Verif.Props.SysexBytesAny

/-! # C22: replacing the end of the payload of a byte message in a fixed buffer -/

namespace Midi2

open Sxb (e raw)

/-- C22, exactly, over bytes, if the range reaches the end of the payload: `F0 p F7 r` is any accepted
message, the range begins at `first` and replaces `gone` bytes, the iterator yields `m` bytes and its
size hint is `hint`; the code guesses `hint`, `hint + 1`, `hint + 3`, … bytes until the guess, `last`,
is at least `m`, and `last` bytes have room in the buffer.  `try_splice_payload` panics if
* an `F7` of `r` is within the last guess and behind the new bytes, or
* the old terminator is, and the first guess was too low, and three or more below `gone`;
in every other case the end of the payload is replaced. -/
theorem C22_bytes_end_exactly (b : Buf .bytes) (p r : List (BitVec 8))
    (hb : b = 0xF0 :: p ++ 0xF7 :: r) (hp : (0xF7 : BitVec 8) ∉ p) (d : Src (BitVec 7))
    (hint gone k last m : Nat) (hhint : hint = d.upper.getD d.lower) (rb re : Bound)
    (h1 : rb.first ≤ p.length) (h2 : re.last p.length = p.length) (hgone : gone = p.length - rb.first)
    (hm : m = d.items.length) (hlast : last = hint + (2 ^ k - 1)) (hk : m ≤ last)
    (hleast : ∀ j < k, hint + (2 ^ j - 1) < m) (hroom : rb.first + last ≤ p.length + r.length)
    (inTheWay : Prop)
    (hway : inTheWay ↔
      (∃ i, m ≤ gone + 1 + i ∧ gone + 1 + i < last ∧ r[i]? = some 0xF7) ∨
      (hint < m ∧ hint + 2 < gone ∧ m ≤ gone ∧ gone < last)) :
    (inTheWay → (Sxb.ops .fixed).trySplice b d rb re = .panic) ∧
    (¬ inTheWay → ∃ rest, (Sxb.ops .fixed).trySplice b d rb re =
        .ok (0xF0 :: (p.take rb.first ++ d.items.map fun v => v.setWidth 8) ++ 0xF7 :: rest, none) ∧
      m + rest.length = gone + r.length) := by
  have hb' : b = raw p r := hb
  rw [hb']
  have he : d.estimate = hint := by rw [estimate_eq, hhint]
  have hcut : p = p.take rb.first ++ p.drop rb.first := (List.take_append_drop _ _).symm
  have hal : (p.take rb.first).length = rb.first := by rw [List.length_take]; omega
  have hrl : (p.drop rb.first).length = gone := by rw [List.length_drop, hgone]
  have hdrop : Sxb.endByte ∉ p.drop rb.first := fun h => hp (List.mem_of_mem_drop h)
  obtain ⟨z, hz⟩ : ∃ z : BitVec 8, z = if hint < m ∧ hint + 2 < gone then Sxb.endByte else 0 := ⟨_, rfl⟩
  have key := Sxb.end_fixed (a := p.take rb.first) (r := p.drop rb.first) (rest := r)
    (by rw [← hcut]; exact hp) d rb re hal.symm (by rw [← hcut, h2]) k last (by rw [he, hlast])
    (by rw [← hm]; exact hk) (by rw [he, ← hm]; exact hleast) (by rw [hrl]; omega) z (by rw [he, hrl, ← hm]; exact hz)
  rw [← hcut, he, hrl, ← hm] at key
  have hmem : Sxb.endByte ∈ ((p.drop rb.first ++ z :: r).take last).drop m ↔
      (∃ i, m ≤ gone + 1 + i ∧ gone + 1 + i < last ∧ r[i]? = some 0xF7) ∨
      (m ≤ gone ∧ gone < last ∧ z = Sxb.endByte) := by
    rw [List.mem_iff_getElem?]
    constructor
    · rintro ⟨j, hj⟩
      rw [List.getElem?_drop, List.getElem?_take] at hj
      split at hj
      · rename_i hlt
        rcases Nat.lt_or_ge (m + j) gone with h | h
        · rw [List.getElem?_append_left (by omega)] at hj
          exact absurd (List.mem_of_getElem? hj) hdrop
        · rw [List.getElem?_append_right (by omega), hrl] at hj
          cases hn : m + j - gone with
          | zero =>
            rw [hn, List.getElem?_cons_zero, Option.some.injEq] at hj
            exact .inr ⟨by omega, by omega, hj⟩
          | succ i =>
            rw [hn, List.getElem?_cons_succ] at hj
            exact .inl ⟨i, by omega, by omega, hj⟩
      · cases hj
    · rintro (⟨i, g1, g2, g3⟩ | ⟨g1, g2, g3⟩)
      · refine ⟨gone + 1 + i - m, ?_⟩
        rw [List.getElem?_drop, show m + (gone + 1 + i - m) = gone + (i + 1) by omega, List.getElem?_take,
          if_pos (by omega), List.getElem?_append_right (by omega), hrl, Nat.add_sub_cancel_left,
          List.getElem?_cons_succ]
        exact g3
      · refine ⟨gone - m, ?_⟩
        rw [List.getElem?_drop, show m + (gone - m) = gone by omega, List.getElem?_take, if_pos g2,
          List.getElem?_append_right (by omega), hrl, Nat.sub_self, List.getElem?_cons_zero, g3]
  have hzw : z = Sxb.endByte ↔ hint < m ∧ hint + 2 < gone := by
    rw [hz]
    split
    · rename_i h; exact ⟨fun _ => h, fun _ => rfl⟩
    · rename_i h; exact ⟨fun h' => absurd h' (by decide), fun h' => absurd h' h⟩
  have hiff : inTheWay ↔ (gone < hint ∨ hint < m) ∧
      Sxb.endByte ∈ ((p.drop rb.first ++ z :: r).take last).drop m := by
    rw [hway, hmem, hzw]
    constructor
    · rintro (⟨i, g1, g2, g3⟩ | ⟨g1, g2, g3, g4⟩)
      · refine ⟨?_, .inl ⟨i, g1, g2, g3⟩⟩
        rcases Nat.lt_or_ge hint m with h | h
        · exact .inr h
        · have : k = 0 := by
            cases k with
            | zero => rfl
            | succ k => have := hleast 0 (by omega); simp at this; omega
          rw [this] at hlast
          simp at hlast
          left; omega
      · exact ⟨.inr g1, .inr ⟨g3, g4, g1, g2⟩⟩
    · rintro ⟨-, (h | ⟨g1, g2, g3, g4⟩)⟩
      · exact .inl h
      · exact .inr ⟨g3, g4, g1, g2⟩
  refine ⟨fun h => ?_, fun h => ?_⟩
  · obtain ⟨c1, c2⟩ := hiff.mp h
    unfold SxOps.trySplice
    rw [key.1 c1 c2]
    rfl
  · obtain ⟨r2, e1, e2⟩ := key.2 (fun h' => h (hiff.mpr h'))
    refine ⟨r2, ?_, e2⟩
    unfold SxOps.trySplice
    rw [e1]
    rfl

-- Four bytes of an iterator that does not know its size in place of the last five: the guesses are 0, 1,
-- 3 and 7, and the last takes in the old terminator.
example : (Sxb.ops .fixed).trySplice [0xF0, 1, 2, 3, 4, 5, 6, 0xF7, 0, 0, 0, 0] ⟨[7, 8, 9, 10], 0, none⟩ (.included 1)
    .unbounded = .panic :=
  (C22_bytes_end_exactly _ [1, 2, 3, 4, 5, 6] [0, 0, 0, 0] rfl (by decide) ⟨[7, 8, 9, 10], 0, none⟩ 0 5 3 7 4 rfl
    (.included 1) .unbounded (by decide) rfl rfl rfl rfl (by decide) (by decide) (by decide) True
    (by simp)).1 trivial

-- With three bytes the last guess is three, and with six the old terminator is overwritten.
example : (Sxb.ops .fixed).trySplice [0xF0, 1, 2, 3, 4, 5, 6, 0xF7, 0, 0, 0, 0] ⟨[7, 8, 9], 0, none⟩ (.included 1)
      .unbounded = .ok ([0xF0, 1, 7, 8, 9, 0xF7, 6, 0xF7, 0, 0, 0, 0], none) ∧
    (Sxb.ops .fixed).trySplice [0xF0, 1, 2, 3, 4, 5, 6, 0xF7, 0, 0, 0, 0] ⟨[7, 8, 9, 10, 11, 12], 0, none⟩ (.included 1)
      .unbounded = .ok ([0xF0, 1, 7, 8, 9, 10, 11, 12, 0xF7, 0, 0, 0], none) := by decide +kernel

end Midi2
