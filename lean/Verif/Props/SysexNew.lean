import Verif.Props.Sysex

/-!
# C08 for system exclusive messages over UMP: the constructors
-/

namespace Midi2

open Sx

/-- The packet of a message without payload: complete (status 0), group 0, no bytes; the size
field of `Sysex8` counts the stream id, which is 0. -/
def emptySysex : Sx → List (BitVec 32)
  | .s7 => [0x30000000, 0]
  | .s8 => [0x50010000, 0, 0, 0]

theorem onTyped_other (k : Sx) (b : Buf .ump) (f : BitVec 32 → BitVec 32) {i : Nat}
    (h : i % k.stride ≠ 0) : (k.onTyped b f)[i]? = b[i]? := by
  rw [onTyped_eq, onHeads_getElem? k.stride_pos, if_neg (fun c => h c.1)]

theorem init_other (k : Sx) {b b' : Buf .ump} (e : k.init b = .ok b') {i : Nat}
    (h : i % k.stride ≠ 0) : b'[i]? = b[i]? := by
  have hi : 0 < i := by
    rcases Nat.eq_zero_or_pos i with rfl | h0
    · simp at h
    · exact h0
  unfold Sx.init at e
  cases b with
  | nil => cases e
  | cons w t =>
    have e0 : modifyAt (w :: t) 0 (fun w => U32.setNibble w 0 k.typ) =
      .ok (U32.setNibble w 0 k.typ :: t) := rfl
    rw [e0, Res.ok_bind] at e
    have e1 : (U32.setNibble w 0 k.typ :: t)[i]? = (w :: t)[i]? := by
      cases i with
      | zero => omega
      | succ i => rfl
    cases k with
    | s7 =>
      cases e
      rw [← e1]
      exact onTyped_other .s7 _ _ h
    | s8 =>
      cases e
      rw [← e1]
      exact (onTyped_other .s8 _ _ h).trans ((onTyped_other .s8 _ _ h).trans (onTyped_other .s8 _ _ h))

theorem emptySysex_length (k : Sx) : (emptySysex k).length = k.stride := by cases k <;> rfl

theorem emptySysex_zero (k : Sx) {i : Nat} (h0 : i ≠ 0) (h : i < k.stride) :
    (emptySysex k)[i]? = some 0 := by
  cases k with
  | s7 => match i, h, h0 with
    | 1, _, _ => rfl
  | s8 => match i, h, h0 with
    | 1, _, _ => rfl
    | 2, _, _ => rfl
    | 3, _, _ => rfl

/-- C08 over resizable buffers: `new()` and `new_with_buffer(b)`, whatever `b` holds, give the
one packet of the empty message, which the parser accepts, with an empty payload, group 0 and
stream id 0. -/
theorem C08_sysex_new (k : Sx) (b : Buf .ump) :
    k.newVec = .ok (emptySysex k) ∧ k.newWithBuffer b = .ok (emptySysex k) ∧
    octets (emptySysex k) = k.layout.wire 0 [] ∧ k.tryFrom (emptySysex k) = .ok (emptySysex k) ∧
    k.data (emptySysex k) = .ok (emptySysex k) ∧ k.Holds (emptySysex k) 0 [] ∧
    (k = .s8 → Sx.streamId (emptySysex k) = .ok 0) := by
  have hv : k.newVec = .ok (emptySysex k) := by cases k <;> rfl
  obtain ⟨x, e, S⟩ := newVec_strict k false
  rw [hv] at e
  cases e
  refine ⟨hv, ?_, ?_, by cases k <;> rfl, by cases k <;> rfl, S.holds, ?_⟩
  · have : zeroPrefix (vecResize b k.stride) k.stride = vecResize [] k.stride := by
      unfold zeroPrefix
      have hl : (vecResize b k.stride).length = k.stride := length_vecResize b k.stride
      rw [List.drop_of_length_le (by omega), List.append_nil]
      cases k <;> rfl
    unfold Sx.newWithBuffer
    rw [this]
    exact hv
  · unfold SysexLayout.wire SysexLayout.split
    rw [dif_pos (by cases k <;> exact .inl (Nat.zero_le _))]
    cases k <;> rfl
  · rintro rfl; rfl

example : Sx.s8.newWithBuffer [1, 2, 3, 4, 5] = .ok [0x50010000, 0, 0, 0] := by decide +kernel

/-- C08 over a buffer of fixed size with arbitrary contents: `try_new_with_buffer` refuses
exactly the buffers smaller than a packet; otherwise the buffer begins with the packet of the
empty message, which is what `data()` returns, and nothing but headers of packets behind it is
changed. -/
theorem C08_sysex_try_new_with_buffer (k : Sx) (b : Buf .ump) :
    (b.length < k.layout.words → k.tryNewWithBuffer b = .err .bufferOverflow) ∧
    (k.layout.words ≤ b.length → ∃ x, k.tryNewWithBuffer b = .ok x ∧ x.length = b.length ∧
      k.data x = .ok (emptySysex k) ∧ k.Holds x 0 [] ∧ (k = .s8 → Sx.streamId x = .ok 0) ∧
      ∀ i, i % k.layout.words ≠ 0 → k.layout.words < i → x[i]? = b[i]?) := by
  rw [words_eq]
  constructor
  · intro h
    unfold Sx.tryNewWithBuffer fixedTryResize
    rw [if_pos h]
    rfl
  · intro h
    obtain ⟨x, e, S⟩ := tryNewWithBuffer_strict k h
    have hinit : k.init (zeroPrefix b k.stride) = .ok x := by
      unfold Sx.tryNewWithBuffer fixedTryResize at e
      rw [if_neg (by omega)] at e
      exact e
    have hs := k.stride_pos
    have hzl : (zeroPrefix b k.stride).length = b.length := by
      unfold zeroPrefix
      simp only [List.length_append, List.length_replicate, List.length_drop]
      omega
    have hz : ∀ i, i < k.stride → (zeroPrefix b k.stride)[i]? = some 0 := by
      intro i hi
      unfold zeroPrefix
      rw [List.getElem?_append_left (by simpa using hi), List.getElem?_replicate, if_pos hi]
    obtain ⟨x', e1, e2, e3, _⟩ := k.init_eq (b := zeroPrefix b k.stride) (by omega) (hz 0 hs)
    rw [hinit] at e1
    cases e1
    have hlen : x.length = b.length := by omega
    have hdata : x.take k.stride = emptySysex k := by
      apply List.ext_getElem?
      intro i
      by_cases hi : i < k.stride
      · rw [List.getElem?_take_of_lt hi]
        by_cases h0 : i = 0
        · subst h0
          rw [e3]
          cases k <;> rfl
        · rw [init_other k hinit (by rw [Nat.mod_eq_of_lt hi]; exact h0), hz i hi]
          exact (emptySysex_zero k h0 hi).symm
      · rw [List.getElem?_eq_none (by rw [List.length_take]; omega),
          List.getElem?_eq_none (by rw [emptySysex_length]; omega)]
    refine ⟨x, e, hlen, ?_, S.holds, ?_, ?_⟩
    · rw [S.packed.data_eq, count_nil, Nat.mul_one, hdata]
    · rintro rfl
      unfold Sx.streamId at'
      rw [e3]
      rfl
    · intro i h1 h2
      rw [init_other k hinit h1]
      unfold zeroPrefix
      rw [List.getElem?_append_right (by rw [List.length_replicate]; omega), List.getElem?_drop,
        List.length_replicate]
      congr 1
      omega

example : Sx.s7.tryNewWithBuffer [1, 2, 3, 4, 5] = .ok [0x30000000, 0, 3, 4, 5] := by decide +kernel

/-- C08 over arrays: `try_new()` fails exactly for arrays smaller than a packet; `new()` (which
does not compile for those) and `try_new()` give the empty message in front of zeros. -/
theorem C08_sysex_array (k : Sx) (n : Nat) :
    (n < k.layout.words → k.tryNew n = .err .bufferOverflow) ∧
    (k.layout.words ≤ n →
      k.tryNew n = .ok (emptySysex k ++ List.replicate (n - k.layout.words) 0) ∧
      k.newArray n = .ok (emptySysex k ++ List.replicate (n - k.layout.words) 0)) := by
  rw [words_eq]
  constructor
  · intro h
    unfold Sx.tryNew fixedTryResize
    rw [if_pos (by rw [List.length_replicate]; omega)]
    rfl
  · intro h
    have hs := k.stride_pos
    obtain ⟨x, e1, e2, S⟩ := newArray_strict k false h
    have hl : (List.replicate n (0 : BitVec 32)).length = n := List.length_replicate
    have hv : ∀ i, i < n → (List.replicate n (0 : BitVec 32))[i]? = some 0 := by
      intro i hi
      rw [List.getElem?_replicate, if_pos hi]
    obtain ⟨x', i1, i2, i3, i4⟩ := k.init_eq (b := List.replicate n 0) (by omega) (hv 0 (by omega))
    have hx : x' = x := by
      unfold Sx.newArray at e1
      rw [if_neg (by omega), i1] at e1
      cases e1; rfl
    subst hx
    have hfin : x' = emptySysex k ++ List.replicate (n - k.stride) 0 := by
      apply List.ext_getElem?
      intro i
      by_cases hi : i < n
      · by_cases h0 : i = 0
        · subst h0
          rw [i3]
          cases k <;> rfl
        · rw [i4 (fun i hi => hv i (by omega)) i (by omega) (by omega)]
          by_cases hk : i < k.stride
          · rw [List.getElem?_append_left (by rw [emptySysex_length]; exact hk)]
            exact (emptySysex_zero k h0 hk).symm
          · rw [List.getElem?_append_right (by rw [emptySysex_length]; omega), List.getElem?_replicate,
              if_pos (by rw [emptySysex_length]; omega)]
      · rw [List.getElem?_eq_none (by omega), List.getElem?_eq_none]
        rw [List.length_append, emptySysex_length, List.length_replicate]
        omega
    rw [← hfin]
    exact ⟨e2, e1⟩

-- A buffer with an older message behind the place of the new one.
example : Sx.tryNewWithBuffer .s8 [1, 2, 3, 4, 0x5A2E0102, 0x03040506, 7, 8] =
    .ok [0x50010000, 0, 0, 0, 0x502E0100, 0x03040506, 7, 8] := by decide +kernel

end Midi2
