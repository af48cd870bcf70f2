import Verif.Props.SysexBytes
import Verif.Lemmas.SpliceLow

/-!
# C22: iterators that yield more than they say

Together with `C22_try_splice_partial`, for hints that are not too low, and `C22_any_hint_partial`,
for results that do not fit, this says what `try_splice_payload` does with any size hint.
-/

namespace Midi2

open Sx

/-- C22: a size hint below the number of items, on a buffer of fixed size with room for the result.
If there is room for every estimate made on the way (C71), or nothing is replaced, the payload is
that of `Vec::splice`.  Otherwise the rest of the payload has been put at the wrong place.  `room` is
the number of bytes there is room for besides those that are kept. -/
theorem C22_low_hint_exactly (k : Sx) (dbg : Bool) (b : Buf .ump) (g : BitVec 4)
    (sizes : List Nat) (M : k.layout.IsMessage b g.toNat sizes)
    (hs : k.layout.Spliceable dbg true b sizes) (l : List k.Byte) (hl : k.payloadList b = .ok l)
    (d : Src k.Byte) (rb re : Bound)
    (h1 : rb.first ≤ re.last l.length) (h2 : re.last l.length ≤ l.length) (room : Nat)
    (hroom : ∀ n, n ≤ room ↔
      k.layout.wireLength (l.length - (re.last l.length - rb.first) + n) ≤ 4 * b.length)
    (hlow : d.upper.getD d.lower < d.items.length) (hfit : d.items.length ≤ room) :
    ∃ b' p, (k.ops dbg .fixed).trySplice b d rb re = .ok (b', none) ∧ b'.length = b.length ∧
      k.Holds b' g p ∧
      ((rb.first = re.last l.length ∨
          ∀ n ∈ guesses d.items.length (d.upper.getD d.lower) 0, n ≤ room) →
        p = spliced l rb.first (re.last l.length) d.items) ∧
      ((∃ n ∈ guesses d.items.length (d.upper.getD d.lower) 0, room < n) →
        ∃ junk, junk.length = room - granted room (d.upper.getD d.lower)
            (guesses d.items.length (d.upper.getD d.lower) 0) ∧
          p = d.misplaced l rb.first (re.last l.length) room junk) := by
  obtain ⟨b0, e0, L⟩ := Spliceable.start (inv_true k) (N := some b.length) M hs trivial
    (by simp) hl
  have hN : k.stride ≤ b.length := by
    have h := M.whole
    rw [words_eq] at h
    have : 0 < sizes.length := by
      cases sizes with
      | nil => exact absurd rfl M.nonempty
      | cons => simp
    have := Nat.mul_le_mul_left k.stride this
    omega
  have he : d.upper.getD d.lower = d.estimate := by
    unfold Src.estimate
    cases d.upper <;> rfl
  rw [he] at hlow ⊢
  have hcut := cut l rb.first (re.last l.length) h1
  have hlen : ((l.take (re.last l.length)).drop rb.first).length = re.last l.length - rb.first := by
    simp only [List.length_drop, List.length_take]; omega
  have hpl : (l.take rb.first).length = rb.first := by rw [List.length_take]; omega
  have LL : SxLawsAll (k.ops dbg .fixed) _ _ (k.limit (some b.length)) :=
    laws k dbg g (some b.length) (inv_true k)
  have hcap : b.length / k.stride * k.cap =
      (l.take rb.first).length + room + (l.drop (re.last l.length)).length := by
    have hk : ∀ n, n ≤ room ↔ l.length - (re.last l.length - rb.first) + n ≤
        b.length / k.stride * k.cap := by
      intro n
      rw [hroom n, wireLength_eq, k.limit_iff hN]
      omega
    have a := (hk room).mp (Nat.le_refl _)
    have c := hk (b.length / k.stride * k.cap - (l.length - (re.last l.length - rb.first)))
    rw [hpl, List.length_drop]
    omega
  have key := LL.toLaws.trySplice_low (s := b) (s0 := b0) d rb re (l.take rb.first)
    ((l.take (re.last l.length)).drop rb.first) (l.drop (re.last l.length)) rfl hcap e0
    (by rw [← hcut]; exact L)
    (by rw [spliceBegin_eq, hpl])
    (by rw [← hcut, spliceEnd_eq, hpl, hlen]; omega)
    (.inr LL.resize) hlow hfit
  rw [← hcut, hpl, hlen, show rb.first + (re.last l.length - rb.first) = re.last l.length by omega]
    at key
  have zero : rb.first = re.last l.length → ∃ b', (k.ops dbg .fixed).trySplice b d rb re =
      .ok (b', none) ∧ Strict k dbg (fun _ => True) g (some b.length) b'
        (spliced l rb.first (re.last l.length) d.items) := by
    intro hz
    refine (splice_fixed k (inv_true k) hN e0 L d rb re h1 h2 (.inl hz)).1 ?_
    rw [← k.limit_iff hN, hcap]
    unfold spliced
    simp only [List.length_append]
    omega
  by_cases hg : ∀ n ∈ guesses d.items.length d.estimate 0, n ≤ room
  · obtain ⟨b', e, S⟩ := key.1 hg
    refine ⟨b', _, e, S.whole.fixed _ rfl, S.holds, fun _ => rfl, ?_⟩
    rintro ⟨n, hn, h⟩
    have := hg n hn
    omega
  · obtain ⟨n, hn, hlt⟩ : ∃ n ∈ guesses d.items.length d.estimate 0, room < n := by
      simpa using hg
    obtain ⟨b', junk, e, hj, S⟩ := key.2 ⟨n, hn, hlt⟩
    refine ⟨b', _, e, S.whole.fixed _ rfl, S.holds, ?_, fun _ => ⟨junk, hj, rfl⟩⟩
    rintro (hz | h)
    · obtain ⟨b2, e2, S2⟩ := zero hz
      rw [e] at e2
      cases e2
      have a := S.holds.payload
      rw [S2.holds.payload] at a
      exact (Res.ok.inj a).symm
    · exact absurd (h n hn) (by omega)

-- C22: the case of `C22_underestimate_violation`: room for five items in place of five, estimates 0,
-- 1, 3 and 7.  The rest of the payload is copied onto the three items written so far.
example : guesses 5 0 0 = [1, 3, 7] ∧ granted 5 0 [1, 3, 7] = 3 ∧
    (⟨[0x11, 0x12, 0x13, 0x14, 0x15], 0, none⟩ : Src (BitVec 7)).misplaced
      [0, 1, 2, 3, 4, 5, 6, 7, 8, 9, 10, 11] 0 5 5 [0, 0] =
    [5, 6, 7, 0x14, 0x15, 10, 11, 0, 0, 11, 0, 0] := by decide +kernel

-- C22: a hint of 2 in place of 0, and no estimate is too large.
example : guesses 5 2 0 = [3, 5] ∧ (Sx.s7.ops true .fixed).trySplice
      [0x30160001, 0x02030405, 0x30360607, 0x08090A0B] ⟨[0x11, 0x12, 0x13, 0x14, 0x15], 2, none⟩
      (.included 0) (.excluded 5) =
    .ok ([0x30161112, 0x13141505, 0x30360607, 0x08090A0B], none) := by decide +kernel

/-- C22 for byte messages with nothing of `0x80` or above behind them, a size hint below the number
of items but not below the number of bytes replaced, and room for the result.  Missing: smaller
hints, for which the message is shortened first and a terminator is left in it. -/
theorem C22_bytes_low_hint_partial (b : Buf .bytes) (l : List (BitVec 7)) (r : List (BitVec 8))
    (hb : b = sysexBytes l ++ r) (hr : ∀ x ∈ r, x.toNat < 128) (d : Src (BitVec 7)) (rb re : Bound)
    (h1 : rb.first ≤ re.last l.length) (h2 : re.last l.length ≤ l.length) (room : Nat)
    (hroom : l.length - (re.last l.length - rb.first) + room + 2 = b.length)
    (hold : re.last l.length - rb.first ≤ d.upper.getD d.lower)
    (hlow : d.upper.getD d.lower < d.items.length) (hfit : d.items.length ≤ room) :
    ∃ p rest, (Sxb.ops .fixed).trySplice b d rb re = .ok (sysexBytes p ++ rest, none) ∧
      (sysexBytes p ++ rest).length = b.length ∧
      ((∀ n ∈ guesses d.items.length (d.upper.getD d.lower) 0, n ≤ room) →
        p = spliced l rb.first (re.last l.length) d.items) ∧
      ((∃ n ∈ guesses d.items.length (d.upper.getD d.lower) 0, room < n) →
        ∃ junk, junk.length = room - granted room (d.upper.getD d.lower)
            (guesses d.items.length (d.upper.getD d.lower) 0) ∧
          p = d.misplaced l rb.first (re.last l.length) room junk) := by
  subst hb
  have hcut := Sx.cut l rb.first (re.last l.length) h1
  have hlen : ((l.take (re.last l.length)).drop rb.first).length = re.last l.length - rb.first := by
    simp only [List.length_drop, List.length_take]; omega
  have hpl : (l.take rb.first).length = rb.first := by rw [List.length_take]; omega
  have he : d.upper.getD d.lower = d.estimate := by
    unfold Src.estimate
    cases d.upper <;> rfl
  rw [he] at hlow hold ⊢
  have L : SxLaws (Sxb.ops .fixed) _ _ _ _ := Sxb.laws (some (sysexBytes l ++ r).length)
  have key := L.trySplice_low (s := sysexBytes l ++ r) (s0 := sysexBytes l ++ r) d rb re
    (l.take rb.first) ((l.take (re.last l.length)).drop rb.first) (l.drop (re.last l.length))
    (c := (sysexBytes l ++ r).length - 2) (room := room) rfl
    (by rw [hpl, List.length_drop]; omega) rfl
    (by rw [← hcut]; exact clean_of hr (fun _ h => Option.some.inj h))
    (by rw [Sx.spliceBegin_eq, hpl])
    (by rw [← hcut, Sx.spliceEnd_eq, hpl, hlen]; omega)
    (.inl (by rw [hlen]; exact hold)) hlow hfit
  rw [← hcut, hpl, hlen, show rb.first + (re.last l.length - rb.first) = re.last l.length by omega]
    at key
  by_cases hg : ∀ n ∈ guesses d.items.length d.estimate 0, n ≤ room
  · obtain ⟨b', e, S⟩ := key.1 hg
    obtain ⟨⟨rest, rfl⟩, hk⟩ := kept_some S
    refine ⟨_, rest, e, hk, fun _ => rfl, ?_⟩
    rintro ⟨n, hn, h⟩
    have := hg n hn
    omega
  · obtain ⟨n, hn, hlt⟩ : ∃ n ∈ guesses d.items.length d.estimate 0, room < n := by
      simpa using hg
    obtain ⟨b', junk, e, hj, S⟩ := key.2 ⟨n, hn, hlt⟩
    obtain ⟨⟨rest, rfl⟩, hk⟩ := kept_some S
    exact ⟨_, rest, e, hk, fun h => absurd (h n hn) (by omega), fun _ => ⟨junk, hj, rfl⟩⟩

-- C22: one byte replaced by five with a hint of 1, room for five: estimates 1, 2, 4 and 8.
example : guesses 5 1 0 = [2, 4, 8] ∧ granted 5 1 [2, 4, 8] = 4 ∧
    (Sxb.ops .fixed).trySplice [0xF0, 1, 2, 3, 0xF7, 0, 0, 0, 0] ⟨[5, 6, 7, 8, 9], 1, none⟩
      (.included 0) (.excluded 1) = .ok (sysexBytes
        ((⟨[5, 6, 7, 8, 9], 1, none⟩ : Src (BitVec 7)).misplaced [1, 2, 3] 0 1 5 [0]), none) ∧
    (⟨[5, 6, 7, 8, 9], 1, none⟩ : Src (BitVec 7)).misplaced [1, 2, 3] 0 1 5 [0] =
      [5, 6, 7, 8, 9, 3, 0] := by decide +kernel

end Midi2
