import Verif.Lemmas.SysexBytesGuess
import Verif.Props.SysexBytes

/-!
# C20, C22 over bytes: `try_set_payload` and `try_append_payload`, for every iterator

The code guesses how much room the new payload needs from the size hint of the iterator, and
guesses again, one, three, seven, … bytes higher, as long as the iterator has more.  Where the
last guess was too high, an `F7` left over from an earlier, longer message makes it panic.
-/

namespace Midi2

open Sxb (raw e)

/-- The place of a leftover terminator. -/
theorem leftover_mem {p rest : List (BitVec 8)} (hp : Sxb.endByte ∉ p) (m E : Nat) :
    Sxb.endByte ∈ ((0 :: Sxb.leftover p rest).take E).drop m ↔
      ∃ i, 2 ≤ i ∧ m < i ∧ i ≤ E ∧ (raw p rest)[i]? = some 0xF7 ∧
        (i = 2 → (raw p rest)[1]? = some 0xF7) := by
  have hr : ∀ j, (raw p rest)[j + 1]? = (p ++ Sxb.endByte :: rest)[j]? := fun j => by
    unfold raw; rw [List.getElem?_cons_succ]
  have hat : ∀ j, (Sxb.leftover p rest)[j]? = some Sxb.endByte ↔
      ((raw p rest)[j + 2]? = some 0xF7 ∧ (j = 0 → (raw p rest)[1]? = some 0xF7)) := by
    intro j
    rw [show j + 2 = (j + 1) + 1 by omega, hr, hr 0]
    show _ ↔ ((p ++ Sxb.endByte :: rest)[j + 1]? = some Sxb.endByte ∧
      (j = 0 → (p ++ Sxb.endByte :: rest)[0]? = some Sxb.endByte))
    unfold Sxb.leftover
    match p, hp with
    | [], _ =>
      simp only [List.length_nil, List.nil_append]
      rw [if_neg (by decide)]
      simp
    | [a], hp =>
      rw [if_pos (show [a].length = 1 from rfl)]
      cases j with
      | zero =>
        have h2 : a ≠ Sxb.endByte := by intro h; exact hp (by simp [h])
        simp [h2]
        decide
      | succ j => simp
    | a :: a' :: p, hp =>
      rw [if_neg (by simp)]
      cases j with
      | zero =>
        have h2 : a' ≠ Sxb.endByte := by intro h; exact hp (by simp [h])
        simp [h2]
      | succ j => simp
  rw [List.mem_iff_getElem?]
  constructor
  · rintro ⟨t, ht⟩
    rw [List.getElem?_drop, List.getElem?_take] at ht
    split at ht
    · rename_i hlt
      cases hmt : m + t with
      | zero => rw [hmt, List.getElem?_cons_zero, Option.some.injEq] at ht; exact absurd ht (by decide)
      | succ j =>
        rw [hmt, List.getElem?_cons_succ] at ht
        obtain ⟨h1, h2⟩ := (hat j).mp ht
        exact ⟨j + 2, by omega, by omega, by omega, h1, fun h => h2 (by omega)⟩
    · cases ht
  · rintro ⟨i, hi, hm, hE, h1, h2⟩
    obtain ⟨j, rfl⟩ : ∃ j, i = j + 2 := ⟨i - 2, by omega⟩
    refine ⟨j + 1 - m, ?_⟩
    rw [List.getElem?_drop, List.getElem?_take, show m + (j + 1 - m) = j + 1 by omega, if_pos (by omega),
      List.getElem?_cons_succ]
    exact (hat j).mpr ⟨h1, fun h => h2 (by omega)⟩

theorem guess_unique {est hint m c k E : Nat} (he : est = hint)
    (hk : m ≤ hint + (2 ^ k - 1)) (hleast : ∀ j < k, hint + (2 ^ j - 1) < m)
    (h : Sxb.Grown (min est c) 1 m c E) : E = min (hint + (2 ^ k - 1)) c := by
  subst he
  obtain ⟨k', g1, g2, g3⟩ := h
  rw [g1, Nat.one_mul]
  rcases Nat.lt_or_ge c est with hlt | hge
  · rw [Nat.min_eq_right (show c ≤ est by omega)]
    omega
  · rw [Nat.min_eq_left hge] at g2 g3 ⊢
    simp only [Nat.one_mul] at g2 g3
    have : k' = k := by
      rcases Nat.lt_trichotomy k' k with hlt | heq | hgt
      · have := hleast k' hlt; omega
      · exact heq
      · have := g3 k hgt; omega
    rw [this]

/-- C20, exactly, over bytes: let the iterator yield `m` bytes, let its size hint (the upper
bound, or the lower bound if there is none) be `hint`, and let `hint + (2 ^ k - 1)` be the first of
`hint, hint + 1, hint + 3, hint + 7, …` that is at least `m`.  On any accepted message in a fixed
buffer, `try_set_payload`
* reports `BufferOverflow` and leaves an empty message, if `F0 bytes F7` does not fit;
* panics, if it fits and behind the new payload and within the last guess lies an `F7`
  (at index 2 only if the old message was empty);
* leaves `F0 bytes F7` in every other case. -/
theorem C20_bytes_exactly (b : Buf .bytes) (h : Sxb.tryFrom b = .ok b) (d : Src (BitVec 7)) (hint k : Nat)
    (hhint : hint = d.upper.getD d.lower) (hk : d.items.length ≤ hint + (2 ^ k - 1))
    (hleast : ∀ j < k, hint + (2 ^ j - 1) < d.items.length) :
    (b.length < d.items.length + 2 → ∃ rest,
      (Sxb.ops .fixed).trySetPayload b d = .ok (sysexBytes [] ++ rest, some .bufferOverflow) ∧
      (sysexBytes [] ++ rest).length = b.length) ∧
    (d.items.length + 2 ≤ b.length →
      ((∃ i, 2 ≤ i ∧ d.items.length < i ∧ i ≤ min (hint + (2 ^ k - 1)) (b.length - 2) ∧
          b[i]? = some 0xF7 ∧ (i = 2 → b[1]? = some 0xF7)) →
        (Sxb.ops .fixed).trySetPayload b d = .panic) ∧
      ((¬ ∃ i, 2 ≤ i ∧ d.items.length < i ∧ i ≤ min (hint + (2 ^ k - 1)) (b.length - 2) ∧
          b[i]? = some 0xF7 ∧ (i = 2 → b[1]? = some 0xF7)) → ∃ rest,
        (Sxb.ops .fixed).trySetPayload b d = .ok (sysexBytes d.items ++ rest, none) ∧
        (sysexBytes d.items ++ rest).length = b.length)) := by
  obtain ⟨p, rest, rfl, hp⟩ := accepted_raw h
  have he : d.estimate = hint := by
    rw [hhint]; unfold Src.estimate; cases d.upper <;> rfl
  obtain ⟨k1, k2⟩ := Sxb.trySetPayload_any (rest := rest) hp d
  have hlen := Sxb.raw_length p rest
  refine ⟨fun hb => ?_, fun hb => ?_⟩
  · obtain ⟨r, e1, e2⟩ := k2 (by omega)
    have hr : raw [] r = sysexBytes [] ++ r := raw_eq [] r
    exact ⟨r, by rw [e1, hr], by rw [← hr, Sxb.raw_length, hlen, e2]; simp⟩
  · obtain ⟨E, hg, hpan, hok⟩ := k1 (by omega)
    have hE : E = min (hint + (2 ^ k - 1)) ((raw p rest).length - 2) := by
      rw [hlen, Nat.add_sub_cancel]
      exact guess_unique he hk hleast hg
    rw [hE, leftover_mem hp] at hpan hok
    refine ⟨fun ⟨i, a1, a2, a3, a4, a5⟩ => hpan ⟨i, a1, a2, a3, a4, a5⟩, fun hn => ?_⟩
    obtain ⟨r, e1, e2⟩ := hok hn
    exact ⟨r, by rw [e1, raw_eq], by rw [← raw_eq, Sxb.raw_length, hlen, List.length_map]; omega⟩

example : (Sxb.ops .fixed).trySetPayload [0xF0, 1, 2, 3, 4, 5, 0xF7, 0, 0] ⟨[5, 6, 7, 8], 0, none⟩ = .panic :=
  ((C20_bytes_exactly [0xF0, 1, 2, 3, 4, 5, 0xF7, 0, 0] (by decide +kernel) ⟨[5, 6, 7, 8], 0, none⟩ 0 3 rfl
    (by decide) (by decide)).2 (by decide)).1
    ⟨6, by decide, by decide, by decide, by decide, by decide⟩

/-- C22, exactly, for appending to a byte message `F0 p F7 r` in a fixed buffer: let the iterator
yield `m` bytes, and let `hint` and `k` be as in `C20_bytes_exactly`.  `try_append_payload`
* reports `BufferOverflow` and leaves an empty message, if `r` has fewer than `m` bytes;
* panics, if it has, and within the last guess an `F7` of `r` lies behind the new payload;
* appends the bytes in every other case. -/
theorem C22_bytes_append_exactly (b : Buf .bytes) (p r : List (BitVec 8))
    (hb : b = 0xF0 :: p ++ 0xF7 :: r) (hp : (0xF7 : BitVec 8) ∉ p) (d : Src (BitVec 7)) (hint k : Nat)
    (hhint : hint = d.upper.getD d.lower) (hk : d.items.length ≤ hint + (2 ^ k - 1))
    (hleast : ∀ j < k, hint + (2 ^ j - 1) < d.items.length) :
    (r.length < d.items.length → ∃ rest,
      (Sxb.ops .fixed).tryAppend b d = .ok (sysexBytes [] ++ rest, some .bufferOverflow) ∧
      (sysexBytes [] ++ rest).length = b.length) ∧
    (d.items.length ≤ r.length →
      ((∃ i, d.items.length ≤ i + 1 ∧ i + 1 < min (hint + (2 ^ k - 1)) r.length ∧ r[i]? = some 0xF7) →
        (Sxb.ops .fixed).tryAppend b d = .panic) ∧
      ((¬ ∃ i, d.items.length ≤ i + 1 ∧ i + 1 < min (hint + (2 ^ k - 1)) r.length ∧ r[i]? = some 0xF7) →
        ∃ rest, (Sxb.ops .fixed).tryAppend b d =
            .ok (0xF0 :: (p ++ d.items.map (·.setWidth 8)) ++ 0xF7 :: rest, none) ∧
          d.items.length + rest.length = r.length)) := by
  have hbr : b = raw p r := hb
  subst hbr
  have he : d.estimate = hint := by
    rw [hhint]; unfold Src.estimate; cases d.upper <;> rfl
  have hap : (Sxb.ops .fixed).tryAppend (raw p r) d = (Sxb.ops .fixed).tryInsert (raw p r) d p.length := by
    unfold SxOps.tryAppend
    show (Sxb.payloadSize _ >>= _) = _
    rw [Sxb.payloadSize_raw hp, Res.ok_bind]
  rw [hap]
  obtain ⟨k1, k2⟩ := Sxb.append_any (r1 := r) hp d
  refine ⟨fun hb => ?_, fun hb => ?_⟩
  · obtain ⟨r, e1, e2⟩ := k2 hb
    have hr : raw [] r = sysexBytes [] ++ r := raw_eq [] r
    exact ⟨r, by rw [e1, hr], by rw [← hr, Sxb.raw_length, Sxb.raw_length, e2]; simp⟩
  · obtain ⟨E, hg, hpan, hok⟩ := k1 hb
    have hE := guess_unique he hk hleast hg
    have hmem : Sxb.endByte ∈ ((0 :: r).take E).drop d.items.length ↔
        ∃ i, d.items.length ≤ i + 1 ∧ i + 1 < min (hint + (2 ^ k - 1)) r.length ∧ r[i]? = some 0xF7 := by
      rw [← hE, List.mem_iff_getElem?]
      constructor
      · rintro ⟨t, ht⟩
        rw [List.getElem?_drop, List.getElem?_take] at ht
        split at ht
        · rename_i hlt
          cases hmt : d.items.length + t with
          | zero => rw [hmt, List.getElem?_cons_zero, Option.some.injEq] at ht; exact absurd ht (by decide)
          | succ j =>
            rw [hmt, List.getElem?_cons_succ] at ht
            exact ⟨j, by omega, by omega, ht⟩
        · cases ht
      · rintro ⟨i, h1, h2, h3⟩
        refine ⟨i + 1 - d.items.length, ?_⟩
        rw [List.getElem?_drop, List.getElem?_take,
          show d.items.length + (i + 1 - d.items.length) = i + 1 by omega, if_pos h2, List.getElem?_cons_succ]
        exact h3
    rw [hmem] at hpan hok
    exact ⟨hpan, hok⟩

-- C20: three bytes from an iterator that says nothing about its size.  The last guess is three
-- (`k = 2`), so nothing behind the payload is looked at and the leftover `F7` does no harm.
example : (Sxb.ops .fixed).trySetPayload [0xF0, 1, 2, 3, 0xF7, 0xF7, 0, 0] ⟨[5, 6, 7], 0, none⟩ =
    .ok ([0xF0, 5, 6, 7, 0xF7, 0xF7, 0, 0], none) := by decide +kernel

-- C20: with four bytes the last guess is seven, which takes in the `F7` at index 6.
example : (Sxb.ops .fixed).trySetPayload [0xF0, 1, 2, 3, 4, 5, 0xF7, 0, 0] ⟨[5, 6, 7, 8], 0, none⟩ = .panic ∧
    (Sxb.ops .fixed).trySetPayload [0xF0, 1, 2, 0xF7, 4, 5, 6, 0, 0] ⟨[5, 6, 7, 8], 0, none⟩ =
      .ok ([0xF0, 5, 6, 7, 8, 0xF7, 6, 0, 0xF7], none) := by decide +kernel

-- C20: the hypotheses of the theorem for the last example.
example : (4 : Nat) ≤ 0 + (2 ^ 3 - 1) ∧ (∀ j < 3, 0 + (2 ^ j - 1) < 4) ∧
    Sxb.tryFrom [0xF0, 1, 2, 3, 4, 5, 0xF7, 0, 0] = .ok [0xF0, 1, 2, 3, 4, 5, 0xF7, 0, 0] := by decide +kernel

-- C22: appending two bytes with a hint of five panics over the `F7` at index 3 of the rest, with
-- a hint of four it does not.
example : (Sxb.ops .fixed).tryAppend [0xF0, 1, 0xF7, 0, 0, 0, 0xF7, 0, 0] ⟨[5, 6], 5, some 5⟩ = .panic ∧
    (Sxb.ops .fixed).tryAppend [0xF0, 1, 0xF7, 0, 0, 0, 0xF7, 0, 0] ⟨[5, 6], 4, some 4⟩ =
      .ok ([0xF0, 1, 5, 6, 0xF7, 0, 0xF7, 0, 0], none) := by decide +kernel

end Midi2
