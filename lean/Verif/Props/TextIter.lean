import Verif.Props.TextExact

/-!
# C63: the iterators over the bytes of a text
-/

namespace Midi2

/-- The results of `n` calls of `next`. -/
def TextSource.calls (t : TextSource) (fuel : Nat) : Nat → TextIt → Res (List (Option (BitVec 8)))
  | 0, _ => .ok []
  | n + 1, it => do
    let (x, it) ← t.next fuel it
    return x :: (← t.calls fuel n it)

/-- What `n` calls of `next` should return for an iterator over `l`: the first `n` items, then
`None` for ever. -/
def itemsThenNone (l : List Nat) (n : Nat) : List (Option Nat) :=
  (List.range n).map fun i => l[i]?

theorem itemsThenNone_succ (l : List Nat) (n : Nat) :
    itemsThenNone l (n + 1) = l.head? :: itemsThenNone l.tail n := by
  unfold itemsThenNone
  rw [List.range_succ_eq_map, List.map_cons, List.map_map]
  cases l with
  | nil => simp
  | cons a l => simp

namespace TextSource

variable {t : TextSource} {N : Nat} {v : Nat → BitVec 8}

theorem calls_eq (H : Holds t N v) {fuel : Nat} (hf : N ≤ fuel) : ∀ (n i : Nat), i ≤ N →
    ∃ l, t.calls fuel n (t.pos i) = .ok l ∧
      l.map (Option.map BitVec.toNat) = itemsThenNone ((rest N v i).map BitVec.toNat) n
  | 0, _, _ => ⟨[], rfl, rfl⟩
  | n + 1, i, h1 => by
    obtain ⟨j, a1, a2, a3, a4, a5⟩ := skip_eq H fuel i h1 (by omega)
    unfold calls next
    rw [a3, Res.ok_bind, H.finished j a2, Res.ok_bind, itemsThenNone_succ]
    by_cases he : j = N
    · rw [if_pos (by simpa using he), Res.pure_eq, Res.ok_bind]
      obtain ⟨l, b1, b2⟩ := calls_eq H hf n j a2
      simp only [b1]
      refine ⟨none :: l, rfl, ?_⟩
      rw [List.map_cons, b2, a4, he, rest_end]
      rfl
    · rw [if_neg (by simpa using he), H.value j (by omega), Res.ok_bind, advance_pos H.cap,
        Res.pure_eq, Res.ok_bind]
      obtain ⟨l, b1, b2⟩ := calls_eq H hf n (j + 1) (by omega)
      simp only [b1]
      refine ⟨some (v j) :: l, rfl, ?_⟩
      rw [List.map_cons, b2, a4, rest_step (show j < N by omega), if_neg (a5 (by omega))]
      rfl

theorem calls_start (H : Holds t N v) {fuel : Nat} (hf : N ≤ fuel) (n : Nat) :
    ∃ l, t.calls fuel n ⟨0, 0⟩ = .ok l ∧ l.map (Option.map BitVec.toNat) =
      itemsThenNone ((((List.range N).map v).filter (· ≠ 0)).map BitVec.toNat) n := by
  have e : t.pos 0 = ⟨0, 0⟩ := by unfold pos; rw [Nat.zero_div, Nat.zero_mod]
  obtain ⟨l, h1, h2⟩ := calls_eq H hf n 0 (Nat.zero_le _)
  rw [e] at h1
  refine ⟨l, h1, ?_⟩
  rw [h2, rest, List.range_eq_range', Nat.sub_zero]

end TextSource

/-- C63, flex data: any number of `next` calls on `text_bytes()` of a message in any buffer of
at least one packet returns its text bytes in order (all but the last byte of the buffer's last
packet, see C29, and without zeros), then `None` for ever. -/
theorem C63_flex_next (b : Buf .ump) (h : 4 ≤ b.length) (n : Nat) :
    ∃ l, (FlexText.source b).calls (textFuel b) n ⟨0, 0⟩ = .ok l ∧
      l.map (Option.map BitVec.toNat) =
        itemsThenNone ((FlexText.slots b).dropLast.filter (· ≠ 0)) n := by
  rw [FlexText.dropLast_slots, ← filter_toNat]
  exact TextSource.calls_start (FlexText.source_holds b h) (by unfold textFuel; omega) n

example : ∃ l, (FlexText.source [0xD0100104, 0x61006200, 0, 0]).calls
      (textFuel [0xD0100104, 0x61006200, 0, 0]) 3 ⟨0, 0⟩ = .ok l ∧
    l.map (Option.map BitVec.toNat) =
      itemsThenNone ((FlexText.slots [0xD0100104, 0x61006200, 0, 0]).dropLast.filter (· ≠ 0)) 3 :=
  C63_flex_next [0xD0100104, 0x61006200, 0, 0] (by decide) 3

/-- C63, stream messages. -/
theorem C63_stream_next (t : StreamText) (ht : t ∈ StreamText.all) (b : Buf .ump) (n : Nat) :
    ∃ l, (StreamText.source t.offset b).calls (textFuel b) n ⟨0, 0⟩ = .ok l ∧
      l.map (Option.map BitVec.toNat) = itemsThenNone ((t.slots b).filter (· ≠ 0)) n := by
  have K := StreamText.known_of_mem ht
  rw [StreamText.slots_eq K, ← filter_toNat]
  refine TextSource.calls_start (StreamText.source_holds K.off b) ?_ n
  have h1 : (14 - t.offset) * (b.length / 4) ≤ 14 * (b.length / 4) :=
    Nat.mul_le_mul_right _ (by omega)
  unfold textFuel
  omega

example : ∃ l, (StreamText.source StreamText.endpointName.offset [0xF0036100, 0x62000000, 0, 0]).calls
      (textFuel [0xF0036100, 0x62000000, 0, 0]) 3 ⟨0, 0⟩ = .ok l ∧
    l.map (Option.map BitVec.toNat) =
      itemsThenNone ((StreamText.endpointName.slots [0xF0036100, 0x62000000, 0, 0]).filter (· ≠ 0)) 3 :=
  C63_stream_next .endpointName (by decide +kernel) [0xF0036100, 0x62000000, 0, 0] 3

/-- C63, `size_hint` of flex data texts: the upper bound is right; the lower bound is larger
than the number of bytes for every message. -/
theorem C63_flex_size_hint_violation (b : Buf .ump) (h : 4 ≤ b.length) :
    ∃ lo hi, FlexText.sizeHint b = .ok (lo, hi) ∧
      ((FlexText.slots b).dropLast.filter (· ≠ 0)).length ≤ hi ∧
      ((FlexText.slots b).dropLast.filter (· ≠ 0)).length < lo := by
  refine ⟨(b.length - 1) * 12, b.length * 12, ?_, ?_⟩
  · unfold FlexText.sizeHint
    rw [if_neg (by omega)]
  · have h1 := List.length_filter_le (· ≠ 0) (FlexText.slots b).dropLast
    have h2 : (FlexText.slots b).length = 12 * (b.length / 4) := by
      unfold FlexText.slots; rw [List.length_map, List.length_range]
    rw [List.length_dropLast, h2] at h1
    omega

/-- C63, `size_hint` of names and ids. -/
theorem C63_stream_size_hint_violation (t : StreamText) (b : Buf .ump)
    (h : 4 ≤ b.length) :
    ∃ lo hi, StreamText.sizeHint b = .ok (lo, hi) ∧
      ((t.slots b).filter (· ≠ 0)).length ≤ hi ∧ ((t.slots b).filter (· ≠ 0)).length < lo := by
  refine ⟨(b.length - 1) * 14, b.length * 14, ?_, ?_⟩
  · unfold StreamText.sizeHint
    rw [if_neg (by omega)]
  · have h1 := List.length_filter_le (· ≠ 0) (t.slots b)
    have h2 : (t.slots b).length = t.capacity * (b.length / 4) := by
      unfold StreamText.slots; rw [List.length_map, List.length_range]
    have h3 : t.capacity * (b.length / 4) ≤ 14 * (b.length / 4) :=
      Nat.mul_le_mul_right _ (by unfold StreamText.capacity StreamText.first; split <;> omega)
    omega

-- Two packets with a zero between the bytes: five calls of `next`.
example : (FlexText.source [0xD0500104, 0x61006200, 0, 0, 0xD0D00104, 0x63000000, 0, 0]).calls
    (textFuel [0xD0500104, 0x61006200, 0, 0, 0xD0D00104, 0x63000000, 0, 0]) 5 ⟨0, 0⟩ =
    .ok [some 0x61, some 0x62, some 0x63, none, none] := by decide +kernel

example : FlexText.sizeHint [0xD0100104, 0x61006200, 0, 0] = .ok (36, 48) := rfl

end Midi2
