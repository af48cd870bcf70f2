import Verif.Lemmas.TextFlex
import Verif.Lemmas.UsizeText
import Verif.Model.Custom
import Verif.Props.CustomRoomy

/-!
# C62: texts over buffers that resize in any way
-/

namespace Midi2

/-- The word that holds octet `i` of a flex data text: twelve octets in the last three words of each
packet of four. -/
def flexTextWord (i : Nat) : Nat := 4 * (i / 12) + 1 + i % 12 / 4

theorem flex_writeLoop_any (vs : List (BitVec 8)) : ∀ (p j : Nat) (b : Buf .ump), j ≤ 11 → vs ≠ [] →
    (flexTextWord (12 * p + j + vs.length - 1) < b.length →
      ∃ x, FlexText.writeLoop vs p j b = .ok x ∧ x.length = b.length) ∧
    (b.length ≤ flexTextWord (12 * p + j + vs.length - 1) →
      FlexText.writeLoop vs p j b = .panic) := by
  induction vs with
  | nil => intro p j b _ h; exact absurd rfl h
  | cons v vs ih =>
    intro p j b hj _
    simp only [flexTextWord, List.length_cons]
    have hmod : ∀ c : Buf .ump, (p * 4 + 1 + j / 4 < c.length →
          ∃ y, modifyAt c (p * 4 + 1 + j / 4) (fun w => U32.setOctet w (j % 4) v) = .ok y ∧
            y.length = c.length) ∧
        (c.length ≤ p * 4 + 1 + j / 4 →
          modifyAt c (p * 4 + 1 + j / 4) (fun w => U32.setOctet w (j % 4) v) = .panic) := by
      intro c
      unfold modifyAt
      refine ⟨fun h => ?_, fun h => ?_⟩
      · rw [List.getElem?_eq_getElem h]
        exact ⟨_, rfl, List.length_set⟩
      · rw [List.getElem?_eq_none h]
    have step : ∀ y : Buf .ump, y.length = b.length →
        modifyAt b (p * 4 + 1 + j / 4) (fun w => U32.setOctet w (j % 4) v) = .ok y →
        FlexText.writeLoop (v :: vs) p j b =
          if j = 11 then FlexText.writeLoop vs (p + 1) 0 y else FlexText.writeLoop vs p (j + 1) y := by
      intro y _ e
      rw [FlexText.writeLoop, e]
      simp only [Res.ok_bind, beq_iff_eq]
    by_cases hv : vs = []
    · subst hv
      simp only [List.length_nil]
      refine ⟨fun h => ?_, fun h => ?_⟩
      · obtain ⟨y, e, l⟩ := (hmod b).1 (by omega)
        refine ⟨y, ?_, l⟩
        rw [step y l e]
        split <;> rfl
      · rw [FlexText.writeLoop, (hmod b).2 (by omega)]
        rfl
    · have hpos : 0 < vs.length := List.length_pos_iff.mpr hv
      by_cases hin : p * 4 + 1 + j / 4 < b.length
      · obtain ⟨y, e, l⟩ := (hmod b).1 hin
        rw [step y l e]
        by_cases h11 : j = 11
        · rw [if_pos h11]
          have := ih (p + 1) 0 y (by omega) hv
          simp only [flexTextWord, l] at this
          rw [show 12 * p + j + (vs.length + 1) - 1 = 12 * (p + 1) + 0 + vs.length - 1 by omega]
          exact this
        · rw [if_neg h11]
          have := ih p (j + 1) y (by omega) hv
          simp only [flexTextWord, l] at this
          rw [show 12 * p + j + (vs.length + 1) - 1 = 12 * p + (j + 1) + vs.length - 1 by omega]
          exact this
      · refine ⟨fun h => ?_, fun _ => ?_⟩
        · exfalso; omega
        · rw [FlexText.writeLoop, (hmod b).2 (by omega)]
          rfl

theorem flex_grow_any (b : Buf .ump) (n : Nat) :
    (b = [] → FlexText.growBuffer (FlexText.clearPayload b) (FlexText.sizeForStr n) = .panic) ∧
    (b ≠ [] → ∃ x, FlexText.growBuffer (FlexText.clearPayload b) (FlexText.sizeForStr n) = .ok x ∧
      x.length = b.length) := by
  obtain ⟨h4, h0⟩ := FlexText.sizeForStr_mod n
  have a1 : Res.assert (FlexText.sizeForStr n % 4 == 0) = .ok () := by rw [h4]; rfl
  have a2 : Res.assert (FlexText.sizeForStr n != 0) = .ok () := by
    rw [bne_iff_ne.mpr h0]; rfl
  unfold FlexText.growBuffer
  rw [a1, Res.ok_bind, a2, Res.ok_bind]
  have hl := FlexText.clearPayload_length b
  refine ⟨fun h => ?_, fun h => ?_⟩
  · subst h; rfl
  · have hp := List.length_pos_iff.mpr h
    have : ∃ w, at' (FlexText.clearPayload b) 0 = .ok w := by
      unfold at'
      rw [List.getElem?_eq_getElem (by omega)]
      exact ⟨_, rfl⟩
    obtain ⟨w, hw⟩ := this
    rw [hw, Res.ok_bind]
    refine ⟨_, rfl, ?_⟩
    have hget := onChunks_heads (k := 4) (by omega) (fun i => if i < FlexText.sizeForStr n / 4 then
        FlexText.growWord (FlexText.sizeForStr n / 4) i (U32.nibble w 1) (FlexText.channelOf w)
          (U32.octet w 2) (U32.octet w 3) else id)
      (fun cs => cs.zipIdx.map fun (p, i) => if i < FlexText.sizeForStr n / 4 then modifyHead0
        (FlexText.growWord (FlexText.sizeForStr n / 4) i (U32.nibble w 1) (FlexText.channelOf w)
          (U32.octet w 2) (U32.octet w 3)) p else p)
      (FlexText.clearPayload b) (by
        intro i
        rw [List.getElem?_map, List.getElem?_zipIdx, Option.map_map]
        cases (chunksExact 4 (FlexText.clearPayload b))[i]? with
        | none => rfl
        | some p =>
          simp only [Option.map_some, Function.comp, Nat.zero_add]
          by_cases h : i < FlexText.sizeForStr n / 4
          · rw [if_pos h, if_pos h]
          · rw [if_neg h, if_neg h]
            cases p <;> rfl)
    refine (length_of_getElem? fun i => ?_).trans hl
    rw [hget]
    split
    · cases (FlexText.clearPayload b)[i]? <;> rfl
    · rfl

/-- C62: whatever the `resize` of a buffer does, setting a text of a flex data message panics exactly
if the resized buffer is empty or does not have the word of the last octet of the text; otherwise
the buffer keeps the length that `resize` gave it.  If that is at least the size asked for, the
message is the one that the same text gives in an array with the contents of the buffer. -/
theorem C62_flex_text_any_buffer (f : Buf .ump → Nat → Buf .ump) (b : Buf .ump) (s : String) :
    let r := f b (4 * textPackets 12 (strBytes s).length)
    (r = [] ∨ (strBytes s ≠ [] ∧ r.length ≤ flexTextWord ((strBytes s).length - 1)) →
      FlexText.setTextOn f b s = .panic) ∧
    (r ≠ [] → (strBytes s = [] ∨ flexTextWord ((strBytes s).length - 1) < r.length) →
      ∃ x, FlexText.setTextOn f b s = .ok x ∧ x.length = r.length) ∧
    (4 * textPackets 12 (strBytes s).length ≤ r.length →
      FlexText.setTextOn f b s = FlexText.trySetText r s) := by
  intro r
  have hsz := FlexText.sizeForStr_eq (strBytes s).length
  have hr : f b (FlexText.sizeForStr (strBytes s).length) = r := by rw [hsz]
  have e : FlexText.setTextOn f b s = (do
      let b ← FlexText.growBuffer (FlexText.clearPayload r) (FlexText.sizeForStr (strBytes s).length)
      FlexText.writeText b (strBytes s)) := by
    unfold FlexText.setTextOn
    simp only [hr]
  obtain ⟨g1, g2⟩ := flex_grow_any r (strBytes s).length
  refine ⟨fun h => ?_, fun h0 h => ?_, fun h => ?_⟩
  · rw [e]
    by_cases h0 : r = []
    · rw [g1 h0]; rfl
    · obtain ⟨x, hx, lx⟩ := g2 h0
      obtain ⟨hs, hl⟩ := h.resolve_left h0
      rw [hx, Res.ok_bind]
      have := (flex_writeLoop_any (strBytes s) 0 0 x (by omega) hs).2
      simp only [Nat.mul_zero, Nat.zero_add, lx] at this
      exact this hl
  · rw [e]
    obtain ⟨x, hx, lx⟩ := g2 h0
    rw [hx, Res.ok_bind]
    by_cases hs : strBytes s = []
    · rw [hs]; exact ⟨x, rfl, lx⟩
    · have := (flex_writeLoop_any (strBytes s) 0 0 x (by omega) hs).1
      simp only [Nat.mul_zero, Nat.zero_add, lx] at this
      exact this (h.resolve_left hs)
  · rw [e]
    have hf : fixedTryResize r (FlexText.sizeForStr (strBytes s).length) = .ok r :=
      fixedTryResize_roomy (m := .ump) (by omega)
    simp only [FlexText.trySetText, hf, Res.ok_bind]

/-- C62: whatever the `resize` of a buffer does, setting the text of a stream message panics exactly if
the resized buffer is shorter than asked for; otherwise the message is the one that the same text
gives in an array with the contents of the buffer. -/
theorem C62_stream_text_any_buffer (t : StreamText) (ht : t ∈ StreamText.all)
    (f : Buf .ump → Nat → Buf .ump) (b : Buf .ump) (s : String) :
    let size := 4 * textPackets (14 - t.offset) (strBytes s).length
    t.setTextOn f b s = if (f b size).length < size then .panic else t.trySetText (f b size) s := by
  intro size
  have ho : t.offset < 2 := by
    simp only [StreamText.all, List.mem_cons, List.not_mem_nil, or_false] at ht
    rcases ht with rfl | rfl | rfl <;> decide
  have hsz : StreamText.sizeForStr t.offset (strBytes s).length = size := StreamText.sizeForStr_eq ho _
  unfold StreamText.setTextOn StreamText.trySetText
  simp only [hsz]
  generalize f b size = r
  split
  · rename_i h
    obtain ⟨x, hx, lx, -⟩ := StreamText.clearPayload_get ho r
    rw [hx, Res.ok_bind]
    have hs : sliceTo x size = .panic := by
      unfold sliceTo
      rw [if_neg (by omega)]
    unfold StreamText.writeHeader at'
    cases x[0]? with
    | some w => simp only [Res.ok_bind, hs]; rfl
    | none => rfl
  · rename_i h
    rw [fixedTryResize_roomy (m := .ump) (by omega), Res.ok_bind]

/-- C62: the same of the fallible setters; they fail, with the buffer as `try_resize` left it, exactly if
`try_resize` does. -/
theorem C62_try_text_any_buffer (f : Buf .ump → Nat → Buf .ump × Bool) (b : Buf .ump) (s : String) :
    (let size := 4 * textPackets 12 (strBytes s).length
     FlexText.trySetTextOn f b s = if (f b size).2 = false then .ok ((f b size).1, some .bufferOverflow)
       else (FlexText.setTextOn (fun b n => (f b n).1) b s).bind fun x => .ok (x, none)) ∧
    ∀ t ∈ StreamText.all, let size := 4 * textPackets (14 - t.offset) (strBytes s).length
      t.trySetTextOn f b s = if (f b size).2 = false then .ok ((f b size).1, some .bufferOverflow)
        else if (f b size).1.length < size then .panic
        else (t.trySetText (f b size).1 s).bind fun x => .ok (x, none) := by
  refine ⟨?_, fun t ht => ?_⟩
  · simp only [← FlexText.sizeForStr_eq]
    unfold FlexText.trySetTextOn FlexText.setTextOn
    generalize FlexText.sizeForStr (strBytes s).length = n
    simp only []
    cases h : (f b n).2 with
    | false => rfl
    | true =>
      simp only [if_true, Bool.true_eq_false, if_false]
      cases FlexText.growBuffer (FlexText.clearPayload (f b n).1) n <;> rfl
  · intro size
    have ho : t.offset < 2 := by
      simp only [StreamText.all, List.mem_cons, List.not_mem_nil, or_false] at ht
      rcases ht with rfl | rfl | rfl <;> decide
    have hsz : StreamText.sizeForStr t.offset (strBytes s).length = size :=
      StreamText.sizeForStr_eq ho _
    have e := C62_stream_text_any_buffer t ht (fun b n => (f b n).1) b s
    have h2 : t.trySetTextOn f b s = if (f b size).2 = false then
        .ok ((f b size).1, some .bufferOverflow)
        else (t.setTextOn (fun b n => (f b n).1) b s).bind fun x => .ok (x, none) := by
      unfold StreamText.trySetTextOn StreamText.setTextOn
      simp only [hsz]
      cases h : (f b size).2 with
      | false => rfl
      | true =>
        simp only [if_true, Bool.true_eq_false, if_false]
        cases h1 : StreamText.clearPayload t.offset (f b size).1 with
        | err _ => rfl
        | panic => rfl
        | ok c1 =>
          simp only [Res.ok_bind]
          cases h2 : StreamText.writeHeader c1 size with
          | err _ => rfl
          | panic => rfl
          | ok c2 =>
            simp only [Res.ok_bind]
            cases setFormatFields c2 <;> rfl
    rw [h2, e]
    by_cases h : (f b size).2 = false
    · rw [if_pos h, if_pos h]
    · rw [if_neg h, if_neg h]
      show (if (f b size).1.length < size then Res.panic else t.trySetText (f b size).1 s).bind _ = _
      split <;> rfl

-- A buffer that does not grow: a text of one packet fits, a longer one panics.
example : FlexText.setTextOn (fun b _ => b) [0xD0100101, 0, 0, 0] "abcdefghijkl" =
      .ok [0xD0100101, 0x61626364, 0x65666768, 0x696A6B6C] ∧
    FlexText.setTextOn (fun b _ => b) [0xD0100101, 0, 0, 0] "abcdefghijklm" = .panic ∧
    flexTextWord (13 - 1) = 5 := by decide +kernel

/-- Setting a text does not notice that the buffer is two words short of a packet, if the text ends
before: the message then has one packet, which is the start of a message, and its text is the first
eleven octets.  A stream text panics instead. -/
theorem C62_flex_text_short_violation :
    let short : Buf .ump → Nat → Buf .ump := fun b n => vecResize b (n - 2)
    FlexText.setTextOn short [0xD0100101, 0, 0, 0] "abcdefghijklm" =
      .ok [0xD0500101, 0x61626364, 0x65666768, 0x696A6B6C, 0, 0x6D000000] ∧
    FlexText.text [0xD0500101, 0x61626364, 0x65666768, 0x696A6B6C, 0, 0x6D000000] =
      .ok "abcdefghijk" ∧
    StreamText.endpointName.setTextOn short [0xF0030000, 0, 0, 0] "abcdefghijklmno" = .panic := by
  decide +kernel

end Midi2
