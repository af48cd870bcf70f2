import Verif.Props.CustomNewSysex
import Verif.Props.TextStream

/-!
# C62: a text set on a new message over a buffer that puts anything into new words
-/

namespace Midi2

/-- C62: over any resizable buffer, whatever it puts into new words, `set_text` on a message made by
`new()` leaves nothing of the old contents: the words are the encoding of the text with group 0 and no
channel. -/
theorem C62_new_flex_text_set (t : FlexText) {f : Buf .ump → Nat → Buf .ump} (hf : Grows f)
    (b : Buf .ump) (s : String) :
    ∃ x y d, t.newOn f b = .ok x ∧ FlexText.setTextOn f x s = .ok y ∧ FlexText.data y = .ok d ∧
      t.IsEncoding d 0 (fun _ => none) s ∧ d.length = 4 * textPackets 12 (utf8 s).length := by
  obtain ⟨w, w1, w2, w3, hw⟩ : ∃ w w1 w2 w3, f b 4 = [w, w1, w2, w3] := by
    have h := hf.length b 4
    match f b 4, h with
    | [w, w1, w2, w3], _ => exact ⟨w, w1, w2, w3, rfl⟩
  obtain ⟨x, h1, h2, h3, -, h5, -, h7, h8⟩ := C62_new_flex_text_exactly t f b hw
  have B : t.Backs [x, w1, w2, w3] :=
    ⟨Nat.le_refl _, congrArg some h2, congrArg some h7, congrArg some h8⟩
  obtain ⟨y, d, g, c, k1, k2, k3, k4, k5, -, k6, -⟩ := C30_wire_format t _ B s
  obtain rfl : 0 = g := by
    have e : FlexText.group [x, w1, w2, w3] = .ok (U32.nibble x 1) := rfl
    rw [e] at k5
    injection k5 with k5
    rw [← k5]
    exact ((field_nibble_zero x (i := 1) (by omega)).mp h3).symm
  obtain rfl : none = c := by
    have e : FlexText.channel [x, w1, w2, w3] = .ok (FlexText.channelOf x) := rfl
    rw [e] at k6
    injection k6 with k6
    rw [← k6]
    unfold FlexText.channelOf
    have : U32.crumb x 5 ≠ 0 := fun h => by
      have := crumb_field x (i := 5) (by omega)
      rw [h, h5] at this
      cases this
    rw [if_neg (by simpa using this)]
  exact ⟨_, y, d, h1, ((C62_flex_text _ (List.cons_ne_nil _ _) s).1 f hf).trans k1, k2, k3, k4⟩

/-- C62: the same for the stream texts without a number, which are then read as the text and accepted by the
parser. -/
theorem C62_new_stream_text_set (t : StreamText) (ht : t = .endpointName ∨ t = .productInstanceId)
    {f : Buf .ump → Nat → Buf .ump} (hf : Grows f) (b : Buf .ump) (s : String) :
    ∃ x y d, t.newOn f b = .ok x ∧ t.setTextOn f x s = .ok y ∧ StreamText.data y = .ok d ∧
      t.IsEncoding d (fun _ => 0) s ∧
      (NulFree s → t.text y = .ok s ∧ t.tryFrom d = .ok d ∧ t.text d = .ok s) := by
  have hm : t ∈ StreamText.all := by
    simp only [StreamText.all, List.mem_cons]
    exact ht.imp id Or.inl
  obtain ⟨w, w1, w2, w3, hw⟩ : ∃ w w1 w2 w3, f b 4 = [w, w1, w2, w3] := by
    have h := hf.length b 4
    match f b 4, h with
    | [w, w1, w2, w3], _ => exact ⟨w, w1, w2, w3, rfl⟩
  obtain ⟨x, h1, h2, -, h4, -⟩ := C62_new_stream_text_exactly hm f b hw
  have B : t.Backs [x, w1, w2, w3] := ⟨Nat.le_refl _, congrArg some h2, congrArg some h4⟩
  obtain ⟨y, d, k1, -, k2, k3, k4⟩ := C31_stream_text t ht _ B s
  refine ⟨_, y, d, h1, ((C62_stream_names t ht _ (List.cons_ne_nil _ _) s).1 f hf).trans k1, k2, k3,
    fun h => ?_⟩
  exact ⟨(k4 h).1, (k4 h).2.2⟩

-- A buffer that fills what it adds with `A`: the text is what was set.
example : ∃ x y, FlexText.all[0].newOn (growAll 0x41414141 32) [] = .ok x ∧
    FlexText.setTextOn (growAll 0x41414141 32) x "hello" = .ok y ∧
    FlexText.text y = .ok "hello" := by
  refine ⟨[0xD0500100, 0x41414141, 0x41414141, 0x41414141], [0xD0100100, 0x68656C6C, 0x6F000000, 0],
    ?_, ?_, ?_⟩ <;> decide +kernel

example : ∃ x y, StreamText.endpointName.newOn (growAll 0x41414141 32) [] = .ok x ∧
    StreamText.endpointName.setTextOn (growAll 0x41414141 32) x "a name of two packets" = .ok y ∧
    StreamText.endpointName.text y = .ok "a name of two packets" := by
  obtain ⟨x, y, d, h1, h2, -, -, h3⟩ := C62_new_stream_text_set .endpointName (.inl rfl)
    (growFilled_grows 0x41414141) [] "a name of two packets"
  exact ⟨x, y, h1, h2, (h3 (by unfold NulFree; decide)).1⟩

end Midi2
