import Verif.Props.UsizeText

/-! # C59: the debug assertions of text messages never fire -/

namespace Midi2

/-- C59: any history of calls on a flex data text message does the same with debug assertions and
without them (overflow checks are on in both builds): here the assertions do not fire at all. -/
theorem C59_flex_text_history {w : Nat} (hw : 5 ≤ w) (fixed : Bool) (ops : List FlexText.Op)
    (hs : ∀ o ∈ ops, o.OnTarget w) (b : Buf .ump) :
    FlexText.Op.execAllU (.checked w) true fixed ops b =
      FlexText.Op.execAllU (.checked w) false fixed ops b := by
  have one : ∀ o : FlexText.Op, o.OnTarget w → ∀ b,
      o.execU (.checked w) true fixed b = o.execU (.checked w) false fixed b := by
    intro o ho b
    cases o with
    | setGroup g => rfl
    | setChannel c => rfl
    | setText s =>
      have key : FlexText.setTextU (.checked w) true b s = FlexText.setTextU (.checked w) false b s ∧
          FlexText.trySetTextU (.checked w) true b s = FlexText.trySetTextU (.checked w) false b s := by
        by_cases h : TextOverflows w 12 s
        · have := ((C66_flex_text_exactly hw b s ho).2 h).1
          rw [(this true).1, (this false).1, (this true).2, (this false).2]
          exact ⟨rfl, rfl⟩
        · have := (C66_flex_text_exactly hw b s ho).1 h
          rw [(this true).1, (this false).1, (this true).2.2.1, (this false).2.2.1]
          exact ⟨rfl, rfl⟩
      simp only [FlexText.Op.execU, key.1, key.2]
  induction ops generalizing b with
  | nil => rfl
  | cons o os ih =>
    rw [FlexText.Op.execAllU, FlexText.Op.execAllU, one o (hs o List.mem_cons_self)]
    congr 1; funext x
    rw [ih (fun o h => hs o (List.mem_cons_of_mem _ h))]

/-- C59: the same for stream text messages. -/
theorem C59_stream_text_history {w : Nat} (hw : 5 ≤ w) (t : StreamText) (ht : t ∈ StreamText.all)
    (fixed : Bool) (ops : List StreamText.Op) (hs : ∀ o ∈ ops, o.OnTarget w) (b : Buf .ump) :
    StreamText.Op.execAllU (.checked w) true t fixed ops b =
      StreamText.Op.execAllU (.checked w) false t fixed ops b := by
  have one : ∀ o : StreamText.Op, o.OnTarget w → ∀ b,
      o.execU (.checked w) true t fixed b = o.execU (.checked w) false t fixed b := by
    intro o ho b
    cases o with
    | setBlock g => rfl
    | setText s =>
      have key : StreamText.setTextU (.checked w) true t b s =
            StreamText.setTextU (.checked w) false t b s ∧
          StreamText.trySetTextU (.checked w) true t b s =
            StreamText.trySetTextU (.checked w) false t b s := by
        by_cases h : TextOverflows w t.capacity s
        · have := ((C66_stream_text_exactly hw t ht b s ho).2 h).1
          rw [(this true).1, (this false).1, (this true).2, (this false).2]
          exact ⟨rfl, rfl⟩
        · have := (C66_stream_text_exactly hw t ht b s ho).1 h
          rw [(this true).1, (this false).1, (this true).2.2.1, (this false).2.2.1]
          exact ⟨rfl, rfl⟩
      simp only [StreamText.Op.execU, key.1, key.2]
  induction ops generalizing b with
  | nil => rfl
  | cons o os ih =>
    rw [StreamText.Op.execAllU, StreamText.Op.execAllU, one o (hs o List.mem_cons_self)]
    congr 1; funext x
    rw [ih (fun o h => hs o (List.mem_cons_of_mem _ h))]

/-- A history on a 64-bit target to which the theorem applies, with a text that does not fit. -/
example :
    let ops : List FlexText.Op := [.setText "abcdefghijkl", .setGroup 3, .setText "abcdefghijklm",
      .setChannel (some 5)]
    (∀ o ∈ ops, o.OnTarget 64) ∧
    FlexText.Op.execAllU (.checked 64) true true ops [0xD0100102, 0, 0, 0] =
      .ok ([0xD3050102, 0x61626364, 0x65666768, 0x696A6B6C],
        [none, none, some .bufferOverflow, none]) := by
  intro ops
  refine ⟨?_, by decide +kernel⟩
  intro o ho
  simp only [ops, List.mem_cons, List.not_mem_nil, or_false] at ho
  rcases ho with rfl | rfl | rfl | rfl
  · show (utf8 "abcdefghijkl").length < 2 ^ 64
    decide +kernel
  · trivial
  · show (utf8 "abcdefghijklm").length < 2 ^ 64
    decide +kernel
  · trivial

/-- Without overflow checks the assertions do make a difference: 24 octets on a target of 6 bits,
in a buffer that is large enough. -/
example :
    FlexText.trySetTextU (.wrapping 6) true [0xD0100102, 0, 0, 0, 0, 0, 0, 0]
      "abcdefghijklmnopqrstuvwx" = .panic ∧
    (FlexText.trySetTextU (.wrapping 6) false [0xD0100102, 0, 0, 0, 0, 0, 0, 0]
      "abcdefghijklmnopqrstuvwx").isOk := by decide +kernel

end Midi2
