import Verif.Props.Custom
import Verif.Lemmas.CustomBytes
import Verif.Spec.CustomBytes

/-!
# C62: byte messages over a user-written buffer with a capacity
-/

namespace Midi2

open Sxb

/-- C62: `try_new_with_buffer` of byte messages and texts over a buffer with a capacity makes the
message that `new()` makes if the capacity allows the smallest message, and fails otherwise. -/
theorem C62_try_new_with_buffer_rest (cap : Nat) :
    (∀ (f : Buf .bytes → Nat → Buf .bytes × Bool) (b : Buf .bytes), TryGrows f cap →
      Sxb.tryNewWithBufferOn f b = if 2 ≤ cap then .ok (sysexBytes []) else .err .bufferOverflow) ∧
    (∀ (t : FlexText) (f : Buf .ump → Nat → Buf .ump × Bool) (b : Buf .ump), TryGrows f cap →
      t.tryNewWithBufferOn f b = if 4 ≤ cap then t.newVec else .err .bufferOverflow) ∧
    (∀ (t : StreamText) (f : Buf .ump → Nat → Buf .ump × Bool) (b : Buf .ump), TryGrows f cap →
      t.tryNewWithBufferOn f b = if 4 ≤ cap then t.newVec else .err .bufferOverflow) := by
  refine ⟨fun f b hf => ?_, fun t f b hf => ?_, fun t f b hf => ?_⟩
  · unfold Sxb.tryNewWithBufferOn
    by_cases h : 2 ≤ cap
    · rw [if_pos h]
      simp only [hf.ok b _ h, if_true]
      rw [zeroPrefix_sized (hf.length _ _ h)]
      decide
    · rw [if_neg h]
      simp only [hf.full b _ (Nat.lt_of_not_le h), Bool.false_eq_true, if_false]
  · unfold FlexText.tryNewWithBufferOn FlexText.newVec
    by_cases h : 4 ≤ cap
    · rw [if_pos h]
      simp only [hf.ok b _ h, if_true]
      rw [zeroPrefix_sized (hf.length _ _ h), vecResize_nil]
    · rw [if_neg h]
      simp only [hf.full b _ (Nat.lt_of_not_le h), Bool.false_eq_true, if_false]
  · unfold StreamText.tryNewWithBufferOn StreamText.newVec
    by_cases h : 4 ≤ cap
    · rw [if_pos h]
      simp only [hf.ok b _ h, if_true]
      rw [zeroPrefix_sized (hf.length _ _ h), vecResize_nil]
    · rw [if_neg h]
      simp only [hf.full b _ (Nat.lt_of_not_le h), Bool.false_eq_true, if_false]

example : Sxb.tryNewWithBufferOn (tryGrowAll 5 0x55 8) [1, 2, 3] = .ok [0xF0, 0xF7] ∧
    Sxb.tryNewWithBufferOn (tryGrowAll 1 0x55 8) [1] = .err .bufferOverflow := by decide +kernel

theorem capped_exec {cap : Nat} {f : (w : Nat) → List (BitVec w) → Nat → List (BitVec w) × Bool}
    (hf : TryGrows (f 8) cap) (h7 : TryGrowsSeptets (f 8)) (l : List (BitVec 7))
    (hl : l.length + 2 ≤ cap) (c : SxTryCall .s7) (hr : SxTryCall.InRange (k := .s7) l c)
    (hx : c.ExactHint) :
    c.execBytesOn (.tryGrow f) (raw (l.map e) []) =
      c.cappedBytes cap l >>= fun x => .ok (raw (x.1.map e) [], x.2) := by
  have hsplice := fun (l : List (BitVec 7)) (hl : l.length + 2 ≤ cap) =>
    Sxb.trySplice_tryGrow hf h7 (by omega) l hl
  have hnil : l = [] ↔ l.length = 0 := List.length_eq_zero_iff.symm
  have lift : ∀ (d : Src (BitVec 7)) (rb re : Bound), rb.first ≤ re.last l.length →
      re.last l.length ≤ l.length → d.upper.getD d.lower = d.items.length →
      (ops (.tryGrow f)).trySplice (raw (l.map e) []) d rb re =
        cappedOutcome cap l.length l.length (spliced l rb.first (re.last l.length) d.items) >>=
          fun x => .ok (raw (x.1.map e) [], x.2) := by
    intro d rb re h1 h2 hd
    rw [hsplice l hl d rb re h1 h2 hd]
    unfold cappedOutcome
    rw [if_neg (show ¬ (l.length = 0 ∧ l.length = 1) by omega)]
    split
    · rfl
    · split
      · rfl
      · by_cases h : cap = 3 ∨ (cap = 4 ∧ l.length = 0)
        · rw [if_pos h, if_pos (by rw [hnil]; exact h)]; rfl
        · rw [if_neg h, if_neg (by rw [hnil]; exact h)]; rfl
  have same : ∀ l' : List (BitVec 7), l'.length = l.length → ∀ c : SxTryCall .s7,
      SxTryCall.wanted (k := .s7) l c = l' → c.startsFrom l = l.length →
      (.ok (raw (l'.map e) [], none) : Res (Buf .bytes × Option Error)) =
        c.cappedBytes cap l >>= fun x => .ok (raw (x.1.map e) [], x.2) := by
    intro l' h c hw hs
    unfold SxTryCall.cappedBytes
    rw [hw, hs]
    unfold cappedOutcome
    rw [if_neg (by omega), if_neg (by omega), if_pos (by omega)]
    rfl
  have sp : ∀ (i : Nat) (xs : List (BitVec 7)), spliced l (Bound.included i).first
      ((Bound.excluded i).last l.length) xs = l.take i ++ xs ++ l.drop i := fun i xs => rfl
  have hps : (ops (.tryGrow f)).payloadSize (raw (l.map e) []) = .ok l.length := by
    have := payloadSize_raw (rest := []) (end_notin l)
    rw [List.length_map] at this
    exact this
  cases c with
  | setGroup g => exact same l rfl _ rfl rfl
  | splicePayload d rb re => exact lift d rb re hr.1 hr.2.1 hx
  | insertPayload d i =>
    exact lift d (.included i) (.excluded i) (Nat.le_refl _) hr hx
  | appendPayload d =>
    show (ops (.tryGrow f)).tryAppend _ d = _
    unfold SxOps.tryAppend
    rw [hps]
    simp only [Res.ok_bind]
    refine (lift d (.included l.length) (.excluded l.length) (Nat.le_refl _) (Nat.le_refl _) hx).trans ?_
    rw [sp, List.take_length, List.drop_length, List.append_nil]
    rfl
  | appendByte v =>
    show (ops (.tryGrow f)).tryAppendByte _ v = _
    unfold SxOps.tryAppendByte
    rw [hps]
    simp only [Res.ok_bind]
    refine (lift ⟨[v], 1, some 1⟩ (.included l.length) (.excluded l.length) (Nat.le_refl _)
      (Nat.le_refl _) rfl).trans ?_
    rw [sp, List.take_length, List.drop_length, List.append_nil]
    rfl
  | setPayloadByte i v =>
    have := C45_bytes_set_payload_byte (raw (l.map e) []) l [] (raw_eq l []) i hr v
    rw [← raw_eq] at this
    show (Sxb.setByte (raw (l.map e) []) v i).bind _ = _
    rw [this]
    exact same (l.set i v) (by simp) _ rfl rfl
  | setPayload d =>
    show (ops (.tryGrow f)).trySetPayload _ d = _
    unfold SxOps.trySetPayload
    show (tryResizeGrow (f 8) (raw (l.map e) []) 0 >>= _) = _
    show _ = cappedOutcome cap l.length 0 d.items >>= _
    unfold cappedOutcome
    by_cases h1 : l.length = 1
    · rw [tryResize_panic hf l (n := 0) (by omega) hl, if_pos ⟨rfl, h1⟩]
      rfl
    · have h0 : tryResizeGrow (f 8) (raw (l.map e) []) 0 = .ok (raw [] [], none) := by
        by_cases hz : l = []
        · subst hz
          exact tryResize_same hf ([] : List (BitVec 7)) hl
        · have := List.length_pos_iff.mpr hz
          exact tryResize_down hf h7 l (n := 0) (by omega) hl
      rw [h0, if_neg (by omega), if_neg (by omega)]
      refine (hsplice [] (by simpa using (by omega : 2 ≤ cap)) d (.included 0) (.excluded 0)
        (Nat.le_refl _) (Nat.le_refl _) hx).trans ?_
      have : spliced ([] : List (BitVec 7)) (Bound.included 0).first
          ((Bound.excluded 0).last ([] : List (BitVec 7)).length) d.items = d.items := by
        simp [spliced]
      rw [this, if_neg (by simp)]
      split
      · rfl
      · simp only [and_true]
        split <;> rfl

/-- C62: what any sequence of in-range fallible calls, with iterators that announce how many items
they yield, does to a byte message over a buffer with a capacity that fills with bytes below
`0x80`: exactly what `SxTryCall.cappedBytes` says, panics included. -/
theorem C62_bytes_try_exactly (cap : Nat)
    (f : (w : Nat) → List (BitVec w) → Nat → List (BitVec w) × Bool) (hf : TryGrows (f 8) cap)
    (h7 : TryGrowsSeptets (f 8)) (l : List (BitVec 7)) (hl : l.length + 2 ≤ cap)
    (cs : List (SxTryCall .s7)) (hr : SxTryCall.AllInRangeBytes cap cs l)
    (hx : ∀ c ∈ cs, c.ExactHint) :
    SxTryCall.execAllBytesOn (.tryGrow f) cs (sysexBytes l) =
      SxTryCall.cappedAllBytes cap cs l >>= fun x => .ok (sysexBytes x.1, x.2) := by
  induction cs generalizing l with
  | nil => rfl
  | cons c cs ih =>
    have step := capped_exec hf h7 l hl c hr.1 (hx c (List.mem_cons_self ..))
    rw [raw_eq, List.append_nil] at step
    simp only [SxTryCall.execAllBytesOn, SxTryCall.cappedAllBytes]
    rw [step]
    cases hc : c.cappedBytes cap l with
    | panic => rfl
    | err e => rfl
    | ok x =>
      obtain ⟨l', err⟩ := x
      simp only [Res.ok_bind]
      have hl' : l'.length + 2 ≤ cap := by
        unfold SxTryCall.cappedBytes cappedOutcome at hc
        split at hc
        · cases hc
        · split at hc
          · cases hc
          · split at hc
            · cases hc; assumption
            · split at hc
              · cases hc
              · cases hc; simp; omega
      rw [raw_eq, List.append_nil, ih l' hl' (hr.2 l' err hc)
        (fun c hc => hx c (List.mem_cons_of_mem _ hc))]
      cases SxTryCall.cappedAllBytes cap cs l' <;> rfl

/-- Some calls in a buffer of six bytes, one of which overflows; and one that shortens the payload
by one byte. -/
example : SxTryCall.execAllBytesOn (.tryGrow (tryGrowAll 6 0x55))
      [.setPayload ⟨[1, 2, 3, 4], 4, none⟩, .splicePayload ⟨[], 0, none⟩ (.included 1) (.excluded 3),
        .appendPayload ⟨[5, 6, 7], 3, some 3⟩, .appendByte 9] [0xF0, 0xF7] =
      .ok ([0xF0, 9, 0xF7], [none, none, some .bufferOverflow, none]) ∧
    SxTryCall.execAllBytesOn (.tryGrow (tryGrowAll 6 0x55))
      [.setPayload ⟨[1, 2, 3, 4], 4, none⟩, .splicePayload ⟨[], 0, none⟩ (.included 1) (.excluded 2)]
      [0xF0, 0xF7] = .panic ∧
    SxTryCall.execAllBytesOn (.tryGrow (tryGrowAll 4 0x55)) [.appendPayload ⟨[1, 2, 3], 3, none⟩]
      [0xF0, 0xF7] = .panic := by decide +kernel

example : TryGrows (tryGrowAll 6 0x55 8) 6 ∧ TryGrowsSeptets (tryGrowAll 6 0x55 8) ∧
    SxTryCall.AllInRangeBytes 6 [.appendPayload ⟨[5, 6, 7], 3, some 3⟩, .setPayloadByte 2 9] [1] := by
  refine ⟨tryGrowFilled_grows _ _, ?_, ⟨trivial, fun l' e h => ⟨?_, fun _ _ _ => trivial⟩⟩⟩
  · intro b n i v hi hv
    unfold tryGrowAll tryGrowFilled at hv
    split at hv
    · unfold growFilled at hv
      rw [List.getElem?_append_right (by rw [List.length_take]; omega), List.getElem?_replicate] at hv
      split at hv
      · cases hv; decide
      · cases hv
    · rw [List.getElem?_eq_none hi] at hv; cases hv
  · have : l' = [1, 5, 6, 7] := by
      have e1 : SxTryCall.cappedBytes 6 [1] (.appendPayload ⟨[5, 6, 7], 3, some 3⟩) =
          .ok ([1, 5, 6, 7], none) := by decide +kernel
      rw [e1] at h; cases h; rfl
    subst this
    show 2 < 4
    decide

end Midi2
