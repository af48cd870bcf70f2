import Verif.Lemmas.SysexJourney

/-! # C72: journeys of system exclusive messages -/

namespace Midi2

open SxLeg

/-- C72: a `Sysex7` message in words that fills its growable buffer (as every constructor and
every change of the payload leaves it) goes on a journey of calls in range, moves to other buffers,
visits to arrays, sendings and translations.  Nothing panics; when an array is too small the step
reports `BufferOverflow`; otherwise the message shows at the end what the steps make of its group
and a plain list of its bytes. -/
theorem C72_sysex7_ump_partial (dbg : Bool) (b : Buf .ump) (g : BitVec 4) (l : List (BitVec 7))
    (H : Sx.s7.Holds b g l) (hd : Sx.s7.data b = .ok b) (es : List SxLeg)
    (hl : AllLegal ⟨.ump, g, l, b.length⟩ es) :
    (applyAll ⟨.ump, g, l, b.length⟩ es = none →
      execAll dbg es ⟨.ump, b⟩ = .err .bufferOverflow) ∧
    ∀ s, applyAll ⟨.ump, g, l, b.length⟩ es = some s →
      ∃ y, execAll dbg es ⟨.ump, b⟩ = .ok y ∧ s.Of y := by
  obtain ⟨h1, h2⟩ := legs_aboard (dbg := dbg) es (aboard_ump H hd) hl
  refine ⟨h1, fun s hs => ?_⟩
  obtain ⟨y, h3, h4⟩ := h2 s hs
  exact ⟨y, h3, h4.of⟩

/-- C72: the same for a message in bytes. -/
theorem C72_sysex7_bytes_partial (dbg : Bool) (b : Buf .bytes) (l : List (BitVec 7))
    (H : HoldsBytes b l) (hd : Sxb.data b = .ok b) (es : List SxLeg)
    (hl : AllLegal ⟨.bytes, 0, l, b.length⟩ es) :
    (applyAll ⟨.bytes, 0, l, b.length⟩ es = none →
      execAll dbg es ⟨.bytes, b⟩ = .err .bufferOverflow) ∧
    ∀ s, applyAll ⟨.bytes, 0, l, b.length⟩ es = some s →
      ∃ y, execAll dbg es ⟨.bytes, b⟩ = .ok y ∧ s.Of y := by
  obtain ⟨h1, h2⟩ := legs_aboard (dbg := dbg) es (aboard_bytes H hd) hl
  refine ⟨h1, fun s hs => ?_⟩
  obtain ⟨y, h3, h4⟩ := h2 s hs
  exact ⟨y, h3, h4.of⟩

-- Set in words, translated to bytes, through an array of twelve bytes, spliced, sent, back to words.
private def sxTrip : List SxLeg :=
  [.call (.setPayload ⟨[1, 2, 3, 4, 5, 6, 7], 0, none⟩), .call (.setGroup 5), .visit 7, .convert,
   .visit 12, .call (.setPayloadByte 0 9),
   .call (.splicePayload ⟨[0x7F], 1, some 1⟩ (.included 1) (.excluded 4)), .send, .convert,
   .call (.setGroup 3), .rebuffer]

example : Sx.s7.newVec = .ok [0x30000000, 0] ∧ AllLegal ⟨.ump, 0, [], 2⟩ sxTrip ∧
    applyAll ⟨.ump, 0, [], 2⟩ sxTrip = some ⟨.ump, 3, [9, 0x7F, 5, 6, 7], 2⟩ ∧
    execAll true sxTrip ⟨.ump, [0x30000000, 0]⟩ = .ok ⟨.ump, [0x3305097F, 0x05060700]⟩ := by
  refine ⟨by decide +kernel, ?_, ?_, ?_⟩
  · simp [sxTrip, AllLegal, Legal, SxLeg.apply, SxCall.InRange, SxCall.apply, Bound.first, Bound.last,
      spliced, Fmt.other, sysex7Length]
  · decide +kernel
  · decide +kernel

example : Sx.s7.Holds [0x30000000, 0] 0 [] ∧ Sx.s7.data [0x30000000, 0] = .ok [0x30000000, 0] := by
  obtain ⟨b, h, S⟩ := Sx.newVec_strict .s7 true
  have : b = [0x30000000, 0] := by
    have e : Sx.s7.newVec = .ok [0x30000000, 0] := by decide +kernel
    rw [e] at h; cases h; rfl
  subst this
  exact ⟨S.holds, S.data_self⟩

example : execAll true [.convert, .visit 4] ⟨.ump, [0x35030102, 0x03000000]⟩ =
    .err .bufferOverflow ∧ applyAll ⟨.ump, 5, [1, 2, 3], 2⟩ [.convert, .visit 4] = none := by
  exact ⟨by decide +kernel, by decide +kernel⟩

end Midi2
