import Verif.Lemmas.SysexArrays

/-! # C72: system exclusive messages in arrays and out again -/

namespace Midi2

open SxTrip

/-- C72: a `Sysex7` or `Sysex8` message in words that fills its growable buffer (as every
constructor and every change of the payload leaves it) goes on a journey of calls in range, moves
to other buffers, visits to arrays where fallible calls in range are made on it, and sendings; a
`Sysex8` message has stream id zero in all its packets, as they come from the constructors.
Nothing panics; when an array is too small to move there the step reports `BufferOverflow`;
otherwise the fallible calls return what they should, every sending is accepted, and the message
shows at the end what the steps make of its group and a plain list of its bytes. -/
theorem C72_sysex_arrays_partial (k : Sx) (dbg : Bool) (b : Buf .ump) (g : BitVec 4)
    (l : List k.Byte) (H : k.Holds b g l) (hd : k.data b = .ok b)
    (hz : k = .s8 → ∀ j, 4 * j < b.length → fieldAt b (4 * j) 16 8 = some 0)
    (ts : List (SxTrip k)) (hl : AllLegal ⟨g, l, b.length⟩ ts) :
    (applyAll ⟨g, l, b.length⟩ ts = none → execAll dbg ts b = .err .bufferOverflow) ∧
    ∀ s es, applyAll ⟨g, l, b.length⟩ ts = some (s, es) →
      ∃ b', execAll dbg ts b = .ok (b', es) ∧ k.Holds b' s.group s.payload ∧
        b'.length = s.length := by
  obtain ⟨h1, h2⟩ := Sx.trips_afloat (dbg := dbg) ts (Sx.afloat_start H hd hz) hl
  refine ⟨h1, fun s es hs => ?_⟩
  obtain ⟨b', h3, h4⟩ := h2 s es hs
  exact ⟨b', h3, h4.packed.holds, h4.len⟩

private instance {k : Sx} (l : List k.Byte) : (c : SxCall k) → Decidable (c.InRange l)
  | .splicePayload _ _ _ => inferInstanceAs (Decidable (_ ∧ _))
  | .insertPayload _ i => inferInstanceAs (Decidable (i ≤ _))
  | .setPayloadByte i _ => inferInstanceAs (Decidable (i < _))
  | .setGroup _ | .setPayload _ | .appendPayload _ | .appendByte _ => isTrue trivial

private instance {k : Sx} (l : List k.Byte) : (c : SxTryCall k) → Decidable (c.InRange l)
  | .splicePayload _ _ _ => inferInstanceAs (Decidable (_ ∧ _ ∧ (_ ∨ _)))
  | .insertPayload _ i => inferInstanceAs (Decidable (i ≤ _))
  | .setPayloadByte i _ => inferInstanceAs (Decidable (i < _))
  | .setGroup _ | .setPayload _ | .appendPayload _ | .appendByte _ => isTrue trivial

private def tryInRange {k : Sx} (n : Nat) : (cs : List (SxTryCall k)) → (s : BitVec 4 × List k.Byte) →
    Decidable (SxTryCall.AllInRange n cs s)
  | [], _ => isTrue trivial
  | c :: cs, s => @instDecidableAnd _ _ _ (tryInRange n cs (c.apply n s).1)

private instance {k : Sx} (s : SxView k) : (t : SxTrip k) → Decidable (t.Legal s)
  | .call c => inferInstanceAs (Decidable (c.InRange s.payload))
  | .array n cs =>
    have := tryInRange n cs (s.group, s.payload)
    inferInstanceAs (Decidable (s.length ≤ n → _))
  | .rebuffer | .send => isTrue trivial

private def tripsLegal {k : Sx} : (ts : List (SxTrip k)) → (s : SxView k) → Decidable (AllLegal s ts)
  | [], _ => isTrue trivial
  | t :: ts, s => @instDecidableAnd _ _ _ <|
    match h : SxTrip.apply s t with
    | none => isTrue (fun _ _ e => nomatch e)
    | some (s1, es1) =>
      match tripsLegal ts s1 with
      | isTrue a => isTrue (fun s' es e => by cases e; exact a)
      | isFalse a => isFalse (fun f => a (f s1 es1 rfl))

private instance {k : Sx} (ts : List (SxTrip k)) (s : SxView k) : Decidable (AllLegal s ts) :=
  tripsLegal ts s

-- A sysex8 message from the constructor: filled in a vector, changed in an array of nine words
-- where a third packet does not fit, sent, moved to a larger array, and spliced again.
private def s8Trip : List (SxTrip .s8) :=
  [.call (.setPayload ⟨[1, 2, 3, 4, 5, 6, 7, 8, 9, 10, 11, 12, 13, 14], 0, none⟩),
   .array 9 [.setGroup 7, .insertPayload ⟨[0xFF, 0xFE], 2, some 2⟩ 1,
     .splicePayload ⟨[], 0, some 0⟩ (.included 3) (.excluded 13),
     .appendPayload ⟨List.replicate 25 1, 25, some 25⟩, .appendByte 0x81],
   .send,
   .array 14 [.appendPayload ⟨[2, 3], 0, none⟩],
   .call (.setPayloadByte 1 0x90),
   .rebuffer]

example : Sx.s8.newVec = .ok [0x50010000, 0, 0, 0] ∧ AllLegal ⟨0, [], 4⟩ s8Trip ∧
    ((applyAll ⟨0, [], 4⟩ s8Trip).map fun x =>
        ((x.1.group, x.1.payload, x.1.length, x.2) :
          BitVec 4 × List (BitVec 8) × Nat × List (Option Error))) =
      some (7, [0x81, 0x90, 3], 14, [none, none, none, some .bufferOverflow, none, none]) ∧
    execAll true s8Trip [0x50010000, 0, 0, 0] =
      .ok ([0x57040081, 0x90030C0D, 0x0E010101, 0x01010101] ++ List.replicate 10 0,
        [none, none, none, some .bufferOverflow, none, none]) := by
  refine ⟨by decide +kernel, by decide +kernel, by decide +kernel, by decide +kernel⟩

-- The constructor's message meets the hypotheses.
example : Sx.s8.Holds [0x50010000, 0, 0, 0] 0 [] ∧
    Sx.s8.data [0x50010000, 0, 0, 0] = .ok [0x50010000, 0, 0, 0] ∧
    ∀ j, 4 * j < 4 → fieldAt [0x50010000, 0, 0, 0] (4 * j) 16 8 = some 0 := by
  obtain ⟨b, h, S⟩ := Sx.newVec_strict .s8 true
  have : b = [0x50010000, 0, 0, 0] := by
    have e : Sx.s8.newVec = .ok [0x50010000, 0, 0, 0] := by decide +kernel
    rw [e] at h; cases h; rfl
  subst this
  refine ⟨S.holds, S.data_self, fun j hj => ?_⟩
  have : j = 0 := by omega
  subst this
  decide

end Midi2
