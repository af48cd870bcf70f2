import Verif.Lemmas.Recorder
import Verif.Props.Link

/-!
# C85: what is recorded with `DeltaClockstamp` messages is played at its times
-/

namespace Midi2

open Rx

/-- C85: a recording of any whole messages that are not `DeltaClockstamp` themselves, with gaps of
any length, is sent and comes in in pieces, perhaps not to the end.  The player gives out exactly
those messages whose recording has come in, each at the sum of the gaps up to it. -/
theorem C85_recording (es : List (Nat × (UmpKind × List (BitVec 32))))
    (hes : ∀ e ∈ es, UmpMessage.tryFrom e.2.2 = .ok e.2 ∧ UmpMessage.data e.2 = .ok e.2.2 ∧
      e.2.1 ≠ .fixed Msg.utilDeltaClockstamp) :
    ∃ ms ps, record es = .ok ms ∧ sendAll ms = .ok ps ∧
      ∀ pieces h now, pieces.flatten <+: ps.flatten → ∃ rs n, line true h pieces = .ok rs ∧
        play now rs = .ok ((timeline now (es.take n)).map fun x => (x.1, inPackets x.2)) ∧
        n ≤ es.length ∧ Recorded (es.take n) pieces.flatten ∧
        (n < es.length → ¬ Recorded (es.take (n + 1)) pieces.flatten) ∧
        (pieces.flatten = ps.flatten → n = es.length) := by
  have hev : ∀ e ∈ es, Event e := fun e he => ⟨⟨(hes e he).1, (hes e he).2.1⟩, (hes e he).2.2⟩
  obtain ⟨ms, h1, h2⟩ := record_ok hev
  obtain ⟨ps, h3, h4⟩ := C78_line ms h2
  refine ⟨ms, ps, h1, h3, fun pieces h now hp => ?_⟩
  obtain ⟨t, ⟨u, p, a1, a2, a3, a4⟩, e⟩ := h4 pieces h hp
  rw [a1] at h1
  obtain ⟨n, a, k1, k2, k3, k4, k5, k6⟩ := record_front hev h1 now
  refine ⟨_, n, e, k4, k1, ?_, fun hn => ?_, fun hall => k6 ?_⟩
  · obtain ⟨b, rfl⟩ := k3
    obtain ⟨x, y, q1, q2, rfl⟩ := sendAll_append a2
    refine ⟨a, x, k2, q1, List.IsPrefix.trans ?_ a3⟩
    rw [List.flatten_append]; exact List.prefix_append _ _
  · rintro ⟨c', pc, r1, r2, r3⟩
    obtain ⟨c, m, u', q1, q2, q3⟩ := k5 hn
    obtain rfl := Res.ok.inj (r1.symm.trans q1)
    obtain ⟨d, rfl⟩ := q3
    obtain ⟨x, y, s1, s2, rfl⟩ := sendAll_append r2
    obtain ⟨q, w1, w2⟩ := a4 m u' q2
    obtain rfl := Res.ok.inj (s1.symm.trans w1)
    refine w2 (List.IsPrefix.trans ?_ r3)
    rw [List.flatten_append]; exact List.prefix_append _ _
  · cases u with
    | nil => rfl
    | cons m u' =>
      obtain ⟨q, w1, w2⟩ := a4 m u' rfl
      refine absurd ?_ w2
      have h3 := h3
      rw [a1, show t ++ m :: u' = (t ++ [m]) ++ u' by simp] at h3
      obtain ⟨x, y, s1, s2, rfl⟩ := sendAll_append h3
      obtain rfl := Res.ok.inj (s1.symm.trans w1)
      rw [hall, List.flatten_append]; exact List.prefix_append _ _

/-- C85: if all of the recording comes in, everything is played. -/
theorem C85_all (es : List (Nat × (UmpKind × List (BitVec 32))))
    (hes : ∀ e ∈ es, UmpMessage.tryFrom e.2.2 = .ok e.2 ∧ UmpMessage.data e.2 = .ok e.2.2 ∧
      e.2.1 ≠ .fixed Msg.utilDeltaClockstamp) :
    ∃ ms ps, record es = .ok ms ∧ sendAll ms = .ok ps ∧
      ∀ pieces h now, pieces.flatten = ps.flatten → ∃ rs, line true h pieces = .ok rs ∧
        play now rs = .ok ((timeline now es).map fun x => (x.1, inPackets x.2)) := by
  obtain ⟨ms, ps, h1, h2, h3⟩ := C85_recording es hes
  refine ⟨ms, ps, h1, h2, fun pieces h now hp => ?_⟩
  obtain ⟨rs, n, a1, a2, -, -, -, a3⟩ := h3 pieces h now (by rw [hp]; exact List.prefix_refl _)
  rw [a3 hp, List.take_length] at a2
  exact ⟨rs, a1, a2⟩

/-- C85: the time of each message is the sum of the gaps before it. -/
theorem C85_times (es : List (Nat × (UmpKind × List (BitVec 32)))) (now : Nat) :
    (timeline now es).map Prod.snd = es.map Prod.snd ∧
    ∀ i, i < es.length →
      ((timeline now es)[i]?).map Prod.fst = some (now + ((es.take (i + 1)).map Prod.fst).sum) := by
  induction es generalizing now with
  | nil => exact ⟨rfl, fun i h => absurd h (Nat.not_lt_zero _)⟩
  | cons e es ih =>
    obtain ⟨h1, h2⟩ := ih (now + e.1)
    refine ⟨by rw [timeline, List.map_cons, h1]; rfl, fun i hi => ?_⟩
    cases i with
    | zero => simp [timeline]
    | succ i =>
      rw [timeline, List.getElem?_cons_succ, h2 i (Nat.lt_of_succ_lt_succ hi), List.take_succ_cons,
        List.map_cons, List.sum_cons, Nat.add_assoc]

/-- C85: a gap takes one `DeltaClockstamp`, and one more for every 1048575 ticks; each is a whole
message that holds its ticks. -/
theorem C85_stamps (gap : Nat) : ∃ s ts, stamps gap = .ok s ∧
    s.length = gap / 1048575 + 1 ∧ Gateway.Pairs (fun (t : BitVec 20) m =>
      m.1 = .fixed Msg.utilDeltaClockstamp ∧ UmpMessage.tryFrom m.2 = .ok m ∧
      UmpMessage.data m = .ok m.2 ∧ Fld.u20Data.read .ump m.2 = .ok t) ts s ∧
    (ts.map BitVec.toNat).sum = gap := by
  obtain ⟨s, h1, ts, h2, h3⟩ := stamps_ok gap
  refine ⟨s, ts, h1, ?_, ?_, h3⟩
  · have key : ∀ {as : List (BitVec 20)} {bs}, Gateway.each stamp as = .ok bs → bs.length = as.length := by
      intro as
      induction as with
      | nil => intro bs h; cases h; rfl
      | cons a as ih =>
        intro bs h
        obtain ⟨m, hm, -⟩ := stamp_ok a
        rw [Gateway.each, hm, Res.ok_bind] at h
        cases hr : Gateway.each stamp as with
        | ok cs => rw [hr] at h; cases h; exact congrArg (· + 1) (ih hr)
        | err e => rw [hr] at h; cases h
        | panic => rw [hr] at h; cases h
    rw [key h1]; simp
  · clear h1 h3
    induction h2 with
    | nil => exact .nil
    | cons a _ ih => exact .cons ⟨a.kind, a.whole.1, a.whole.2, a.ticks⟩ ih

-- C85: a note on at once, a system exclusive message of two packets a while later, a note off more
-- than 2^20 ticks later; the words come in in two pieces, the last word is missing.
example :
    let es : List (Nat × (UmpKind × List (BitVec 32))) :=
      [(0, (.fixed Msg.cv2NoteOn, [0x40903C00, 0x80000000])),
       (480, (.sysex .s7, [0x30160102, 0x03040506, 0x30310700, 0])),
       (1048576, (.fixed Msg.cv2NoteOff, [0x40803C00, 0]))]
    let ws : List (BitVec 32) := [0x00400000, 0x40903C00, 0x80000000, 0x004001E0,
      0x30160102, 0x03040506, 0x30310700, 0, 0x004FFFFF, 0x00400001, 0x40803C00, 0]
    (∀ e ∈ es, UmpMessage.tryFrom e.2.2 = .ok e.2 ∧ UmpMessage.data e.2 = .ok e.2.2 ∧
      e.2.1 ≠ .fixed Msg.utilDeltaClockstamp) ∧
    (record es >>= sendAll >>= fun ps => .ok ps.flatten) = .ok ws ∧
    (line true (fun _ => []) [ws.take 5, (ws.drop 5).take 6] >>= play 0) =
      .ok [(0, (.fixed Msg.cv2NoteOn, [0x40903C00, 0x80000000])),
       (480, (.sysex .s7, [0x30160102, 0x03040506, 0x30310700, 0]))] ∧
    timeline 0 es = [(0, (.fixed Msg.cv2NoteOn, [0x40903C00, 0x80000000])),
       (480, (.sysex .s7, [0x30160102, 0x03040506, 0x30310700, 0])),
       (1049056, (.fixed Msg.cv2NoteOff, [0x40803C00, 0]))] := by
  decide +kernel

end Midi2
