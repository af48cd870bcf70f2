import Verif.Spec.BehindBytes
import Verif.Props.Behind
import Verif.Props.StreamsBytes

/-!
# C77: MIDI 1.0 messages in a part of a larger array of bytes
-/

namespace Midi2

/-- C77, system exclusive messages over bytes: building a message with any payload at the front of
an array leaves every byte behind it as it was; without enough room the result is an overflow
error. -/
theorem C77_sysex_bytes (l : List (BitVec 7)) (b : List (BitVec 8)) :
    (l.length + 2 ≤ b.length →
      (ByteJob.sysex l).build b = .ok (sysexBytes l ++ b.drop (l.length + 2), sysexBytes l)) ∧
    (b.length < l.length + 2 → (ByteJob.sysex l).build b = .err .bufferOverflow) := by
  obtain ⟨_, _, n1, n2, _⟩ := C08_sysex7_bytes b 0
  by_cases h2 : 2 ≤ b.length
  · have hn := n2 h2
    have hlen : (b.drop 2).length = b.length - 2 := List.length_drop
    have key := Sxb.trySetPayload_exact (p := []) (rest := b.drop 2) (by simp)
      ⟨l, l.length, some l.length⟩ (by unfold Src.estimate; rfl)
    rw [show Sxb.raw [] (b.drop 2) = sysexBytes [] ++ b.drop 2 from raw_eq [] _] at key
    simp only [List.length_nil, Nat.zero_add, hlen] at key
    constructor
    · intro hl
      obtain ⟨r, e1, _, e3⟩ := key.1 (by clear key; omega)
      rw [raw_eq, e3 trivial, List.drop_drop, Nat.add_comm 2 l.length] at e1
      simp only [ByteJob.build, hn, Res.ok_bind, e1, (holdsBytes l _).data]
      rfl
    · intro hl
      obtain ⟨r, e1, _⟩ := key.2 (by clear key; omega)
      simp only [ByteJob.build, hn, Res.ok_bind, e1]
  · refine ⟨fun h => by omega, fun _ => ?_⟩
    simp only [ByteJob.build, n1 (show b.length < 2 by omega)]
    rfl

/-- One message. -/
theorem ByteJob.build_exact (j : ByteJob) (hj : j.Legal) (b : List (BitVec 8)) :
    (j.size ≤ b.length → ∃ m, j.build b = .ok (m ++ b.drop j.size, m) ∧ m.length = j.size ∧
      j.Written m ∧ IsBytesMessage j.kind m) ∧
    (b.length < j.size → j.build b = .err .bufferOverflow) := by
  cases j with
  | sysex l =>
    refine ⟨fun h => ⟨sysexBytes l, (C77_sysex_bytes l b).1 h, sysexBytes_length l,
      ⟨rfl, holdsBytes_nil l⟩, ?_⟩, (C77_sysex_bytes l b).2⟩
    refine ⟨show ∃ lo hi, (BytesKind.sysex7, lo, hi) ∈ bytesTable from ⟨_, _, by simp [bytesTable]; exact ⟨rfl, rfl⟩⟩, ?_, (holdsBytes_nil l).data⟩
    have := sysexBytes_accepted l []
    rw [List.append_nil] at this
    exact this
  | fixed d calls =>
    obtain ⟨hd, hn, hc⟩ := hj
    constructor
    · intro hb
      obtain ⟨m, e1, e2, e3⟩ := C77_fixed_bytes_partial hd hn b hb calls hc
      obtain ⟨m', y, g1, g2, g3, g4⟩ := C54_fixed_bytes_partial hd hn calls hc
      rw [e1] at g1; cases g1
      have hwhole : d.data .bytes m = .ok m := by
        rw [data_ok (Nat.le_of_eq e2.symm), ← e2, List.take_length]
      rw [hwhole] at g2; cases g2
      obtain ⟨x, hx, hx'⟩ := bind_inv e3
      refine ⟨m, ?_, e2, ⟨e1, g4⟩, ?_⟩
      · have hdat : d.data .bytes (m ++ b.drop (d.minSize .bytes)) = .ok m := by
          rw [data_ok (show d.minSize .bytes ≤ _ by rw [List.length_append]; omega),
            List.take_left' e2]
        simp only [ByteJob.build, hx, Res.ok_bind, hx', hdat]
        rfl
      · obtain ⟨lo, hi, he⟩ := fixed_in_bytes_table hd
        exact ⟨⟨lo, hi, he⟩, ((C11_bytes_dispatch he m m).1.mp g3).1, hwhole⟩
    · intro hb
      simp only [ByteJob.build, (C08_fixed_too_short d .bytes b 0).1 hb]
      rfl

/-- C77, a writer of MIDI 1.0 messages: any messages built one behind the other in an array of any
content, each by `try_new_with_buffer` on the rest of the array and by setters.  If there is room
for all of them, the front of the array then consists of exactly these messages, all the rest is as
it was, and a reader of the front gets the messages back one by one; otherwise the result is an
overflow error.  (But for song position pointer, see the violation.) -/
theorem C77_bytes_writer_partial : ∀ (js : List ByteJob), (∀ j ∈ js, j.Legal) →
    ∀ b : List (BitVec 8),
    ((js.map ByteJob.size).sum ≤ b.length → ∃ ms : List (ByteJob × List (BitVec 8)),
      ms.map Prod.fst = js ∧ (∀ m ∈ ms, m.1.Written m.2) ∧
      ByteJob.writeAll js b = .ok ((js.map ByteJob.size).sum,
        (ms.map Prod.snd).flatten ++ b.drop (js.map ByteJob.size).sum) ∧
      (∀ m ∈ ms, IsBytesMessage m.1.kind m.2) ∧
      (ms.map Prod.snd).flatten.length = (js.map ByteJob.size).sum ∧
      readBytes js.length (ms.map Prod.snd).flatten = .ok (ms.map fun m => (m.1.kind, m.2))) ∧
    (b.length < (js.map ByteJob.size).sum → ByteJob.writeAll js b = .err .bufferOverflow) := by
  have key : ∀ (js : List ByteJob), (∀ j ∈ js, j.Legal) → ∀ b : List (BitVec 8),
      ((js.map ByteJob.size).sum ≤ b.length → ∃ ms : List (ByteJob × List (BitVec 8)),
        ms.map Prod.fst = js ∧ (∀ m ∈ ms, m.1.Written m.2) ∧
        ByteJob.writeAll js b = .ok ((js.map ByteJob.size).sum,
          (ms.map Prod.snd).flatten ++ b.drop (js.map ByteJob.size).sum) ∧
        (∀ m ∈ ms, IsBytesMessage m.1.kind m.2) ∧
        (ms.map Prod.snd).flatten.length = (js.map ByteJob.size).sum) ∧
      (b.length < (js.map ByteJob.size).sum → ByteJob.writeAll js b = .err .bufferOverflow) := by
    intro js
    induction js with
    | nil => exact fun _ b => ⟨fun _ => ⟨[], rfl, by simp, rfl, by simp, rfl⟩,
        fun h => absurd h (Nat.not_lt_zero _)⟩
    | cons j js ih =>
      intro hj b
      rw [List.map_cons, List.sum_cons]
      obtain ⟨b1, b2⟩ := j.build_exact (hj j List.mem_cons_self) b
      by_cases hb : j.size ≤ b.length
      · obtain ⟨m, e1, e2, e3, e4⟩ := b1 hb
        obtain ⟨i1, i2⟩ := ih (fun j h => hj j (List.mem_cons_of_mem _ h)) (b.drop j.size)
        rw [List.length_drop] at i1 i2
        have hstep : ByteJob.writeAll (j :: js) b = (ByteJob.writeAll js (b.drop j.size) >>= fun r =>
            Res.ok (m.length + r.1, m ++ r.2)) := by
          rw [ByteJob.writeAll, e1, Res.ok_bind]
          simp only [List.drop_left, List.take_left]
          rfl
        constructor
        · intro ht
          obtain ⟨ms, k1, k2, k3, k4, k5⟩ := i1 (by clear i1 b1; omega)
          refine ⟨(j, m) :: ms, by rw [List.map_cons, k1], ?_, ?_, ?_, ?_⟩
          · intro x hx
            rcases List.mem_cons.mp hx with rfl | hx
            · exact e3
            · exact k2 x hx
          · rw [hstep, k3, Res.ok_bind, List.map_cons, List.flatten_cons, e2, List.drop_drop,
              List.append_assoc]
          · intro x hx
            rcases List.mem_cons.mp hx with rfl | hx
            · exact e4
            · exact k4 x hx
          · rw [List.map_cons, List.flatten_cons, List.length_append, k5]
            show m.length + _ = _
            rw [e2]
        · intro ht
          rw [hstep, i2 (by clear i1 b1; omega)]; rfl
      · refine ⟨fun h => by clear b1; omega, fun _ => ?_⟩
        rw [ByteJob.writeAll, b2 (by clear b1; omega)]; rfl
  intro js hj b
  obtain ⟨k1, k2⟩ := key js hj b
  refine ⟨fun h => ?_, k2⟩
  obtain ⟨ms, h1, h2, h3, h4, h5⟩ := k1 h
  refine ⟨ms, h1, h2, h3, h4, h5, ?_⟩
  have := C48_bytes_stream (ms.map fun m => (m.1.kind, m.2)) (by
    intro x hx
    obtain ⟨a, ha, rfl⟩ := List.mem_map.mp hx
    exact h4 a ha) js.length (by rw [List.length_map, ← h1, List.length_map]; exact Nat.le_refl _)
  rw [List.map_map] at this
  exact this

-- A note on, a system exclusive message and a timing clock in an array of 13 bytes of any content.
example (b : List (BitVec 8)) (hb : b.length = 13) :
    ∃ ms : List (ByteJob × List (BitVec 8)),
      ByteJob.writeAll [.fixed Msg.cv1NoteOn
          [⟨"channel", .hybrid .u4 ⟨0x0F, 0, 0⟩ ⟨0x000F0000, 0, 0, 0⟩, (3 : BitVec 4)⟩],
        .sysex [0x7E, 0x7F, 6, 1], .fixed Msg.sysTimingClock []] b =
        .ok (10, (ms.map Prod.snd).flatten ++ b.drop 10) ∧
      readBytes 3 (ms.map Prod.snd).flatten = .ok (ms.map fun m => (m.1.kind, m.2)) := by
  obtain ⟨h, _⟩ := C77_bytes_writer_partial [.fixed Msg.cv1NoteOn
          [⟨"channel", .hybrid .u4 ⟨0x0F, 0, 0⟩ ⟨0x000F0000, 0, 0, 0⟩, (3 : BitVec 4)⟩],
        .sysex [0x7E, 0x7F, 6, 1], .fixed Msg.sysTimingClock []] (by
      intro j hj
      simp only [List.mem_cons, List.not_mem_nil, or_false] at hj
      rcases hj with rfl | rfl | rfl
      · refine ⟨by simp [Msg.hybridAll, Msg.cv1All], by decide, ?_⟩
        intro c hc
        simp only [List.mem_cons, List.not_mem_nil, or_false] at hc
        rcases hc with rfl
        exact ⟨by simp [Msg.cv1NoteOn], by decide, rfl⟩
      · trivial
      · exact ⟨by simp [Msg.hybridAll, Msg.sysAll], by decide, by simp⟩) b
  obtain ⟨ms, _, _, h3, _, _, h6⟩ := h (by rw [hb]; decide)
  exact ⟨ms, h3, h6⟩

example : ByteJob.writeAll [.sysex [1, 2], .sysex [3]] [9, 9, 9, 9, 9, 9, 9, 9] =
    .ok (7, [0xF0, 1, 2, 0xF7, 0xF0, 3, 0xF7, 9]) := by decide +kernel

end Midi2
