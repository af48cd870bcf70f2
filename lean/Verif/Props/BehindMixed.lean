import Verif.Lemmas.BehindMixed

/-!
# C77: messages of all kinds, one behind the other in an array of words
-/

namespace Midi2

open UmpJob

theorem UmpJob.Fits.mono {b s : List (BitVec 32)}
    (h : ∀ w ∈ s, field w 0 4 = 0 ∨ ∃ w' ∈ b, field w 0 4 = field w' 0 4)
    {j : UmpJob} (hj : j.Fits b) : j.Fits s := by
  cases j with
  | fixed d calls =>
    intro hd w hw
    rcases h w hw with h0 | ⟨w', h1, h2⟩
    · rw [h0]; decide
    · rw [h2]; exact hj hd w' h1
  | sysex k g l =>
    intro w hw
    rcases h w hw with h0 | ⟨w', h1, h2⟩
    · rw [h0]; cases k <;> decide
    · rw [h2]; exact hj w' h1
  | text t g c s => trivial
  | name t n s => trivial

/-- C77, a writer of all kinds of messages: messages of fixed size, system exclusive messages with
payloads, and texts, built one behind the other in an array in which nothing looks like a system
exclusive packet of a kind to be written, or like a stream packet if stream messages of fixed size
are to be written.  If there is room for all of them, the front of the array then consists of the
messages, each with what was set in it; the rest is as it was, unless a stream message or a text was
written; and in an array of zeros the system exclusive messages are those of the format, bit for
bit.  If there is not enough room, the result is an overflow error.  With and without debug
assertions, it never panics.  Missing: `FunctionBlockDiscovery`. -/
theorem C77_mixed_writer_partial (dbg : Bool) : ∀ (js : List UmpJob), (∀ j ∈ js, j.Legal) →
    ∀ b : List (BitVec 32), (∀ j ∈ js, j.Fits b) →
    ((js.map size).sum ≤ b.length → ∃ (ms : List (UmpJob × List (BitVec 32)))
        (rest : List (BitVec 32)),
      ms.map Prod.fst = js ∧ (∀ m ∈ ms, m.1.Written m.2 ∧ m.2.length = m.1.size) ∧
      UmpJob.writeAll dbg js b = .ok ((js.map size).sum, (ms.map Prod.snd).flatten ++ rest) ∧
      rest.length = b.length - (js.map size).sum ∧
      ((∀ j ∈ js, j.KeepsRest) → rest = b.drop (js.map size).sum) ∧
      ((∀ j ∈ js, j.KeepsZeros) → (∀ w ∈ b, w = 0) →
        (∀ m ∈ ms, m.1.Exact m.2) ∧ ∀ w ∈ rest, w = 0)) ∧
    (b.length < (js.map size).sum → UmpJob.writeAll dbg js b = .err .bufferOverflow)
  | [], _, b, _ => ⟨fun _ => ⟨[], b, rfl, by simp, rfl, rfl, fun _ => rfl,
      fun _ hz => ⟨by simp, hz⟩⟩,
      fun h => absurd h (Nat.not_lt_zero _)⟩
  | j :: js, hj, b, hq => by
    have htot : ((j :: js).map size).sum = j.size + (js.map size).sum := by simp
    obtain ⟨f1, f2⟩ := j.build_front dbg (hj j List.mem_cons_self) b (hq j List.mem_cons_self)
    by_cases hb : j.size ≤ b.length
    · obtain ⟨m, s, h1, h2, h3, h4, h5, h6, hz7, h7⟩ := f1 hb
      have hstep : UmpJob.writeAll dbg (j :: js) b = (UmpJob.writeAll dbg js s >>= fun r =>
          Res.ok (m.length + r.1, m ++ r.2)) := by
        rw [UmpJob.writeAll, h1, Res.ok_bind]
        simp only [List.drop_left' rfl, List.take_left' rfl]
        rfl
      obtain ⟨i1, i2⟩ := C77_mixed_writer_partial dbg js
        (fun j h => hj j (List.mem_cons_of_mem _ h)) s
        (fun j h => (hq j (List.mem_cons_of_mem _ h)).mono h7)
      rw [htot]
      constructor
      · intro ht
        obtain ⟨ms, rest, k1, k2, k3, k4, k5, k6⟩ := i1 (by omega)
        refine ⟨(j, m) :: ms, rest, by rw [List.map_cons, k1], ?_, ?_,
          by clear i1 i2; omega, fun hns => ?_, fun hns hz => ?_⟩
        · intro x hx
          rcases List.mem_cons.mp hx with rfl | hx
          · exact ⟨h5, h2⟩
          · exact k2 x hx
        · rw [hstep, k3, Res.ok_bind, h2, List.map_cons, List.flatten_cons, List.append_assoc]
        · rw [k5 (fun j h => hns j (List.mem_cons_of_mem _ h)), h4 (hns j List.mem_cons_self),
            List.drop_drop]
        · obtain ⟨r1, r2⟩ := k6 (fun j h => hns j (List.mem_cons_of_mem _ h))
            (hz7 (hns j List.mem_cons_self) hz)
          refine ⟨fun x hx => ?_, r2⟩
          rcases List.mem_cons.mp hx with rfl | hx
          · exact h6 hz
          · exact r1 x hx
      · intro ht
        rw [hstep, i2 (by clear i1 i2; omega)]; rfl
    · refine ⟨fun ht => by omega, fun _ => ?_⟩
      rw [UmpJob.writeAll, f2 (by omega)]
      rfl

/-- A system exclusive message of two packets, a note on, a text of two packets, a name, and an 8
bit system exclusive message. -/
def sampleJobs : List UmpJob :=
  [.sysex .s7 5 [1, 2, 3, 4, 5, 6, 7], .fixed Msg.cv1NoteOn [],
      .text ⟨"ProjectName", 1, 1⟩ 2 (some 3) "hello, world!", .name .endpointName none "hi",
      .sysex .s8 1 [8, 9]]

-- In an array of zeros.
example : UmpJob.writeAll true sampleJobs (List.replicate 24 0) =
    .ok (21, [0x35160102, 0x03040506, 0x35310700, 0, 0x20900000,
      0xD2430101, 0x68656C6C, 0x6F2C2077, 0x6F726C64, 0xD2C30101, 0x21000000, 0, 0,
      0xF0036869, 0, 0, 0, 0x51030008, 0x09000000, 0, 0] ++ [0, 0, 0]) := by decide +kernel

example : ∃ (ms : List (UmpJob × List (BitVec 32))) (rest : List (BitVec 32)),
    ms.map Prod.fst = sampleJobs ∧
    (∀ m ∈ ms, m.1.Written m.2 ∧ m.2.length = m.1.size) ∧ (∀ m ∈ ms, m.1.Exact m.2) ∧
    UmpJob.writeAll true sampleJobs (List.replicate 24 0) =
      .ok (21, (ms.map Prod.snd).flatten ++ rest) := by
  have hz : ∀ w ∈ List.replicate 24 (0 : BitVec 32), w = 0 := fun w hw => List.eq_of_mem_replicate hw
  obtain ⟨h, _⟩ := C77_mixed_writer_partial true sampleJobs (by
      intro j hj
      simp only [sampleJobs, List.mem_cons, List.not_mem_nil, or_false] at hj
      rcases hj with rfl | rfl | rfl | rfl | rfl
      · trivial
      · exact ⟨by decide +kernel, by decide, by simp⟩
      · simp [UmpJob.Legal, FlexText.all]
      · simp [UmpJob.Legal, StreamText.all]
      · trivial) (List.replicate 24 0) (by
      intro j hj
      simp only [sampleJobs, List.mem_cons, List.not_mem_nil, or_false] at hj
      rcases hj with rfl | rfl | rfl | rfl | rfl
      · intro w hw; rw [hz w hw]; decide
      · intro _ w hw; rw [hz w hw]; decide
      · trivial
      · trivial
      · intro w hw; rw [hz w hw]; decide)
  obtain ⟨ms, rest, k1, k2, k3, k4, k5, k6⟩ := h (by decide +kernel)
  rw [show (sampleJobs.map size).sum = 21 by decide +kernel] at k3
  refine ⟨ms, rest, k1, k2, (k6 (fun j hj => ?_) hz).1, k3⟩
  simp only [sampleJobs, List.mem_cons, List.not_mem_nil, or_false] at hj
  rcases hj with rfl | rfl | rfl | rfl | rfl
  · trivial
  · show Msg.cv1NoteOn ∉ Msg.streamAll
    decide +kernel
  · trivial
  · rfl
  · trivial

/-- C77: in an array that is not all zeros a new 8 bit system exclusive message takes over stream
ids from what was there, and then the library rejects it. -/
theorem C77_old_stream_id_violation :
    (UmpJob.sysex .s8 0 (List.replicate 14 1)).build false [0, 0, 0, 0, 0x00007700, 0, 0, 0] =
      .ok ([0x501E0001, 0x01010101, 0x01010101, 0x01010101, 0x50327701, 0, 0, 0],
        [0x501E0001, 0x01010101, 0x01010101, 0x01010101, 0x50327701, 0, 0, 0]) ∧
    Sx.s8.tryFrom [0x501E0001, 0x01010101, 0x01010101, 0x01010101, 0x50327701, 0, 0, 0] =
      .err .invalidData := by decide +kernel

/-- C77: and a new 7 bit system exclusive message takes over top bits: its payload is the one set,
but its octets are not those of the format. -/
theorem C77_old_top_bit_violation :
    (UmpJob.sysex .s7 0 [1, 2, 3, 4, 5, 6, 7]).build false [0, 0, 0x80808080, 0] =
      .ok ([0x30160102, 0x03040506, 0x30318700, 0], [0x30160102, 0x03040506, 0x30318700, 0]) ∧
    Sx.s7.payloadList [0x30160102, 0x03040506, 0x30318700, 0] = .ok [1, 2, 3, 4, 5, 6, 7] ∧
    octets [0x30160102, 0x03040506, 0x30318700, 0] ≠ Sx.s7.layout.wire 0 [1, 2, 3, 4, 5, 6, 7] := by
  decide +kernel

end Midi2
