import Verif.Lemmas.Behind
import Verif.Props.BytesExact
import Verif.Model.Packet

/-!
# C77: what building a message at the front of an array does to the rest of it
-/

namespace Midi2

/-- C77, setters: no setter of any fixed-size message touches the words behind the message,
whatever they are. -/
theorem C77_setters {d : MsgDesc} (hd : d ∈ Msg.all) (b : Buf .ump) (hb : d.umpSize ≤ b.length)
    (calls : List SetCall) (hc : ∀ c ∈ calls, c.legal d .ump) :
    ∃ x, runSetters .ump calls b = .ok x ∧ x.length = b.length ∧
      x.drop d.umpSize = b.drop d.umpSize := by
  have hn := of_decide_eq_true (List.all_eq_true.mp table_names d hd)
  have hl : (b.take d.umpSize).length = d.umpSize := List.length_take_of_le hb
  obtain ⟨p, e1, e2, _⟩ := setter_history hn calls
    (good_ump hd (show d.minSize .ump ≤ _ from Nat.le_of_eq hl.symm)) hc
  obtain ⟨e3, _⟩ := runSetters_app calls (fun c h => (hc c h).2.1) e1 (b.drop d.umpSize)
  rw [List.take_append_drop] at e3
  refine ⟨_, e3, ?_, ?_⟩
  · rw [List.length_append, e2, hl, List.length_drop]; omega
  · rw [List.drop_left' (by omega)]

/-- The words a message is built in, and what becomes of the others. -/
theorem behind_front {d : MsgDesc} (hd : d ∈ Msg.all)
    (hn : d.name ≠ "ump_stream::FunctionBlockDiscovery") (b : Buf .ump) (hb : d.umpSize ≤ b.length)
    (hq : d ∈ Msg.streamAll → Quiet (b.drop 4)) (calls : List SetCall)
    (hc : ∀ c ∈ calls, c.legal d .ump) :
    ∃ m s p, (d.newVec .ump >>= runSetters .ump calls) = .ok m ∧ m.length = d.umpSize ∧
      d.tryNewWithBuffer .ump b = .ok (p ++ s) ∧ p.length = d.umpSize ∧
      runSetters .ump calls (p ++ s) = .ok (m ++ s) ∧ s.length = b.length - d.umpSize ∧
      (d ∉ Msg.streamAll → s = b.drop d.umpSize) ∧
      UmpMessage.tryFrom m = .ok (.fixed d, m) ∧ Holding .ump d calls m := by
  have hsmall := List.all_eq_true.mp (List.all_eq_true.mp table_smallStatus d hd)
  have hstream : ∀ d ∈ Msg.all, d ∉ Msg.streamAll → ∀ q ∈ d.props, q.2.walks = false := by
    decide +kernel
  have hfour : ∀ d ∈ Msg.streamAll, d.name ≠ "ump_stream::FunctionBlockDiscovery" →
      d.umpSize = 4 := by decide +kernel
  obtain ⟨p, h1, _, hp, _, _⟩ := C08_vec_ump_partial hd hn []
  rw [newVec_init] at h1
  have hw : (∃ q ∈ d.props, q.2.walks = true) →
      (List.replicate (d.minSize .ump) (0 : BitVec 32)).length = 4 ∧ Quiet (b.drop d.umpSize) := by
    rintro ⟨q, hq1, hq2⟩
    have hs : d ∈ Msg.streamAll := by
      apply Decidable.byContradiction
      intro h
      rw [hstream d hd h q hq1] at hq2; cases hq2
    have h4 := hfour d hs hn
    refine ⟨by rw [List.length_replicate]; exact h4, by rw [h4]; exact hq hs⟩
  obtain ⟨s, i1, i2, i3, i4⟩ := initProps_app d.props hsmall hw h1
  obtain ⟨m, y, g1, g2, g3, g4⟩ := C54_fixed_ump_partial hd hn calls hc
  have g1' := g1
  rw [newVec_init, h1] at g1'
  obtain ⟨r1, r2⟩ := runSetters_app calls (fun c h => (hc c h).2.1) g1' s
  have hml : m.length = d.umpSize := by rw [r2, hp]
  have hym : y = m := by
    rw [data_ok (d := d) (m := .ump) (b := m) (Nat.le_of_eq hml.symm)] at g2
    cases g2
    show m.take d.umpSize = m
    rw [← hml, List.take_length]
  subst hym
  refine ⟨y, s, p, g1, hml, ?_, hp, r1, ?_, fun h => i4 (hstream d hd h), g3, g4⟩
  · rw [tryNewWithBuffer_init (show d.minSize .ump ≤ b.length from hb)]; exact i1
  · rw [i2, List.length_drop]

/-- C77, fixed-size messages which are not stream messages: built at the front of an array and
filled by setters, the message consists of exactly the words that `new()` and the same setters give
on a `Vec`, and every word behind it is what it was before. -/
theorem C77_fixed {d : MsgDesc} (hd : d ∈ Msg.all) (hs : d ∉ Msg.streamAll) (b : Buf .ump)
    (hb : d.umpSize ≤ b.length) (calls : List SetCall) (hc : ∀ c ∈ calls, c.legal d .ump) :
    ∃ m, (d.newVec .ump >>= runSetters .ump calls) = .ok m ∧ m.length = d.umpSize ∧
      (d.tryNewWithBuffer .ump b >>= runSetters .ump calls) = .ok (m ++ b.drop d.umpSize) := by
  have hn : ∀ d ∈ Msg.all, d ∉ Msg.streamAll → d.name ≠ "ump_stream::FunctionBlockDiscovery" := by
    decide +kernel
  obtain ⟨m, s, p, h1, h2, h3, _, h5, _, h7, _⟩ :=
    behind_front hd (hn d hd hs) b hb (fun h => absurd h hs) calls hc
  refine ⟨m, h1, h2, ?_⟩
  rw [h3, ← h7 hs]; exact h5

-- A note on with its setters in front of words that look like a message.
example (w : BitVec 32) : ∃ m, (Msg.cv2NoteOn.newVec .ump >>= runSetters .ump
      [⟨"channel", .schema .u4 ⟨0x000F0000, 0, 0, 0⟩, (3 : BitVec 4)⟩]) = .ok m ∧
    m.length = 2 ∧ (Msg.cv2NoteOn.tryNewWithBuffer .ump [1, 2, w, 0xF0000101] >>= runSetters .ump
      [⟨"channel", .schema .u4 ⟨0x000F0000, 0, 0, 0⟩, (3 : BitVec 4)⟩]) =
        .ok (m ++ [w, 0xF0000101]) :=
  C77_fixed (d := Msg.cv2NoteOn) (by decide +kernel) (by decide +kernel) [1, 2, w, 0xF0000101]
    (show 2 ≤ 4 by omega) _ (by
      intro c hc
      simp only [List.mem_cons, List.not_mem_nil, or_false] at hc
      rcases hc with rfl
      exact ⟨by simp [Msg.cv2NoteOn], by decide, rfl⟩)

/-- C77, fixed-size messages over bytes, but song position pointer: the same. -/
theorem C77_fixed_bytes_partial {d : MsgDesc} (hd : d ∈ Msg.hybridAll)
    (hn : d.name ≠ "system_common::SongPositionPointer") (b : Buf .bytes)
    (hb : d.minSize .bytes ≤ b.length) (calls : List SetCall) (hc : ∀ c ∈ calls, c.legal d .bytes) :
    ∃ m, (d.newVec .bytes >>= runSetters .bytes calls) = .ok m ∧ m.length = d.minSize .bytes ∧
      (d.tryNewWithBuffer .bytes b >>= runSetters .bytes calls) =
        .ok (m ++ b.drop (d.minSize .bytes)) := by
  obtain ⟨p, h1, _, hp, _, _⟩ := C08_vec_bytes_partial hd hn []
  rw [newVec_init] at h1
  obtain ⟨i1, i2⟩ := initProps_app8 d.props h1 (b.drop (d.minSize .bytes))
  obtain ⟨m, y, g1, _⟩ := C54_fixed_bytes_partial hd hn calls hc
  have g1' := g1
  rw [newVec_init, h1] at g1'
  obtain ⟨r1, r2⟩ := runSetters_app8 calls g1' (b.drop (d.minSize .bytes))
  refine ⟨m, g1, by rw [r2, hp], ?_⟩
  rw [tryNewWithBuffer_init hb, show initProps .bytes d.props _ = _ from i1]; exact r1

/-- C77, the exception over bytes: `data()` of a song position pointer is two bytes long, but
building it resets the byte behind, and its setter writes there. -/
theorem C77_song_position_pointer_violation :
    Msg.sysSongPositionPointer.tryNewWithBuffer .bytes [1, 2, 0x55, 0x66] = .ok [0xF2, 0, 0, 0x66] ∧
    Msg.sysSongPositionPointer.data .bytes [0xF2, 0, 0, 0x66] = .ok [0xF2, 0] := by
  decide +kernel

/-- C77, stream messages, completely: building one at the front of an array puts its status into
the first word of every further group of four words, whatever that is, and marks the stream packets
which follow directly as its continuation; nothing else changes (`StreamBehind`). -/
theorem C77_stream_exactly {d : MsgDesc} (hd : d ∈ Msg.streamAll) (b : Buf .ump)
    (hb : 4 ≤ b.length) :
    ∃ x n status, d.tryNewWithBuffer .ump b = .ok x ∧ RunBehind 4 15 b n ∧
      StreamBehind d.umpSize status n b x ∧ fieldAt x 0 6 10 = some status := by
  have hall : d ∈ Msg.all := by
    have : ∀ d ∈ Msg.streamAll, d ∈ Msg.all := by decide +kernel
    exact this d hd
  obtain ⟨t, rest, hp, ht, hacc, hle, hpos, hroom⟩ := stream_props d hd
  obtain ⟨x, hx, hxl, _⟩ := (C08_fixed_ump_exactly hall b).2.2 (by omega)
  have hx' := hx
  rw [tryNewWithBuffer_init (show d.minSize .ump ≤ b.length from by show d.umpSize ≤ _; omega), hp,
    show (("ump_type", Fld.umpType 0xF) :: ("status", .streamStatus t) ::
      ("consistent_formats", .streamFormats) :: rest) = [("ump_type", Fld.umpType 0xF),
        ("status", .streamStatus t), ("consistent_formats", .streamFormats)] ++ rest from rfl,
    initProps_two] at hx'
  obtain ⟨z, n, e1, hrun, hsb, hst⟩ := stream_front (used := d.umpSize) (b := b)
    (z := List.replicate d.umpSize 0 ++ b.drop d.umpSize) ht hpos hle hb
    (by rw [List.length_append, List.length_replicate, List.length_drop]; omega)
    (fun i hi => by
      rw [List.getElem?_append_right (by rw [List.length_replicate]; exact hi),
        List.length_replicate, List.getElem?_drop]
      congr 1; omega)
  rw [show initProps .ump _ (List.replicate (d.minSize .ump) 0 ++ b.drop (d.minSize .ump)) = _ from e1,
    Res.ok_bind] at hx'
  obtain ⟨r1, r2, r3⟩ := initProps_behind hall rest (fun q hq => ⟨by
    rw [hp]; simp only [List.mem_cons]; exact .inr (.inr (.inr hq)), (hacc q hq).1⟩)
    (by rw [hsb.1]; omega) hx'
  refine ⟨x, n, t.toNat, hx, hrun, ⟨hxl, fun i h1 h2 => ?_⟩, ?_⟩
  · obtain ⟨s1, s2⟩ := hsb.2 i h1 h2
    have e : ∀ p w, fieldAt x i p w = fieldAt z i p w := fun p w => by
      unfold fieldAt; rw [r2 i h1]
    rw [e, e, e, e, r2 i h1]
    exact ⟨s1, s2⟩
  · rw [← hst]
    have hx0 : 0 < x.length := by omega
    have hz0 : 0 < z.length := by rw [hsb.1]; omega
    rw [fieldAt_ok hx0, fieldAt_ok hz0, field_ext, field_ext]
    congr 2
    apply BitVec.eq_of_getLsbD_eq
    intro k hk
    have := r3 (16 + k) (fun q hq => (hacc q hq).2 ⟨16 + k, by omega⟩ (by show 16 ≤ 16 + k; omega)
      (by show 16 + k < 26; omega))
    rw [List.getElem?_eq_getElem hx0, List.getElem?_eq_getElem hz0] at this
    have this : x[0].getLsbD (16 + k) = z[0].getLsbD (16 + k) := Option.some.inj this
    rw [getLsbD_ext, getLsbD_ext, show 32 - 6 - 10 + k = 16 + k by omega, this]

/-- C77: a note on behind a stream message being built becomes another message: the status of the
stream message is written into it. -/
theorem C77_stream_violation :
    Msg.streamStartOfClip.tryNewWithBuffer .ump ([0, 0, 0, 0] ++ [0x40903C00, 0x80000000, 0, 0]) =
      .ok ([0xF0200000, 0, 0, 0] ++ [0x40203C00, 0x80000000, 0, 0]) := by decide +kernel

example : ∃ x n status, Msg.streamStartOfClip.tryNewWithBuffer .ump
      [0, 0, 0, 0, 0x40903C00, 0x80000000, 0, 0] = .ok x ∧
    RunBehind 4 15 [0, 0, 0, 0, 0x40903C00, 0x80000000, 0, 0] n ∧
    StreamBehind 4 status n [0, 0, 0, 0, 0x40903C00, 0x80000000, 0, 0] x ∧
    fieldAt x 0 6 10 = some status :=
  C77_stream_exactly (d := Msg.streamStartOfClip) (by decide +kernel) _ (by decide)

theorem quiet_of {s : List (BitVec 32)} (h : ∀ w ∈ s, field w 0 4 ≠ 15) : Quiet s := by
  intro h4 e
  match s, h4 with
  | a :: s, _ =>
    apply h a List.mem_cons_self
    rw [← nibble_field a (i := 0) (by omega), show U32.nibble a 0 = 0xF#4 from e]; rfl

/-- C77, a writer: any messages built one behind the other in an array of any content, each by
`try_new_with_buffer` on the rest of the array and by setters.  If there is room for all of them,
the front of the array then consists of the messages, each the one `new()` and the same setters
give on a `Vec`, a message `UmpMessage::try_from` accepts as this type and with these properties;
the rest is as it was, unless a stream message was written.  If there is not enough room, the
result is an overflow error, never a panic.  (When a stream message is to be written, no word of
the array may look like the first word of a stream packet: see `C77_stream_exactly`.  And but for
`FunctionBlockDiscovery`, which needs more room than it says.) -/
theorem C77_writer_partial : ∀ (js : List Job),
    (∀ j ∈ js, j.1 ∈ Msg.all ∧ j.1.name ≠ "ump_stream::FunctionBlockDiscovery" ∧
      ∀ c ∈ j.2, c.legal j.1 .ump) →
    ∀ b : List (BitVec 32), ((∃ j ∈ js, j.1 ∈ Msg.streamAll) → ∀ w ∈ b, field w 0 4 ≠ 15) →
    (Job.total js ≤ b.length → ∃ (ms : List (Job × List (BitVec 32))) (rest : List (BitVec 32)),
      ms.map Prod.fst = js ∧ (∀ m ∈ ms, m.1.Written m.2) ∧
      writeAll js b = .ok (Job.total js, (ms.map Prod.snd).flatten ++ rest) ∧
      rest.length = b.length - Job.total js ∧
      ((∀ j ∈ js, j.1 ∉ Msg.streamAll) → rest = b.drop (Job.total js))) ∧
    (b.length < Job.total js → writeAll js b = .err .bufferOverflow)
  | [], _, b, _ => ⟨fun _ => ⟨[], b, rfl, by simp, rfl, rfl, fun _ => rfl⟩,
      fun h => absurd h (Nat.not_lt_zero _)⟩
  | (d, calls) :: js, hj, b, hq => by
    obtain ⟨hd, hn, hc⟩ : d ∈ Msg.all ∧ d.name ≠ "ump_stream::FunctionBlockDiscovery" ∧
      ∀ c ∈ calls, c.legal d .ump := hj (d, calls) List.mem_cons_self
    have htot : Job.total ((d, calls) :: js) = d.umpSize + Job.total js := by
      simp [Job.total]
    by_cases hb : d.umpSize ≤ b.length
    · have hquiet : d ∈ Msg.streamAll → Quiet (b.drop 4) := fun h =>
        quiet_of fun w hw => hq ⟨_, List.mem_cons_self, h⟩ w (List.mem_of_mem_drop hw)
      obtain ⟨m, s, p, h1, h2, h3, h4, h5, h6, h7, h8, h9⟩ := behind_front hd hn b hb hquiet calls hc
      have hdata : d.data .ump (m ++ s) = .ok m := by
        rw [data_ok (m := .ump) (d := d) (show d.umpSize ≤ (m ++ s).length by
          rw [List.length_append]; omega)]
        show Res.ok ((m ++ s).take d.umpSize) = _
        rw [List.take_left' h2]
      have hstep : writeAll ((d, calls) :: js) b = (writeAll js s >>= fun r =>
          Res.ok (m.length + r.1, m ++ r.2)) := by
        rw [writeAll]
        show (d.tryNewWithBuffer .ump b >>= _) = _
        rw [h3, Res.ok_bind]
        show (runSetters .ump calls (p ++ s) >>= _) = _
        rw [h5, Res.ok_bind]
        show (d.data .ump (m ++ s) >>= _) = _
        rw [hdata, Res.ok_bind, List.drop_left' rfl, List.take_left' rfl]
        rfl
      have hqs : (∃ j ∈ js, j.1 ∈ Msg.streamAll) → ∀ w ∈ s, field w 0 4 ≠ 15 := by
        rintro ⟨j, hj1, hj2⟩ w hw
        have hqb := hq ⟨j, List.mem_cons_of_mem _ hj1, hj2⟩
        by_cases hst : d ∈ Msg.streamAll
        · have h4u : ∀ d ∈ Msg.streamAll, d.name ≠ "ump_stream::FunctionBlockDiscovery" →
              d.umpSize = 4 := by decide +kernel
          have h4u := h4u d hst hn
          obtain ⟨x, n, st, x1, _, ⟨x2, x3⟩, _⟩ := C77_stream_exactly hst b (by omega)
          rw [h3] at x1; cases x1
          obtain ⟨i, hi, rfl⟩ := List.getElem_of_mem hw
          have hlen : d.umpSize + i < b.length := by omega
          obtain ⟨y1, y2⟩ := x3 (d.umpSize + i) (by omega) hlen
          have e : fieldAt (p ++ s) (d.umpSize + i) 0 4 = fieldAt b (d.umpSize + i) 0 4 := by
            by_cases hh : HeadAt 4 b (d.umpSize + i)
            · exact (y2 hh).1
            · unfold fieldAt; rw [y1 hh]
          have e1 : (p ++ s)[d.umpSize + i]? = some s[i] := by
            rw [List.getElem?_append_right (by omega), ← List.getElem?_eq_getElem hi]
            congr 1; omega
          rw [fieldAt_ext e1, fieldAt_ok hlen] at e
          rw [Option.some.inj e]
          exact hqb _ (List.getElem_mem _)
        · rw [h7 hst] at hw
          exact hqb w (List.mem_of_mem_drop hw)
      obtain ⟨i1, i2⟩ := C77_writer_partial js (fun j h => hj j (List.mem_cons_of_mem _ h)) s hqs
      constructor
      · intro ht
        obtain ⟨ms, rest, k1, k2, k3, k4, k5⟩ := i1 (by omega)
        refine ⟨((d, calls), m) :: ms, rest, by rw [List.map_cons, k1], ?_, ?_,
          by clear i1 i2; omega, ?_⟩
        · intro x hx
          rcases List.mem_cons.mp hx with rfl | hx
          · exact ⟨h1, h8, h9⟩
          · exact k2 x hx
        · rw [hstep, k3, Res.ok_bind, htot, h2, List.map_cons, List.flatten_cons, List.append_assoc]
        · intro hns
          rw [k5 (fun j h => hns j (List.mem_cons_of_mem _ h)), h7 (hns _ List.mem_cons_self), htot,
            List.drop_drop]
      · intro ht
        rw [hstep, i2 (by clear i1 i2; omega)]; rfl
    · refine ⟨fun ht => by omega, fun _ => ?_⟩
      rw [writeAll]
      show (d.tryNewWithBuffer .ump b >>= _) = _
      rw [(C08_fixed_too_short d .ump b 0).1 (by show b.length < d.umpSize; omega)]
      rfl

/-- C77, the exception: behind a note on there are three words left, and `data()` of a
`FunctionBlockDiscovery` is one word, but building it panics.  With enough room, a note on that is
written behind it is taken for a part of it by a reader of packets. -/
theorem C77_writer_violation :
    Job.total [(Msg.cv2NoteOn, []), (Msg.streamFunctionBlockDiscovery, [])] = 3 ∧
    writeAll [(Msg.cv2NoteOn, []), (Msg.streamFunctionBlockDiscovery, [])] [0, 0, 0, 0, 0] = .panic ∧
    writeAll [(Msg.streamFunctionBlockDiscovery, []), (Msg.cv2NoteOn, [])] [0, 0, 0, 0] =
      .ok (3, [0xF0100000, 0x40900000, 0, 0]) ∧
    Packet.tryFrom [0xF0100000, 0x40900000, 0, 0] = .ok (.umpStream, [0xF0100000, 0x40900000, 0, 0]) := by
  decide +kernel

/-- C77, what a reader finds in the front of the array written in this way: the messages, if each
tolerates those behind it (`UmpKind.Allows`, see C48), and an error otherwise. -/
theorem C77_written_read (ms : List (Job × List (BitVec 32))) (hms : ∀ m ∈ ms,
      m.1.1 ∈ Msg.all ∧ m.1.Written m.2 ∧ m.2.length = m.1.1.umpSize)
    (fuel : Nat) (hf : ms.length ≤ fuel) :
    ((∀ pre m post, ms = pre ++ m :: post →
        (UmpKind.fixed m.1.1).Allows m.2 (post.map Prod.snd).flatten) ↔
      readUmp fuel (ms.map Prod.snd).flatten = .ok (ms.map fun m => (.fixed m.1.1, m.2))) := by
  have hd : ∀ m ∈ ms, UmpMessage.tryFrom m.2 = .ok (.fixed m.1.1, m.2) ∧
      (UmpKind.fixed m.1.1).data m.2 = .ok m.2 := by
    intro m hm
    obtain ⟨h1, h2, h3⟩ := hms m hm
    refine ⟨h2.2.1, ?_⟩
    show m.1.1.data .ump m.2 = _
    rw [data_ok (m := .ump) (d := m.1.1) (b := m.2) (Nat.le_of_eq h3.symm)]
    show Res.ok (m.2.take m.1.1.umpSize) = _
    rw [← h3, List.take_length]
  have hsnd : (ms.map fun m => (UmpKind.fixed m.1.1, m.2)).map Prod.snd = ms.map Prod.snd := by
    rw [List.map_map]; rfl
  obtain ⟨k1, k2⟩ := C48_ump_stream_exactly (ms.map fun m => (UmpKind.fixed m.1.1, m.2)) (by
    intro m hm
    obtain ⟨a, ha, rfl⟩ := List.mem_map.mp hm
    exact hd a ha) fuel (by rw [List.length_map]; exact hf)
  rw [hsnd] at k1 k2
  constructor
  · intro h
    apply k1
    intro pre m post e
    obtain ⟨l1, l2, e1, e2, e3⟩ := List.map_eq_append_iff.mp e
    obtain ⟨a, l3, e4, e5, e6⟩ := List.map_eq_cons_iff.mp e3
    subst e1 e2 e4 e5 e6
    have := h l1 a l3 rfl
    rwa [List.map_map]
  · intro h pre m post e
    apply Classical.byContradiction
    intro hna
    obtain ⟨er, he⟩ := k2 ⟨_, _, post.map fun m => (UmpKind.fixed m.1.1, m.2), by
      rw [e, List.map_append, List.map_cons], by rwa [List.map_map]⟩
    rw [h] at he; cases he

-- Three messages, one of them a stream message, in an array of zeros.
example : ∃ (ms : List (Job × List (BitVec 32))) (rest : List (BitVec 32)),
    ms.map Prod.fst = [(Msg.streamStartOfClip, []), (Msg.cv2NoteOn, []), (Msg.cv1NoteOn, [])] ∧
    (∀ m ∈ ms, m.1.Written m.2) ∧
    writeAll [(Msg.streamStartOfClip, []), (Msg.cv2NoteOn, []), (Msg.cv1NoteOn, [])]
      (List.replicate 16 0) = .ok (7, (ms.map Prod.snd).flatten ++ rest) := by
  obtain ⟨h, _⟩ := C77_writer_partial
    [(Msg.streamStartOfClip, []), (Msg.cv2NoteOn, []), (Msg.cv1NoteOn, [])] (by
      intro j hj
      simp only [List.mem_cons, List.not_mem_nil, or_false] at hj
      rcases hj with rfl | rfl | rfl <;>
        exact ⟨by decide +kernel, by decide, by simp⟩) (List.replicate 16 0) (by
      intro _ w hw
      rw [(List.mem_replicate.mp hw).2]; decide)
  obtain ⟨ms, rest, h1, h2, h3, _⟩ := h (by decide)
  exact ⟨ms, rest, h1, h2, h3⟩

example : writeAll [(Msg.cv2NoteOn, []), (Msg.cv1NoteOn, [])] [1, 2, 3, 4] =
    .ok (3, [0x40900000, 0, 0x20900000, 4]) := by decide +kernel

end Midi2
