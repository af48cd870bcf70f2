import Verif.Props.Dispatch

/-!
# C06, C33, C48, C49, C52: using messages through the enums
-/

namespace Midi2

/-! ## C33 -/

/-- C33 for sysex: the packets of an accepted untruncated message are the consecutive parts of
`data()`, of two (sysex7) or four (sysex8) words. -/
theorem C33_sysex_packets (k : Sx) (b : Buf .ump) (h : k.tryFrom b = .ok b)
    (hu : k.layout.Untruncated b) :
    ∃ d ps, k.data b = .ok d ∧ d = b.take (k.layout.words * (k.layout.run b).length) ∧
      k.dataPackets b = .ok ps ∧ ps.length = (k.layout.run b).length ∧
      (∀ p ∈ ps, p.length = k.layout.words) ∧ ps.flatten = d := by
  obtain ⟨g, sizes, M, hlen, l, h1, h2, _, h3⟩ := C23_payload_of_accepted k b h hu
  rw [hlen] at h3
  have hp := k.stride_pos
  have hl : (b.take (k.layout.words * (k.layout.run b).length)).length =
      k.stride * (k.layout.run b).length := by
    rw [List.length_take, Nat.min_eq_left hu, words_eq]
  refine ⟨_, chunksExact k.stride (b.take (k.layout.words * (k.layout.run b).length)), h3, rfl,
    ?_, ?_, ?_, ?_⟩
  · unfold Sx.dataPackets
    rw [h3]; rfl
  · rw [chunksExact_length hp, hl, Nat.mul_div_cancel_left _ hp]
  · intro p hp'; rw [words_eq]; exact chunksExact_mem_length hp hp'
  · rw [chunksExact_flatten hp, hl, Nat.mul_div_cancel_left _ hp, List.take_of_length_le]
    rw [hl, Nat.mul_comm]; exact Nat.le_refl _

example : ∃ ps, Sx.s7.dataPackets [0x30160001, 0x02030405, 0x30310600, 0, 0x20903C40] = .ok ps ∧
    ∀ p ∈ ps, p.length = 2 :=
  have ⟨_, ps, _, _, h, _, h2, _⟩ := C33_sysex_packets .s7
    [0x30160001, 0x02030405, 0x30310600, 0, 0x20903C40] (by decide +kernel)
    (by show 2 * _ ≤ _; decide +kernel)
  ⟨ps, h, h2⟩

/-- C06, C33 for `UmpMessage`: `data()` and `packets()` of a parsed message return, `data()` is
the front of the slice and the packets are its consecutive parts.  Missing: a truncated last
packet, for which the code panics. -/
theorem C33_ump_message_packets_partial (b b' : Buf .ump) (k : UmpKind)
    (hok : UmpMessage.tryFrom b = .ok (k, b')) (hc : k.Complete b) :
    ∃ d ps, UmpMessage.data (k, b') = .ok d ∧ d <+: b ∧ d ≠ [] ∧
      UmpMessage.packets (k, b') = .ok ps ∧ (∀ p ∈ ps, p.length = k.packetWords) ∧
      ps.flatten = d := by
  obtain ⟨rfl, hk, h, he, _⟩ := C10_ump_variant b b' k hok
  have key : ∀ {ps : List (Buf .ump)} {d : Buf .ump} {n : Nat}, (∀ p ∈ ps, p.length = n) →
      0 < n → 0 < ps.length → ps.flatten = d → d ≠ [] := by
    intro ps d n h1 h2 h3 h4 h5
    subst h4
    cases ps with
    | nil => exact absurd h3 (by simp)
    | cons p ps =>
      have := h1 p List.mem_cons_self
      have h5 := congrArg List.length h5
      rw [List.flatten_cons, List.length_append] at h5
      simp only [List.length_nil] at h5
      omega
  have run_pos : ∀ {ws : List (BitVec 32)} {g : BitVec 32 → Nat}, SeqOk (ws.map g) → 0 < ws.length := by
    intro ws g hs
    rcases hs with hs | ⟨n, hs⟩ <;>
    · have := congrArg List.length hs
      simp at this
      omega
  cases k with
  | fixed d =>
    have hd := (table_demands _ he d rfl).1
    obtain ⟨p, h1, h2, h3, h4, h5⟩ := C33_fixed_packets hd b' ((tryFrom_iff d .ump b').mp hk).1
    refine ⟨p, [p], h2, ⟨_, by rw [h3]; exact List.take_append_drop _ _⟩, ?_, h1, ?_, by simp⟩
    · intro e; rw [e] at h5; simp at h5
    · intro q hq; rw [List.mem_singleton.mp hq]; exact h4
  | sysex s =>
    obtain ⟨d, ps, h1, h2, h3, h4, h5, h6⟩ := C33_sysex_packets s b' hk hc
    refine ⟨d, ps, h1, ⟨_, by rw [h2]; exact List.take_append_drop _ _⟩, ?_, h3, h5, h6⟩
    refine key h5 (by cases s <;> decide) ?_ h6
    rw [h4]; exact run_pos ((Sx.tryFrom_iff s b').mp hk).statuses
  | flexText t =>
    obtain ⟨d, ps, h1, h2, h3, h4, h5, h6⟩ := C06_flex_text_data_partial t b' hk hc
    refine ⟨d, ps, h1, ⟨_, by rw [h2]; exact List.take_append_drop _ _⟩, ?_, h3, h5, h6⟩
    refine key h5 (by decide) ?_ h6
    rw [h4]; exact run_pos ((FlexText.tryFrom_iff t b').mp hk).formats
  | streamText t =>
    have ht := (table_other _ he).1
    obtain ⟨d, ps, h1, h2, h3, h4, h5, h6⟩ := C06_stream_text_data_partial t ht b' hk hc
    refine ⟨d, ps, h1, ⟨_, by rw [h2]; exact List.take_append_drop _ _⟩, ?_, h3, h5, h6⟩
    refine key h5 (by decide) ?_ h6
    rw [h4]; exact run_pos ((StreamText.tryFrom_iff (StreamText.known_of_mem ht) b').mp hk).formats

example : UmpMessage.tryFrom [0x30160001, 0x02030405, 0x30310600, 0, 0x20903C40] =
      .ok (.sysex .s7, [0x30160001, 0x02030405, 0x30310600, 0, 0x20903C40]) ∧
    UmpMessage.packets (.sysex .s7, [0x30160001, 0x02030405, 0x30310600, 0, 0x20903C40]) =
      .ok [[0x30160001, 0x02030405], [0x30310600, 0]] := by decide +kernel

/-! ## C48 -/

theorem local_table {d : MsgDesc} (hd : d ∈ localKinds) : d ∈ Msg.localAll ∧
    UmpKind.fixed d ∉ misfiled ∧ UmpKind.fixed d ≠ .fixed Msg.streamFunctionBlockDiscovery ∧
    0 < d.umpSize ∧ ∃ h, (UmpKind.fixed d, h) ∈ umpTable := by
  have : ∀ d ∈ localKinds, UmpKind.fixed d ∉ misfiled ∧
      UmpKind.fixed d ≠ .fixed Msg.streamFunctionBlockDiscovery ∧ 0 < d.umpSize ∧
      ∃ e ∈ umpTable, e.1 = UmpKind.fixed d := by decide +kernel
  obtain ⟨h1, h2, h3, ⟨k, h⟩, h4, h5⟩ := this d hd
  exact ⟨hd, h1, h2, h3, h, by rw [← h5]; exact h4⟩

theorem readUmp_step {b d : Buf .ump} {k : UmpKind} {fuel : Nat} (hb : b ≠ [])
    (h1 : UmpMessage.tryFrom b = .ok (k, b)) (h2 : k.data b = .ok d) :
    readUmp (fuel + 1) b = (do return (k, d) :: (← readUmp fuel (b.drop d.length))) := by
  have h2 : UmpMessage.data (k, b) = .ok d := h2
  simp only [readUmp]
  rw [if_neg (by simpa using hb), h1, Res.ok_bind, h2, Res.ok_bind]

/-- C48: a stream of channel voice, system common and utility messages, followed by at most one
message of any type, is read back message by message.  Missing, since the code violates it:
messages of other types before the end of the slice. -/
theorem C48_ump_stream (ms : List (MsgDesc × Buf .ump))
    (hms : ∀ m ∈ ms, m.1 ∈ localKinds ∧ m.2.length = m.1.umpSize ∧ m.1.tryFrom .ump m.2 = .ok m.2)
    (last : List (UmpKind × Buf .ump)) (hl : last.length ≤ 1)
    (hlast : ∀ m ∈ last, m.2 ≠ [] ∧ UmpMessage.tryFrom m.2 = .ok m ∧ m.1.data m.2 = .ok m.2)
    (fuel : Nat) (hf : ms.length + last.length ≤ fuel) :
    readUmp fuel ((ms.map Prod.snd).flatten ++ (last.map Prod.snd).flatten) =
      .ok (ms.map (fun m => (.fixed m.1, m.2)) ++ last) := by
  induction ms generalizing fuel with
  | nil =>
    match last, hl with
    | [], _ =>
      cases fuel <;> rfl
    | [(k, b)], _ =>
      obtain ⟨h1, h2, h3⟩ := hlast (k, b) List.mem_cons_self
      cases fuel with
      | zero => simp at hf
      | succ fuel =>
        simp only [List.map_nil, List.flatten_nil, List.nil_append, List.map_cons,
          List.flatten_cons, List.append_nil]
        rw [readUmp_step h1 h2 h3, List.drop_length]
        cases fuel <;> rfl
  | cons m ms ih =>
    obtain ⟨d, b⟩ := m
    obtain ⟨h1, h2, h3⟩ := hms (d, b) List.mem_cons_self
    simp only at h1 h2 h3
    obtain ⟨hd, hm, hs, hpos, h, he⟩ := local_table h1
    cases fuel with
    | zero => simp at hf
    | succ fuel =>
      simp only [List.map_cons, List.flatten_cons, List.append_assoc]
      generalize hrest : (ms.map Prod.snd).flatten ++ (last.map Prod.snd).flatten = rest
      obtain ⟨a1, _, a3, a4⟩ := C12_ump_suffix hd b rest (by omega)
      have hp := (C10_ump_dispatch_partial he hm (b ++ rest) (fun e => absurd e hs)).mpr
        (a1.mpr h3)
      have hb : b ++ rest ≠ [] := by
        intro e
        have := congrArg List.length e
        rw [List.length_append] at this
        simp only [List.length_nil] at this
        omega
      rw [readUmp_step (d := b) hb hp (by
        show d.data .ump (b ++ rest) = .ok b
        rw [a3, a4, List.take_of_length_le (by omega)])]
      rw [List.drop_left, ← hrest, ih (fun m hm => hms m (List.mem_cons_of_mem _ hm)) fuel
        (by simp only [List.length_cons] at hf; omega)]
      rfl

/-- Five messages, the last a system exclusive of two packets. -/
example : readUmp 5 [0x20903C40, 0x40903C00, 0x80000000, 0x10F80000, 0x00400010,
      0x30160001, 0x02030405, 0x30310600, 0] =
    .ok [(.fixed Msg.cv1NoteOn, [0x20903C40]), (.fixed Msg.cv2NoteOn, [0x40903C00, 0x80000000]),
      (.fixed Msg.sysTimingClock, [0x10F80000]), (.fixed Msg.utilDeltaClockstamp, [0x00400010]),
      (.sysex .s7, [0x30160001, 0x02030405, 0x30310600, 0])] := by decide +kernel

/-- C48 is violated by system exclusive, flex data and stream messages: two in a row are
refused, and a sysex7 message is refused when a channel voice 2 message on channel 7 or above
follows. -/
theorem C48_ump_stream_violation :
    readUmp 9 ([0x30020102, 0] ++ [0x30020304, 0]) = .err .invalidData ∧
    readUmp 9 ([0x30020102, 0] ++ [0x40973C00, 0x80000000]) = .err .invalidData ∧
    readUmp 9 ([0x50020001, 0, 0, 0] ++ [0x50020002, 0, 0, 0]) = .err .invalidData ∧
    readUmp 9 ([0xD0100000, 1, 0, 0] ++ [0xD0100002, 0, 0, 0]) = .err .invalidData ∧
    readUmp 9 ([0xF0000101, 0, 0, 0] ++ [0xF0010101, 0, 0, 0]) = .err .invalidData ∧
    (∀ m ∈ [[0x30020102, 0], [0x30020304, 0], [0x40973C00, 0x80000000],
      [0x50020001, 0, 0, 0], [0x50020002, 0, 0, 0], [0xD0100000, 1, 0, 0], [0xD0100002, 0, 0, 0],
      [0xF0000101, 0, 0, 0], ([0xF0010101, 0, 0, 0] : Buf .ump)],
      ∃ k, UmpMessage.tryFrom m = .ok (k, m) ∧ k.data m = .ok m) := by
  refine ⟨by decide +kernel, by decide +kernel, by decide +kernel, by decide +kernel,
    by decide +kernel, ?_⟩
  simp only [List.mem_cons, List.not_mem_nil, or_false]
  rintro m (rfl | rfl | rfl | rfl | rfl | rfl | rfl | rfl | rfl)
  · exact ⟨.sysex .s7, by decide +kernel⟩
  · exact ⟨.sysex .s7, by decide +kernel⟩
  · exact ⟨.fixed Msg.cv2NoteOn, by decide +kernel⟩
  · exact ⟨.sysex .s8, by decide +kernel⟩
  · exact ⟨.sysex .s8, by decide +kernel⟩
  · exact ⟨.fixed Msg.flexSetTempo, by decide +kernel⟩
  · exact ⟨.fixed Msg.flexSetMetronome, by decide +kernel⟩
  · exact ⟨.fixed Msg.streamEndpointDiscovery, by decide +kernel⟩
  · exact ⟨.fixed Msg.streamEndpointInfo, by decide +kernel⟩

theorem readBytes_step {b d : Buf .bytes} {k : BytesKind} {fuel : Nat} (hb : b ≠ [])
    (h1 : BytesMessage.tryFrom b = .ok (k, b)) (h2 : k.data b = .ok d) :
    readBytes (fuel + 1) b = (do return (k, d) :: (← readBytes fuel (b.drop d.length))) := by
  have h2 : BytesMessage.data (k, b) = .ok d := h2
  simp only [readBytes]
  rw [if_neg (by simpa using hb), h1, Res.ok_bind, h2, Res.ok_bind]

example : readBytes 4 [0x90, 0x3C, 0x40, 0xF0, 1, 2, 3, 0xF7, 0xF8, 0xC3, 0x11] =
    .ok [(.fixed Msg.cv1NoteOn, [0x90, 0x3C, 0x40]), (.sysex7, [0xF0, 1, 2, 3, 0xF7]),
      (.fixed Msg.sysTimingClock, [0xF8]), (.fixed Msg.cv1ProgramChange, [0xC3, 0x11])] := by
  decide +kernel

/-- C48 over bytes is violated by `SongPositionPointer`, `TuneRequest` and `TimeCode`: in the
first stream the last byte of the position is left over, in the others the status byte of the
message that follows is swallowed. -/
theorem C48_bytes_stream_violation :
    readBytes 9 ([0xF2, 1, 2] ++ [0xF8]) = .err .invalidData ∧
    readBytes 9 ([0xF6] ++ [0x90, 0x3C, 0x40]) = .err .invalidData ∧
    readBytes 9 ([0xF1, 1] ++ [0x90, 0x3C, 0x40]) = .err .invalidData := by decide +kernel

/-! ## C49 -/

/-- A type of the right length whose constants match the status byte. -/
def MsgDesc.standard (d : MsgDesc) (s n : Nat) : Bool :=
  decide (d ∈ Msg.hybridAll) && d.bytesSize == some n && d.props.all fun p => match p.2 with
    | .cvStatus t => s / 16 == t.toNat
    | .sysStatus t => s == t.toNat
    | _ => true

theorem standard_table : ∀ s : Fin 256, ∀ e ∈ midi1Length, e.1 ≤ s.val → s.val < e.2.1 →
    s.val ≠ 0xF1 → s.val ≠ 0xF2 → s.val ≠ 0xF6 →
    ∃ x ∈ bytesTable, (match x.1 with | .fixed d => d.standard s.val e.2.2 | _ => false) = true := by
  decide +kernel

/-- C49: messages of the length the MIDI 1.0 specification prescribes are accepted, and
`data()` is the whole message.  Missing: `TimeCode`, `SongPositionPointer` and `TuneRequest`. -/
theorem C49_standard_length_partial (x : BitVec 8) (data : Buf .bytes) (lo hi n : Nat)
    (hn : (lo, hi, n) ∈ midi1Length) (hx : lo ≤ x.toNat ∧ x.toNat < hi)
    (hd : data.length + 1 = n) (h1 : x ≠ 0xF1) (h2 : x ≠ 0xF2) (h6 : x ≠ 0xF6) :
    ∃ k, BytesMessage.tryFrom (x :: data) = .ok (k, x :: data) ∧
      k.data (x :: data) = .ok (x :: data) := by
  have ne : ∀ {y : BitVec 8}, x ≠ y → x.toNat ≠ y.toNat := fun h e => h (BitVec.eq_of_toNat_eq e)
  obtain ⟨⟨k, lo', hi'⟩, he, hk⟩ := standard_table ⟨x.toNat, x.isLt⟩ _ hn hx.1 hx.2
    (ne h1) (ne h2) (ne h6)
  cases k with
  | sysex7 => exact absurd hk (by simp)
  | fixed d =>
    simp only [MsgDesc.standard, Bool.and_eq_true, beq_iff_eq, decide_eq_true_eq] at hk
    obtain ⟨⟨hh, hsz⟩, hp⟩ := hk
    have W : d.WellFormed .bytes (x :: data) := by
      refine ⟨?_, fun p hm => ?_⟩
      · rw [hsz]; show n ≤ data.length + 1; omega
      · have := List.all_eq_true.mp hp p hm
        obtain ⟨nm, f⟩ := p
        cases f <;> first | trivial | skip
        · exact congrArg some (beq_iff_eq.mp this)
        · exact congrArg some (beq_iff_eq.mp this)
    have hok := (C07_bytes_accepts_exactly hh _).1 W
    refine ⟨.fixed d, (C11_bytes_dispatch he _ _).1.mpr ⟨hok, rfl⟩, ?_⟩
    show d.data .bytes _ = _
    have hm : d.minSize .bytes = n := by show d.bytesSize.getD 0 = n; rw [hsz]; rfl
    rw [data_ok (by rw [hm]; show n ≤ data.length + 1; omega), hm,
      List.take_of_length_le (by show data.length + 1 ≤ n; omega)]

example : (0xE0, 0xF0, 3) ∈ midi1Length ∧ 0xE0 ≤ (0xE5 : BitVec 8).toNat := by decide

/-- C49 is violated by three system common messages: `TuneRequest` in one byte and `TimeCode`
in two are refused, whatever the data, and of a `SongPositionPointer` in three bytes `data()`
has only two. -/
theorem C49_violation (x y : BitVec 8) :
    BytesMessage.tryFrom [0xF6] = .err .invalidData ∧
    BytesMessage.tryFrom [0xF1, x] = .err .invalidData ∧
    (∃ k, BytesMessage.tryFrom [0xF2, x, y] = .ok (k, [0xF2, x, y]) ∧
      k.data [0xF2, x, y] = .ok [0xF2, x]) ∧
    (0xF6, 0xF7, 1) ∈ midi1Length ∧ (0xF1, 0xF2, 2) ∈ midi1Length ∧ (0xF2, 0xF3, 3) ∈ midi1Length :=
  ⟨rfl, rfl, ⟨.fixed Msg.sysSongPositionPointer, rfl, rfl⟩, by decide, by decide, by decide⟩

end Midi2
