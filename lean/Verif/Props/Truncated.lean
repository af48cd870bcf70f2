import Verif.Lemmas.Truncated

/-!
# C06: exactly which accepted messages cannot be read
-/

namespace Midi2

/-- C06 for sysex, exactly: on an accepted slice `data()`, `packets()`, `payload()` and
`payload_size()` return if the last packet is complete, and all panic if it is truncated. -/
theorem C06_sysex_exactly (k : Sx) (b : Buf .ump) (h : k.tryFrom b = .ok b) :
    (k.layout.Untruncated b → ∃ d ps l n, k.data b = .ok d ∧ k.dataPackets b = .ok ps ∧
      k.payloadList b = .ok l ∧ k.payloadSize b = .ok n) ∧
    (¬ k.layout.Untruncated b → k.data b = .panic ∧ k.dataPackets b = .panic ∧
      k.payloadList b = .panic ∧ k.payloadSize b = .panic) := by
  constructor
  · intro hu
    obtain ⟨⟨d, h1⟩, ⟨l, h2⟩, ⟨n, h3⟩, _⟩ := C06_sysex_reads_partial k b h hu
    obtain ⟨_, ps, _, _, h4, _⟩ := C33_sysex_packets k b h hu
    exact ⟨d, ps, l, n, h1, h4, h2, h3⟩
  · intro hu
    have hd : k.data b = .panic := by
      unfold Sx.data
      rw [Sx.size_truncated ((Sx.tryFrom_iff k b).mp h) hu]; rfl
    have hp : k.payload b = .panic := by
      unfold Sx.payload
      rw [hd]; rfl
    refine ⟨hd, ?_, ?_, ?_⟩
    · unfold Sx.dataPackets; rw [hd]; rfl
    · unfold Sx.payloadList; rw [hp]; rfl
    · unfold Sx.payloadSize; rw [hp]; rfl

example : Sx.s7.payloadList [0x30160001, 0x02030405, 0x30310600] = .panic :=
  ((C06_sysex_exactly .s7 [0x30160001, 0x02030405, 0x30310600] (by decide +kernel)).2
    (by unfold SysexLayout.Untruncated; decide)).2.2.1

/-- C06 for flex data texts, exactly: `data()` and `packets()` of an accepted slice return if
the last packet is complete, and panic if it is truncated.  (The getters always return.) -/
theorem C06_flex_text_exactly (t : FlexText) (b : Buf .ump) (h : t.tryFrom b = .ok b) :
    (4 * (FlexText.run b).length ≤ b.length →
      ∃ d ps, FlexText.data b = .ok d ∧ FlexText.packets b = .ok ps) ∧
    (¬ 4 * (FlexText.run b).length ≤ b.length →
      FlexText.data b = .panic ∧ FlexText.packets b = .panic) := by
  constructor
  · intro hu
    obtain ⟨d, ps, h1, _, h2, _⟩ := C06_flex_text_data_partial t b h hu
    exact ⟨d, ps, h1, h2⟩
  · intro hu
    have hd : FlexText.data b = .panic := by
      unfold FlexText.data
      rw [FlexText.size_truncated ((FlexText.tryFrom_iff t b).mp h) hu]; rfl
    exact ⟨hd, by unfold FlexText.packets; rw [hd]; rfl⟩

example : FlexText.data [0xD0500104, 0x61620000, 0, 0, 0xD0D00104] = .panic :=
  ((C06_flex_text_exactly ⟨"", 1, 4⟩ [0xD0500104, 0x61620000, 0, 0, 0xD0D00104] (by decide +kernel)).2
    (by decide)).1

/-- The same for stream texts. -/
theorem C06_stream_text_exactly (t : StreamText) (ht : t ∈ StreamText.all) (b : Buf .ump)
    (h : t.tryFrom b = .ok b) :
    (4 * (StreamText.run b).length ≤ b.length →
      ∃ d ps, StreamText.data b = .ok d ∧ StreamText.packets b = .ok ps) ∧
    (¬ 4 * (StreamText.run b).length ≤ b.length →
      StreamText.data b = .panic ∧ StreamText.packets b = .panic) := by
  constructor
  · intro hu
    obtain ⟨d, ps, h1, _, h2, _⟩ := C06_stream_text_data_partial t ht b h hu
    exact ⟨d, ps, h1, h2⟩
  · intro hu
    have hd : StreamText.data b = .panic := by
      unfold StreamText.data
      rw [StreamText.size_truncated
        ((StreamText.tryFrom_iff (StreamText.known_of_mem ht) b).mp h) hu]; rfl
    exact ⟨hd, by unfold StreamText.packets; rw [hd]; rfl⟩

example : StreamText.data [0xF4036162, 0, 0, 0, 0xFC030000] = .panic :=
  ((C06_stream_text_exactly .endpointName (by decide +kernel) [0xF4036162, 0, 0, 0, 0xFC030000]
    (by decide +kernel)).2 (by decide)).1

/-- C06 for `UmpMessage`, exactly: `data()` of a parsed message panics if and only if its last
packet is truncated, and then so does `packets()`; otherwise `data()` is the front of the
slice. -/
theorem C06_ump_message_exactly (b b' : Buf .ump) (k : UmpKind)
    (hok : UmpMessage.tryFrom b = .ok (k, b')) :
    (k.Complete b → ∃ d ps, UmpMessage.data (k, b') = .ok d ∧ d <+: b ∧
      UmpMessage.packets (k, b') = .ok ps) ∧
    (¬ k.Complete b → UmpMessage.data (k, b') = .panic ∧ UmpMessage.packets (k, b') = .panic) := by
  constructor
  · intro hc
    obtain ⟨d, ps, h1, h2, _, h3, _⟩ := C33_ump_message_packets_partial b b' k hok hc
    exact ⟨d, ps, h1, h2, h3⟩
  · intro hc
    obtain ⟨rfl, hk, h, he, _⟩ := C10_ump_variant b b' k hok
    cases k with
    | fixed d => exact absurd trivial hc
    | sysex s =>
      obtain ⟨h1, h2, _⟩ := (C06_sysex_exactly s b' hk).2 hc
      exact ⟨h1, h2⟩
    | flexText t => exact (C06_flex_text_exactly t b' hk).2 hc
    | streamText t => exact (C06_stream_text_exactly t (table_other _ he).1 b' hk).2 hc

/-- Both cases occur. -/
example : UmpMessage.tryFrom [0x30160001, 0x02030405, 0x30310600, 0] =
      .ok (.sysex .s7, [0x30160001, 0x02030405, 0x30310600, 0]) ∧
    UmpKind.Complete (.sysex .s7) [0x30160001, 0x02030405, 0x30310600, 0] ∧
    UmpMessage.tryFrom [0x30160001, 0x02030405, 0x30310600] =
      .ok (.sysex .s7, [0x30160001, 0x02030405, 0x30310600]) ∧
    ¬ UmpKind.Complete (.sysex .s7) [0x30160001, 0x02030405, 0x30310600] := by
  refine ⟨by decide +kernel, ?_, by decide +kernel, ?_⟩
  · show SysexLayout.Untruncated _ _
    unfold SysexLayout.Untruncated; decide
  · show ¬ SysexLayout.Untruncated _ _
    unfold SysexLayout.Untruncated; decide

end Midi2
