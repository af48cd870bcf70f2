import Verif.Lemmas.Refusal

/-!
# C68: a refused slice is told why

`Verif/Spec/Refusal.lean` lists the rules of every message type in the order in which they are
applied, each with its text; `verdict` blames the first broken rule.
-/

namespace Midi2

/-! ## What a verdict is -/

/-- C68: a verdict accepts exactly what meets all rules, names the text of a rule exactly if that
rule is broken and none before it is, and never panics. -/
theorem C68_verdict {α : Type} (a : α) (rs : List Rule) :
    (verdict a rs = .ok a ↔ ∀ r ∈ rs, r.2) ∧
    (∀ t, verdict a rs = .refused t ↔
      ∃ pre p post, rs = pre ++ (t, p) :: post ∧ (∀ r ∈ pre, r.2) ∧ ¬ p) ∧
    verdict a rs ≠ .panic :=
  ⟨verdict_ok_iff, fun _ => verdict_refused_iff, verdict_ne_panic⟩

example : verdict 5 [("first", 1 < 2), ("second", 2 < 1), ("third", 3 < 1)] = .refused "second" :=
  ((C68_verdict 5 _).2.1 _).mpr ⟨[("first", 1 < 2)], _, _, rfl, by simp, by decide⟩

/-! ## Every type of message -/

/-- C68: `try_from` of every message type over UMP, for every slice. -/
theorem C68_ump {k : UmpKind} {h : Header} (hk : (k, h) ∈ umpTable) (b : Buf .ump) :
    k.told b = verdict b (k.rules b) := UmpKind.told_verdict hk b

example : (UmpKind.sysex .s7).told [0x30270102, 0, 0x31300000, 0] =
    verdict [0x30270102, 0, 0x31300000, 0] ((UmpKind.sysex .s7).rules [0x30270102, 0, 0x31300000, 0]) :=
  C68_ump (h := ⟨3, 8, 0, 0⟩) (by decide +kernel) _

/-- C68: `try_from` of every message type over bytes, for every slice. -/
theorem C68_bytes {k : BytesKind} {lo hi : Nat} (hk : (k, lo, hi) ∈ bytesTable) (b : Buf .bytes) :
    k.told b = verdict b (k.rules b) := BytesKind.told_verdict hk b

example : BytesKind.told (.fixed Msg.cv1PitchBend) [0xE5, 0x12] =
    verdict [0xE5, 0x12] (BytesKind.rules (.fixed Msg.cv1PitchBend) [0xE5, 0x12]) :=
  C68_bytes (lo := 0xE0) (hi := 0xF0) (by decide +kernel) _

/-- C68: `try_from` of every type of packet, for every slice; the accepted packet is the slice
filled up with zeros, or cut. -/
theorem C68_packets (k : PacketKind) (b : Buf .ump) :
    k.told b = verdict ((b ++ List.replicate k.words 0).take k.words) (k.rules b) := by
  rw [PacketKind.told_verdict, Packet.padded_eq]

/-- C68: `try_from` of discovery queries of both versions, for every slice. -/
theorem C68_ci {v : BitVec 8} {n : Nat} (hv : ciSize v = some n) (b : Buf .bytes) :
    Ci.told v b = verdict b (ciRules v n b) := Ci.told_verdict hv b

example : Ci.told 2 [0xF0, 0x7E] = verdict [0xF0, 0x7E] (ciRules 2 32 [0xF0, 0x7E]) := C68_ci rfl _

/-- C68: apart from the text, these are the parsers of the other properties. -/
theorem C68_same_parsers :
    (∀ k h, (k, h) ∈ umpTable → ∀ b, (UmpKind.told k b).silent = k.tryFrom b) ∧
    (∀ k lo hi, (k, lo, hi) ∈ bytesTable → ∀ b, (BytesKind.told k b).silent = k.tryFrom b) ∧
    (∀ k b, (PacketKind.told k b).silent = k.tryFrom b) ∧
    (∀ v b, (Ci.told v b).silent = Ci.tryFrom v b) ∧
    (∀ b, (UmpMessage.told b).silent = UmpMessage.tryFrom b) ∧
    (∀ b, (BytesMessage.told b).silent = BytesMessage.tryFrom b) ∧
    (∀ b, (Packet.told b).silent = Packet.tryFrom b) ∧
    (∀ b, (Utility.told b).silent = Utility.tryFrom b) ∧
    (∀ m b, (SystemCommon.told m b).silent = SystemCommon.tryFrom m b) ∧
    (∀ m b, (ChannelVoice1.told m b).silent = ChannelVoice1.tryFrom m b) ∧
    (∀ b, (ChannelVoice2.told b).silent = ChannelVoice2.tryFrom b) ∧
    (∀ b, (FlexData.told b).silent = FlexData.tryFrom b) ∧
    (∀ b, (UmpStream.told b).silent = UmpStream.tryFrom b) := by
  refine ⟨fun k h hk b => ?_, fun k lo hi hk b => ?_, PacketKind.told_silent, Ci.told_silent,
    UmpMessage.told_silent, BytesMessage.told_silent, Packet.told_silent, groups_silent⟩
  · refine UmpKind.told_silent ?_ b
    rintro t rfl
    exact (table_other _ hk).1
  · cases k with
    | fixed d => exact d.told_silent .bytes b
    | sysex7 => exact Sxb.told_silent b

/-! ## Enums -/

/-- C68: a slice with the header of a type is refused by the enum of its group and by
`UmpMessage` with the text of that type's own refusal, and accepted otherwise.  Missing, since the
code violates it: the three misfiled flex data texts. -/
theorem C68_ump_enum_partial {k : UmpKind} {h : Header} (hk : (k, h) ∈ umpTable)
    (hm : k ∉ misfiled) {b : Buf .ump} (hb : h.Of b) :
    UmpMessage.told b = (verdict b (k.rules b) >>= fun b' => .ok (k, b')) ∧
    ∀ e ∈ groupParsers, e.1 = h.type →
      e.2 b = (verdict b (k.rules b) >>= fun b' => .ok (k, b')) := by
  rw [← UmpKind.told_verdict hk b]
  exact ⟨ump_told_known hk hm hb, fun e he ht => group_known he hk hm ht.symm hb.2⟩

example : UmpMessage.told [0x40903C07, 0xC0000000] =
    (verdict [0x40903C07, 0xC0000000] (UmpKind.rules (.fixed Msg.cv2NoteOn) [0x40903C07, 0xC0000000]) >>=
      fun b' => .ok (.fixed Msg.cv2NoteOn, b')) :=
  (C68_ump_enum_partial (k := .fixed Msg.cv2NoteOn) (h := ⟨4, 8, 4, 9⟩) (by decide +kernel)
    (by decide +kernel) (b := [0x40903C07, 0xC0000000]) ⟨by decide, by decide⟩).1

/-- C68: the slices of the three misfiled texts, valid or not, are refused as unknown. -/
theorem C68_misfiled_violation : ∀ k ∈ misfiled, ∀ h, (k, h) ∈ umpTable →
    (∀ b : Buf .ump, h.Of b →
      UmpMessage.told b = .refused "Couldn't interpret flex data status / bank fields" ∧
      FlexData.told b = .refused "Couldn't interpret flex data status / bank fields") ∧
    ∃ b : Buf .ump, h.Of b ∧ verdict b (k.rules b) = .ok b := by
  intro k hm h hk
  have hh : ∀ k ∈ misfiled, ∀ e ∈ umpTable, e.1 = k →
      e.2.type = 13 ∧ e.2.pos = 16 ∧ e.2.width = 16 ∧ e.2.code ∉ FlexData.arms.map Prod.fst := by
    decide +kernel
  obtain ⟨h1, h2, h3, h4⟩ := hh k hm _ hk rfl
  simp only at h1 h2 h3 h4
  constructor
  · intro b hb
    have he : ((13 : Nat), FlexData.told) ∈ groupParsers := by simp [groupParsers]
    have hf : FlexData.told b = .refused "Couldn't interpret flex data status / bank fields" := by
      obtain ⟨text, ht, c, g1, g2⟩ := group_told _ he (13, 16, 16, FlexData.arms)
        (by simp [families]) rfl b (ne_of_field hb.1)
      have : text = "Couldn't interpret flex data status / bank fields" := by
        simpa [strangerTexts] using ht
      subst this
      have hc := hb.2
      rw [h2, h3, show fieldAt b 0 16 16 = some c from g1] at hc
      have hc : c = h.code := Option.some.inj hc
      rw [show FlexData.told b = _ from g2]
      apply toldDispatch_stranger
      intro k' hk'
      rw [hc] at hk'
      exact h4 (List.mem_map.mpr ⟨_, hk', rfl⟩)
    exact ⟨by rw [ump_told_group he (by rw [hb.1, h1])]; exact hf, hf⟩
  · have hw : ∀ k ∈ misfiled, ∀ e ∈ umpTable, e.1 = k →
        ∃ b ∈ [[0xD010010A#32, 0, 0, 0], [0xD010010B#32, 0, 0, 0], [0xD010010C#32, 0, 0, 0]],
          (fieldAt b 0 0 4 = some e.2.type ∧ fieldAt b 0 e.2.pos e.2.width = some e.2.code) ∧
          UmpKind.told k b = .ok b := by decide +kernel
    obtain ⟨b, _, hb, ht⟩ := hw k hm _ hk rfl
    exact ⟨b, hb, by rw [← UmpKind.told_verdict hk b]; exact ht⟩

/-- C68: conversely the statuses under which `FlexData` files those three types are refused with
the refusal of that type. -/
theorem C68_misfiled_codes : ∀ p ∈ [(0x0110, "AccompanyingPerformerName", (10 : BitVec 8)),
      (0x0111, "RecordingDate", 11), (0x0112, "RecordingLocation", 12)],
    ∀ b : Buf .ump, fieldAt b 0 16 16 = some p.1 →
      FlexData.told b = (verdict b ((FlexText.mk p.2.1 1 p.2.2).rules b) >>= fun b' =>
        .ok (.flexText ⟨p.2.1, 1, p.2.2⟩, b')) ∧
      ∃ text, FlexData.told b = .refused text := by
  intro p hp b hc
  have hall : ∀ p ∈ [(0x0110, "AccompanyingPerformerName", (10 : BitVec 8)),
      (0x0111, "RecordingDate", 11), (0x0112, "RecordingLocation", 12)],
      (p.1, UmpKind.flexText ⟨p.2.1, 1, p.2.2⟩) ∈ FlexData.arms ∧ p.1 ≠ 256 + p.2.2.toNat := by
    decide +kernel
  obtain ⟨ha, hne⟩ := hall p hp
  have hb := ne_of_field hc
  have he : ((13 : Nat), FlexData.told) ∈ groupParsers := by simp [groupParsers]
  obtain ⟨text, ht, c, g1, g2⟩ := group_told _ he (13, 16, 16, FlexData.arms)
    (by simp [families]) rfl b hb
  rw [show fieldAt b 0 16 16 = some c from g1] at hc
  cases hc
  have e : FlexData.told b = (verdict b ((FlexText.mk p.2.1 1 p.2.2).rules b) >>= fun b' =>
        .ok (.flexText ⟨p.2.1, 1, p.2.2⟩, b')) := by
    rw [show FlexData.told b = _ from g2, toldDispatch_known
      (families_nodup (13, 16, 16, FlexData.arms) (by simp [families])) ha]
    rw [show UmpKind.told (.flexText ⟨p.2.1, 1, p.2.2⟩) b = _ from
      FlexText.told_verdict ⟨p.2.1, 1, p.2.2⟩ b]
  refine ⟨e, ?_⟩
  rw [e]
  cases hv : verdict b ((FlexText.mk p.2.1 1 p.2.2).rules b) with
  | refused t => exact ⟨t, rfl⟩
  | panic => exact absurd hv verdict_ne_panic
  | ok b' =>
    exfalso
    have hs := FlexText.told_verdict ⟨p.2.1, 1, p.2.2⟩ b
    rw [hv] at hs
    have : FlexData.told b = .ok (.flexText ⟨p.2.1, 1, p.2.2⟩, b') := by rw [e, hv]; rfl
    have h3 := groups_silent.2.2.2.2.1 b
    rw [this] at h3
    have hm : UmpKind.flexText ⟨p.2.1, 1, p.2.2⟩ ∈ misfiled := by
      simp only [List.mem_cons, List.not_mem_nil, or_false] at hp
      rcases hp with rfl | rfl | rfl <;> decide +kernel
    exact ((C10_recording_violation _ hm).1 b b').2 h3.symm

example : ∃ text, FlexData.told [0xD0100110, 0, 0, 0] = .refused text :=
  (C68_misfiled_codes (0x0110, "AccompanyingPerformerName", 10) (by decide) [0xD0100110, 0, 0, 0]
    (by decide)).2

/-- C68: a slice with the message type of a group and the header of none of its types is refused
by the enum of the group, and by `UmpMessage`, with the one text of the group. -/
theorem C68_ump_stranger {e : Nat × (Buf .ump → Told (UmpKind × Buf .ump))} (he : e ∈ groupParsers)
    {b : Buf .ump} (hb : fieldAt b 0 0 4 = some e.1)
    (hn : ∀ k h, (k, h) ∈ umpTable → k ∉ misfiled → ¬ h.Of b)
    (hm : e.1 = 13 → ∀ c ∈ misfiledCodes, fieldAt b 0 16 16 ≠ some c) :
    ∃ text, (e.1, text) ∈ strangerTexts ∧ e.2 b = .refused text ∧
      UmpMessage.told b = .refused text := by
  obtain ⟨text, h1, h2⟩ := group_stranger he (ne_of_field hb)
    (fun k h hk hm ht hc => hn k h hk hm ⟨by rw [hb, ht], hc⟩) hm
  exact ⟨text, h1, h2, by rw [ump_told_group he hb, h2]⟩

example : ∃ text, (4, text) ∈ strangerTexts ∧ UmpMessage.told [0x40703C01] = .refused text := by
  have he : (4, fun b => do return asUmp (← ChannelVoice2.told b)) ∈ groupParsers :=
    List.mem_of_getElem? (i := 3) rfl
  have hn : ∀ e ∈ umpTable, ¬ (fieldAt [0x40703C01] 0 0 4 = some e.2.type ∧
      fieldAt [0x40703C01] 0 e.2.pos e.2.width = some e.2.code) := by decide +kernel
  obtain ⟨text, h1, _, h3⟩ := C68_ump_stranger he (b := [0x40703C01]) (by decide)
    (fun k h hk _ => hn _ hk) (fun h => absurd h (by decide))
  exact ⟨text, h1, h3⟩

/-- C68: slices of the reserved message types, and empty slices. -/
theorem C68_ump_rest :
    (∀ (b : Buf .ump) t, fieldAt b 0 0 4 = some t → (∀ k h, (k, h) ∈ umpTable → h.type ≠ t) →
      UmpMessage.told b = .refused "Couldn't interpret ump message type") ∧
    UmpMessage.told [] = .refused "Ump message slice is empty" ∧
    ∀ e ∈ groupParsers, e.2 [] = .refused "Slice is too short" :=
  ⟨fun _ _ h hn => ump_told_other h hn, rfl, group_empty⟩

example : UmpMessage.told [0x60000000] = .refused "Couldn't interpret ump message type" := by
  decide +kernel

/-- C68: `UmpMessage` leaves no slice out. -/
theorem C68_ump_cases (b : Buf .ump) : b = [] ∨
    (∃ t, fieldAt b 0 0 4 = some t ∧ ((∀ k h, (k, h) ∈ umpTable → h.type ≠ t) ∨
      (∃ k h, (k, h) ∈ umpTable ∧ h.type = t ∧ h.Of b) ∨
      ((∀ k h, (k, h) ∈ umpTable → ¬ h.Of b) ∧ ∃ e ∈ groupParsers, e.1 = t))) := by
  cases b with
  | nil => exact .inl rfl
  | cons w r =>
    refine .inr ⟨field w 0 4, rfl, ?_⟩
    by_cases h1 : ∃ k h, (k, h) ∈ umpTable ∧ h.type = field w 0 4
    · by_cases h2 : ∃ k h, (k, h) ∈ umpTable ∧ h.Of (w :: r)
      · obtain ⟨k, h, hk, ho⟩ := h2
        exact .inr (.inl ⟨k, h, hk, (Option.some.inj ho.1).symm, ho⟩)
      · refine .inr (.inr ⟨fun k h hk ho => h2 ⟨k, h, hk, ho⟩, ?_⟩)
        obtain ⟨k, h, hk, ht⟩ := h1
        have hg : ∀ e ∈ umpTable, e.2.type ∈ groupParsers.map Prod.fst ∨
            (e.2.type = 3 ∧ e.2.width = 0 ∧ e.2.code = 0) ∨
            (e.2.type = 5 ∧ e.2.width = 0 ∧ e.2.code = 0) := by decide +kernel
        rcases hg _ hk with hg | hg
        · obtain ⟨e, he, e1⟩ := List.mem_map.mp hg
          exact ⟨e, he, by rw [e1]; exact ht⟩
        · refine absurd ⟨k, h, hk, ?_⟩ h2
          have hw : h.width = 0 ∧ h.code = 0 := by rcases hg with g | g <;> exact g.2
          refine ⟨by rw [ht]; rfl, ?_⟩
          rw [hw.1, hw.2]
          show some (field w _ 0) = some 0
          congr 1
          simp [field, Nat.mod_one]
    · exact .inl fun k h hk ht => h1 ⟨k, h, hk, ht⟩

/-- C68: bytes whose status byte belongs to a type are refused by `BytesMessage` with the text of
that type's own refusal, and accepted otherwise. -/
theorem C68_bytes_enum {k : BytesKind} {lo hi s : Nat} (hk : (k, lo, hi) ∈ bytesTable)
    {b : Buf .bytes} (hs : byteAt b = some s) (h1 : lo ≤ s) (h2 : s < hi) :
    BytesMessage.told b = (verdict b (k.rules b) >>= fun b' => .ok (k, b')) := by
  rw [← BytesKind.told_verdict hk b]
  exact bytes_told_known hk hs h1 h2

example : BytesMessage.told [0x90, 0x3C] =
    (verdict [0x90, 0x3C] (BytesKind.rules (.fixed Msg.cv1NoteOn) [0x90, 0x3C]) >>=
      fun b' => .ok (.fixed Msg.cv1NoteOn, b')) :=
  C68_bytes_enum (k := .fixed Msg.cv1NoteOn) (lo := 0x90) (hi := 0xA0) (s := 0x90) (by decide +kernel)
    (by decide) (by decide) (by decide)

/-- C68: bytes with any other status byte, and no bytes. -/
theorem C68_bytes_rest :
    (∀ (b : Buf .bytes) s, byteAt b = some s →
      (∀ k lo hi, (k, lo, hi) ∈ bytesTable → ¬ (lo ≤ s ∧ s < hi)) →
      BytesMessage.told b = .refused (if s < 0x80 ∨ s = 0xF7 then
        "Couldn't interpret bytes message type" else "Unknown midi1 channel voice status")) ∧
    BytesMessage.told [] = .refused "Bytes slice is empty" :=
  ⟨fun _ _ h hn => bytes_told_stranger h hn, rfl⟩

example : BytesMessage.told [0x40] = .refused "Couldn't interpret bytes message type" ∧
    BytesMessage.told [0xF4] = .refused "Unknown midi1 channel voice status" := by decide +kernel

/-- C68: packets through the enum: the text is that of the type of packet which the message type
selects; message types without packets are told so. -/
theorem C68_packet_enum (b : Buf .ump) :
    (∀ k : PacketKind, fieldAt b 0 0 4 = some k.code → Packet.told b =
      (verdict ((b ++ List.replicate k.words 0).take k.words) (k.rules b) >>= fun p => .ok (k, p))) ∧
    (∀ t, fieldAt b 0 0 4 = some t → (∀ k : PacketKind, k.code ≠ t) →
      Packet.told b = .refused "Incorrect UMP message type") ∧
    (b = [] → Packet.told b = .refused "Slice is too short") := by
  have hd : ∀ t, fieldAt b 0 0 4 = some t → Packet.told b =
      toldDispatch PacketKind.told Packet.arms "Incorrect UMP message type" t b := by
    intro t ht
    have hb := ne_of_field ht
    have hl := head_ne hb
    unfold Packet.told
    rw [if_neg (by simpa using hb), Told.index_lt hl, Told.ok_bind, nibble_field _ (by omega)]
    rw [fieldAt_ok hl] at ht
    rw [show 4 * 0 = 0 from rfl, Option.some.inj ht]
  refine ⟨fun k hk => ?_, fun t ht hn => ?_, ?_⟩
  · rw [hd _ hk, toldDispatch_known (by decide) (k := k) (by cases k <;> decide), C68_packets]
  · rw [hd _ ht, toldDispatch_stranger]
    intro k hk
    refine hn k ?_
    have : ∀ p ∈ Packet.arms, PacketKind.code p.2 = p.1 := by decide
    exact this _ hk
  · rintro rfl; rfl

example : Packet.told [0xD0903C03] = .refused "Slice is too short" := by decide +kernel

/-! ## What the texts speak of -/

/-- C68: the text for unknown messages of a group speaks of that group.  Missing, since the code
violates it: system common and stream messages. -/
theorem C68_speaks_partial : ∀ p ∈ strangerTexts, p.1 ≠ 1 → p.1 ≠ 15 → p.1 ∈ speaksOf p.2 := by
  decide

/-- C68: an unknown system common message, over UMP or bytes, is refused as an unknown MIDI 1.0
channel voice message, which it is not; an unknown stream message as one of flex data. -/
theorem C68_speaks_violation :
    (∀ b : Buf .ump, fieldAt b 0 0 4 = some 1 →
      (∀ k h, (k, h) ∈ umpTable → ¬ h.Of b) →
      UmpMessage.told b = .refused "Unknown midi1 channel voice status" ∧
      SystemCommon.told .ump b = .refused "Unknown midi1 channel voice status") ∧
    (∀ b : Buf .bytes, ∀ s ∈ [0xF4, 0xF5, 0xF9, 0xFD], byteAt b = some s →
      BytesMessage.told b = .refused "Unknown midi1 channel voice status") ∧
    (∀ b : Buf .ump, fieldAt b 0 0 4 = some 15 →
      (∀ k h, (k, h) ∈ umpTable → ¬ h.Of b) →
      UmpMessage.told b = .refused "Couldn't interpret flex data status / bank fields" ∧
      UmpStream.told b = .refused "Couldn't interpret flex data status / bank fields") ∧
    1 ∉ speaksOf "Unknown midi1 channel voice status" ∧
    15 ∉ speaksOf "Couldn't interpret flex data status / bank fields" := by
  refine ⟨fun b hb hn => ?_, fun b s hs hb => ?_, fun b hb hn => ?_, by decide, by decide⟩
  · obtain ⟨text, h1, h2, h3⟩ := C68_ump_stranger (b := b)
      (e := (1, fun b => do return asUmp (← SystemCommon.told .ump b)))
      (by simp [groupParsers]) hb (fun k h hk _ => hn k h hk) (by intro h; cases h)
    have : text = "Unknown midi1 channel voice status" := by simpa [strangerTexts] using h1
    subst this
    refine ⟨h3, ?_⟩
    simp only at h2
    cases hc : SystemCommon.told .ump b with
    | ok x => rw [hc] at h2; cases h2
    | panic => rw [hc] at h2; cases h2
    | refused t => rw [hc] at h2; cases h2; rfl
  · rw [C68_bytes_rest.1 b s hb]
    · have : ∀ s ∈ [0xF4, 0xF5, 0xF9, 0xFD], ¬ (s < 0x80 ∨ s = 0xF7) := by decide
      rw [if_neg (this s hs)]
    · have : ∀ s ∈ [0xF4, 0xF5, 0xF9, 0xFD], ∀ e ∈ bytesTable, ¬ (e.2.1 ≤ s ∧ s < e.2.2) := by
        decide +kernel
      exact fun k lo hi hk => this s hs _ hk
  · obtain ⟨text, h1, h2, h3⟩ := C68_ump_stranger (b := b) (e := (15, UmpStream.told))
      (by simp [groupParsers]) hb (fun k h hk _ => hn k h hk) (by intro h; cases h)
    have : text = "Couldn't interpret flex data status / bank fields" := by
      simpa [strangerTexts] using h1
    subst this
    exact ⟨h3, h2⟩

/-! ## Examples -/

-- Each rule can be the one to blame.
example : (UmpKind.sysex .s7).told [0x30160102] = .refused "Slice is too short" ∧
    (UmpKind.sysex .s7).told [0x40160102, 0] = .refused "Incorrect ump message type" ∧
    (UmpKind.sysex .s7).told [0x30160102, 0] = .refused "Expected Complete packet" ∧
    (UmpKind.sysex .s7).told [0x30260102, 0, 0x30300000, 0] = .refused "Expected Begin packet" ∧
    (UmpKind.sysex .s7).told [0x30160102, 0, 0x30100000, 0, 0x30300000, 0] =
      .refused "Expected Continue packet" ∧
    (UmpKind.sysex .s7).told [0x30160102, 0, 0x30200000, 0] = .refused "Expected End packet" ∧
    (UmpKind.sysex .s7).told [0x30070102, 0] = .refused "Size field can not exceed 6" ∧
    (UmpKind.sysex .s7).told [0x30160102, 0, 0x31300000, 0] =
      .refused "Inconsistent groups across packets" ∧
    (UmpKind.sysex .s8).told [0x50130102, 0, 0, 0, 0x50310200, 0, 0, 0] =
      .refused "Inconsistent stream id fields across packets" ∧
    (UmpKind.sysex .s7).told [0x30160102, 0, 0x30300000, 0] =
      .ok [0x30160102, 0, 0x30300000, 0] := by decide +kernel

-- A slice which breaks several rules is told of the first.
example : (UmpKind.sysex .s7).told [0x30270102, 0, 0x31300000, 0] =
    .refused "Expected Begin packet" := by decide +kernel

example : UmpMessage.told [0x40903C01, 0xC0000000] = .ok (.fixed Msg.cv2NoteOn, [0x40903C01, 0xC0000000]) ∧
    UmpMessage.told [0x40903C07, 0xC0000000] = .refused "Couldn't interpret note attribute" ∧
    UmpMessage.told [0x40903C01] = .refused "Slice is too short" ∧
    UmpMessage.told [0x40703C01] = .refused "Unknown midi2 channel voice status" ∧
    UmpMessage.told [0x60903C01] = .refused "Couldn't interpret ump message type" ∧
    UmpMessage.told [0x10F40000] = .refused "Unknown midi1 channel voice status" ∧
    UmpMessage.told [0xF3FF0000, 0, 0, 0] =
      .refused "Couldn't interpret flex data status / bank fields" ∧
    UmpMessage.told [0xD010010A, 0, 0, 0] =
      .refused "Couldn't interpret flex data status / bank fields" ∧
    UmpMessage.told [0xD0100110, 0, 0, 0] = .refused "Incorrect message status" := by
  decide +kernel

example : BytesMessage.told [0x90, 0x3C] = .refused "Slice is too short" ∧
    BytesMessage.told [0xF0, 1, 2] = .refused "Sysex messages should end 0xF7" ∧
    BytesMessage.told [0xF4] = .refused "Unknown midi1 channel voice status" ∧
    BytesMessage.told [0x12] = .refused "Couldn't interpret bytes message type" ∧
    Packet.told [0x30070000, 0] = .refused "Size field can not exceed 6" ∧
    Packet.told [0x30460000, 0] = .refused "Invalid SysEx7 status byte" ∧
    Packet.told [0x60000000] = .refused "Incorrect UMP message type" := by decide +kernel

end Midi2
