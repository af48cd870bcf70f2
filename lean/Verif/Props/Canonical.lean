import Verif.Lemmas.Canonical
import Verif.Props.Sysex
import Verif.Props.SysexBytes
import Verif.Props.Text
import Verif.Props.TextStream

/-!
# C57: the words of a message depend on what it shows, not on how it was made

The wire formats are `SysexLayout.wire`, `sysexBytes`, `FlexText.IsEncoding` and
`StreamText.IsEncoding`: header octets, the content and zeros up to the end of the last
packet.
-/

namespace Midi2

open Sx

/-! ## System exclusive messages over UMP words -/

/-- C57: after any sequence of in-range calls on a new message over a resizable buffer the
whole buffer is the wire format of the group and payload, padding included, if at least the
first packet is full.  Missing: the padding of a payload that does not fill one packet, see
`C57_sysex7_stale_payload_violation`; all other octets are as they should be. -/
theorem C57_sysex_wire_partial (k : Sx) (dbg : Bool) (cs : List (SxCall k))
    (hr : SxCall.AllInRange cs (0, [])) :
    ∃ b b', k.newVec = .ok b ∧ SxCall.execAll dbg cs b = .ok b' ∧ k.data b' = .ok b' ∧
      (k.layout.capacity ≤ (SxCall.applyAll cs (0, [])).2.length →
        octets b' = k.layout.wire (SxCall.applyAll cs (0, [])).1.toNat
          ((SxCall.applyAll cs (0, [])).2.map BitVec.toNat)) ∧
      (octets b').length = k.layout.wireLength (SxCall.applyAll cs (0, [])).2.length ∧
      (octets b').take (k.layout.first + (SxCall.applyAll cs (0, [])).2.length) =
        (k.layout.wire (SxCall.applyAll cs (0, [])).1.toNat
          ((SxCall.applyAll cs (0, [])).2.map BitVec.toNat)).take
            (k.layout.first + (SxCall.applyAll cs (0, [])).2.length) := by
  obtain ⟨b, e, S⟩ := newVec_strict k dbg
  obtain ⟨b', e', S'⟩ := exec_history cs b (0, []) hr S
  have ht : b'.take (k.stride * k.count (SxCall.applyAll cs (0, [])).2.length) = b' := by
    rw [← S'.exact rfl, List.take_length]
  refine ⟨b, b', e, e', S'.data_self, ?_, ?_, ?_⟩
  · intro h
    rw [capacity_eq] at h
    have := S'.wire_full h
    rw [ht] at this
    exact this
  · rw [length_octets, wireLength_eq, S'.exact rfl]
  · have := S'.wire_take
    rw [ht] at this
    rw [first_eq]
    exact this

/-- C57: two sequences of in-range calls on new messages that leave the same group and the
same payload, of at least a full packet, leave the same words.  Missing: shorter payloads,
see `C57_sysex7_stale_payload_violation`. -/
theorem C57_sysex_history_free_partial (k : Sx) (dbg : Bool) (cs cs' : List (SxCall k))
    (hr : SxCall.AllInRange cs (0, [])) (hr' : SxCall.AllInRange cs' (0, []))
    (hs : SxCall.applyAll cs (0, []) = SxCall.applyAll cs' (0, []))
    (hl : k.layout.capacity ≤ (SxCall.applyAll cs (0, [])).2.length) :
    (k.newVec >>= SxCall.execAll dbg cs) = (k.newVec >>= SxCall.execAll dbg cs') ∧
      ∃ b, (k.newVec >>= SxCall.execAll dbg cs) = .ok b := by
  obtain ⟨b, b1, e, e1, _, h1, _⟩ := C57_sysex_wire_partial k dbg cs hr
  obtain ⟨b', b2, e', e2, _, h2, _⟩ := C57_sysex_wire_partial k dbg cs' hr'
  rw [e] at e'
  cases e'
  rw [e]
  simp only [Res.ok_bind]
  rw [e1, e2]
  refine ⟨?_, b1, rfl⟩
  congr 1
  apply octets_inj
  rw [h1 hl, h2 (by rw [← hs]; exact hl), hs]

/-- C57 for arrays of `n` words: `data()` after any sequence of fallible calls. -/
theorem C57_sysex_fixed_wire_partial (k : Sx) (dbg : Bool) (n : Nat) (hn : k.layout.words ≤ n)
    (cs : List (SxTryCall k)) (hr : SxTryCall.AllInRange n cs (0, [])) :
    ∃ b b' d, k.newArray n = .ok b ∧
      SxTryCall.execAll dbg cs b = .ok (b', (SxTryCall.applyAll n cs (0, [])).2) ∧
      k.data b' = .ok d ∧
      (k.layout.capacity ≤ (SxTryCall.applyAll n cs (0, [])).1.2.length →
        octets d = k.layout.wire (SxTryCall.applyAll n cs (0, [])).1.1.toNat
          ((SxTryCall.applyAll n cs (0, [])).1.2.map BitVec.toNat)) ∧
      (octets d).length = k.layout.wireLength (SxTryCall.applyAll n cs (0, [])).1.2.length ∧
      (octets d).take (k.layout.first + (SxTryCall.applyAll n cs (0, [])).1.2.length) =
        (k.layout.wire (SxTryCall.applyAll n cs (0, [])).1.1.toNat
          ((SxTryCall.applyAll n cs (0, [])).1.2.map BitVec.toNat)).take
            (k.layout.first + (SxTryCall.applyAll n cs (0, [])).1.2.length) := by
  rw [words_eq] at hn
  obtain ⟨b, e, _, S⟩ := newArray_strict k dbg hn
  obtain ⟨b', e', S'⟩ := try_history (inv_zeroId k) (fun b g h => zeroId_setGroup g h) hn cs b
    (0, []) hr S
  refine ⟨b, b', _, e, e', S'.packed.data_eq, ?_, ?_, ?_⟩
  · intro h
    rw [capacity_eq] at h
    exact S'.wire_full h
  · rw [length_octets, wireLength_eq, List.length_take, Nat.min_eq_left S'.packed.len]
  · rw [first_eq]
    exact S'.wire_take

-- C57: two histories with the same outcome.
example : SxCall.AllInRange (k := .s7)
      [.setPayload ⟨[9, 9, 9, 9, 9, 9, 9, 9, 9, 9, 9, 9, 9], 0, none⟩,
        .splicePayload ⟨[1, 2, 3, 4, 5, 6, 7], 7, some 7⟩ (.included 0) (.excluded 13), .setGroup 2]
      (0, []) ∧
    SxCall.applyAll (k := .s7)
      [.setPayload ⟨[9, 9, 9, 9, 9, 9, 9, 9, 9, 9, 9, 9, 9], 0, none⟩,
        .splicePayload ⟨[1, 2, 3, 4, 5, 6, 7], 7, some 7⟩ (.included 0) (.excluded 13), .setGroup 2]
      (0, []) =
    SxCall.applyAll (k := .s7) [.setGroup 2, .setPayload ⟨[1, 2, 3, 4, 5, 6, 7], 0, none⟩]
      (0, []) ∧
    (Sx.s7.newVec >>= SxCall.execAll (k := .s7) true
      [.setPayload ⟨[9, 9, 9, 9, 9, 9, 9, 9, 9, 9, 9, 9, 9], 0, none⟩,
        .splicePayload ⟨[1, 2, 3, 4, 5, 6, 7], 7, some 7⟩ (.included 0) (.excluded 13), .setGroup 2]) =
      .ok [0x32160102, 0x03040506, 0x32310700, 0] := by
  refine ⟨?_, by decide +kernel, by decide +kernel⟩
  simp [SxCall.AllInRange, SxCall.InRange, Bound.first, Bound.last, SxCall.apply]

-- C57: octets on the wire of seven bytes.
example : sysex7Layout.wire 2 [1, 2, 3, 4, 5, 6, 7] =
    [0x32, 0x16, 1, 2, 3, 4, 5, 6, 0x32, 0x31, 7, 0, 0, 0, 0, 0] := by decide +kernel

/-- C57 fails for a payload that does not fill one packet: `set_payload` with eight bytes
and then with one leaves four of the earlier bytes in `data()`, and the message is not equal
to one that never held them. -/
theorem C57_sysex7_stale_payload_violation :
    ∃ cs cs' : List (SxCall .s7), ∃ b b' : Buf .ump,
      SxCall.AllInRange cs (0, []) ∧ SxCall.AllInRange cs' (0, []) ∧
      SxCall.applyAll cs (0, []) = SxCall.applyAll cs' (0, []) ∧
      (Sx.s7.newVec >>= SxCall.execAll true cs) = .ok b ∧
      (Sx.s7.newVec >>= SxCall.execAll true cs') = .ok b' ∧
      Sx.s7.data b = .ok b ∧ Sx.s7.data b' = .ok b' ∧
      octets b = [0x30, 1, 9, 2, 3, 4, 5, 6] ∧ octets b' = sysex7Layout.wire 0 [9] :=
  ⟨[.setPayload ⟨[1, 2, 3, 4, 5, 6, 7, 8], 8, some 8⟩, .setPayload ⟨[9], 1, some 1⟩],
    [.setPayload ⟨[9], 1, some 1⟩], [0x30010902, 0x03040506], [0x30010900, 0],
    by simp [SxCall.AllInRange, SxCall.InRange], by simp [SxCall.AllInRange, SxCall.InRange],
    by decide +kernel⟩

/-- The same for `Sysex8`, where emptying the payload leaves all of it in `data()`. -/
theorem C57_sysex8_stale_payload_violation :
    ∃ cs cs' : List (SxCall .s8), ∃ b b' : Buf .ump,
      SxCall.AllInRange cs (0, []) ∧ SxCall.AllInRange cs' (0, []) ∧
      SxCall.applyAll cs (0, []) = SxCall.applyAll cs' (0, []) ∧
      (Sx.s8.newVec >>= SxCall.execAll true cs) = .ok b ∧
      (Sx.s8.newVec >>= SxCall.execAll true cs') = .ok b' ∧
      Sx.s8.data b = .ok b ∧ Sx.s8.data b' = .ok b' ∧
      octets b = [0x50, 1, 0, 1, 2, 3, 4, 5, 6, 7, 8, 9, 10, 11, 12, 13] ∧
      octets b' = sysex8Layout.wire 0 [] :=
  ⟨[.setPayload ⟨[1, 2, 3, 4, 5, 6, 7, 8, 9, 10, 11, 12, 13], 13, some 13⟩, .setPayload ⟨[], 0, some 0⟩],
    [.setPayload ⟨[], 0, some 0⟩], [0x50010001, 0x02030405, 0x06070809, 0x0A0B0C0D], [0x50010000, 0, 0, 0],
    by simp [SxCall.AllInRange, SxCall.InRange], by simp [SxCall.AllInRange, SxCall.InRange],
    by decide +kernel⟩

/-- C57 fails for parsed messages: the parser accepts sysex7 packets whose data octets have
the reserved top bit set, and `set_payload` does not clear it, even in a message of several
packets. -/
theorem C57_reserved_bit_violation :
    ∃ b b' : Buf .ump, ∃ d : Src (BitVec 7), Sx.s7.tryFrom b = .ok b ∧
      (Sx.s7.ops true .vec).setPayload b d = .ok b' ∧ Sx.s7.data b' = .ok b' ∧
      Sx.s7.payloadList b' = .ok [1, 2, 3, 4, 5, 6, 7, 8] ∧
      octets b' = [0x30, 0x16, 0x81, 0x82, 0x83, 0x84, 0x85, 0x86, 0x30, 0x32, 7, 8, 0, 0, 0, 0] :=
  ⟨[0x30068081, 0x82838485], [0x30168182, 0x83848586, 0x30320708, 0],
    ⟨[1, 2, 3, 4, 5, 6, 7, 8], 8, some 8⟩, by decide +kernel⟩

/-! ## System exclusive messages over bytes -/

/-- C57 for byte messages: histories that leave the same payload leave the same bytes. -/
theorem C57_sysex7_bytes_history_free (cs cs' : List (SxCall .s7))
    (hr : SxCall.AllInRange cs (0, [])) (hr' : SxCall.AllInRange cs' (0, []))
    (hs : (SxCall.applyAll cs (0, [])).2 = (SxCall.applyAll cs' (0, [])).2) :
    (Sxb.newVec >>= SxCall.execAllBytes cs) = (Sxb.newVec >>= SxCall.execAllBytes cs') ∧
      ∃ b, (Sxb.newVec >>= SxCall.execAllBytes cs) = .ok b := by
  obtain ⟨b, e, e1, _⟩ := C47_bytes_history cs hr
  obtain ⟨b', e', e2, _⟩ := C47_bytes_history cs' hr'
  rw [e] at e'
  cases e'
  rw [e]
  simp only [Res.ok_bind]
  rw [e1, e2, hs]
  exact ⟨rfl, _, rfl⟩

-- C57: a longer payload before leaves no trace.
example : (Sxb.newVec >>= SxCall.execAllBytes
      [.setPayload ⟨[1, 2, 3, 4, 5, 6, 7, 8], 0, none⟩, .setPayload ⟨[9], 3, some 3⟩]) =
    .ok [0xF0, 9, 0xF7] := by decide +kernel

/-! ## Text messages -/

theorem flex_bind {x : Res (Buf .ump)} {b d : Buf .ump} {os : List FlexText.Op}
    (h1 : (x >>= fun b => FlexText.history b os) = .ok b) (h2 : FlexText.data b = .ok d) :
    (x >>= fun b => FlexText.history b os >>= FlexText.data) = .ok d := by
  cases x with
  | ok v =>
    simp only [Res.ok_bind] at h1 ⊢
    rw [h1]
    exact h2
  | err e => cases h1
  | panic => cases h1

theorem stream_bind {t : StreamText} {x : Res (Buf .ump)} {b d : Buf .ump} {os : List StreamText.Op}
    (h1 : (x >>= fun b => t.history b os) = .ok b) (h2 : StreamText.data b = .ok d) :
    (x >>= fun b => t.history b os >>= StreamText.data) = .ok d := by
  cases x with
  | ok v =>
    simp only [Res.ok_bind] at h1 ⊢
    rw [h1]
    exact h2
  | err e => cases h1
  | panic => cases h1

/-- C57 for flex data text: sequences of `set_text`, `set_group` and `set_optional_channel`
on new messages that leave the same text and group, and the same channel in every packet of
the text, leave the same words.  Missing: `channel()` shows the channel of the first packet
only, see `C57_flex_text_channel_violation`. -/
theorem C57_flex_text_history_free_partial (t : FlexText) (os os' : List FlexText.Op)
    (hg : (os.foldl FlexText.State.step .start).group = (os'.foldl FlexText.State.step .start).group)
    (ht : (os.foldl FlexText.State.step .start).text = (os'.foldl FlexText.State.step .start).text)
    (hc : ∀ j, j < textPackets 12 (utf8 (os.foldl FlexText.State.step .start).text).length →
      (os.foldl FlexText.State.step .start).channels j =
        (os'.foldl FlexText.State.step .start).channels j) :
    ∃ d, (t.newVec >>= fun b => FlexText.history b os >>= FlexText.data) = .ok d ∧
      (t.newVec >>= fun b => FlexText.history b os' >>= FlexText.data) = .ok d := by
  obtain ⟨b, d, h1, h2, h3, _⟩ := C30_history t os
  obtain ⟨b', d', h1', h2', h3', _⟩ := C30_history t os'
  have hd : d = d' := by
    apply octets_inj
    unfold FlexText.IsEncoding at h3 h3'
    rw [h3, h3', hg, ht]
    unfold textWire
    apply congrArg List.flatten
    apply List.map_congr_left
    intro j hj
    rw [List.mem_range] at hj
    simp only [hc j (by rw [ht]; exact hj)]
  subst hd
  exact ⟨d, flex_bind h1 h2, flex_bind h1' h2'⟩

-- C57: a longer text, group and channel before leave no trace.
example : (FlexText.newVec ⟨"", 1, 4⟩ >>= fun b => FlexText.history b
      [.setText "abcdefghijklmnop", .setChannel (some 9), .setGroup 7, .setText "ab",
        .setChannel none, .setGroup 1] >>= FlexText.data) =
    (FlexText.newVec ⟨"", 1, 4⟩ >>= fun b => FlexText.history b
      [.setGroup 1, .setText "ab"] >>= FlexText.data) := by decide +kernel

/-- C57 fails for the channel of flex data text: setting the text and then the channel, or
the channel and then the text, leaves messages with the same text, group and channel but
different words. -/
theorem C57_flex_text_channel_violation :
    ∃ t : FlexText, ∃ b b' d d' : Buf .ump, ∃ s : String,
      (t.newVec >>= fun b => FlexText.history b [.setText s, .setChannel (some 9)]) = .ok b ∧
      (t.newVec >>= fun b => FlexText.history b [.setChannel (some 9), .setText s]) = .ok b' ∧
      FlexText.text b = .ok s ∧ FlexText.text b' = .ok s ∧
      FlexText.group b = FlexText.group b' ∧ FlexText.channel b = FlexText.channel b' ∧
      FlexText.data b = .ok d ∧ FlexText.data b' = .ok d' ∧ d ≠ d' :=
  ⟨⟨"", 1, 4⟩, [0xD0490104, 0x61626364, 0x65666768, 0x696A6B6C, 0xD0D00104, 0x6D000000, 0, 0],
    [0xD0490104, 0x61626364, 0x65666768, 0x696A6B6C, 0xD0C90104, 0x6D000000, 0, 0],
    [0xD0490104, 0x61626364, 0x65666768, 0x696A6B6C, 0xD0D00104, 0x6D000000, 0, 0],
    [0xD0490104, 0x61626364, 0x65666768, 0x696A6B6C, 0xD0C90104, 0x6D000000, 0, 0],
    "abcdefghijklm", by decide +kernel⟩

/-- C57 for endpoint names and product instance ids: the words depend on the last text
only. -/
theorem C57_stream_text_history_free (t : StreamText)
    (ht : t = .endpointName ∨ t = .productInstanceId) (ss ss' : List String) (s : String) :
    ∃ d, (t.newVec >>= fun b => t.history b ((ss ++ [s]).map .setText) >>= StreamText.data) = .ok d ∧
      (t.newVec >>= fun b => t.history b ((ss' ++ [s]).map .setText) >>= StreamText.data) = .ok d := by
  have ha : t ∈ StreamText.all := by rcases ht with rfl | rfl <;> simp [StreamText.all]
  have hoff : t.offset = 0 := by rcases ht with rfl | rfl <;> rfl
  have hops : ∀ ss : List String, ∀ o ∈ (ss ++ [s]).map StreamText.Op.setText,
      ∃ s, o = StreamText.Op.setText s := by
    intro ss o ho
    rw [List.mem_map] at ho
    obtain ⟨x, _, rfl⟩ := ho
    exact ⟨x, rfl⟩
  have hlast : ∀ ss : List String,
      (((ss ++ [s]).map StreamText.Op.setText).foldl (StreamText.State.step t.capacity) .start).text = s := by
    intro ss
    rw [List.map_append, List.foldl_append]
    rfl
  obtain ⟨b, d, h1, h2, h3, _⟩ := C31_history t ha _ (.inr (hops ss))
  obtain ⟨b', d', h1', h2', h3', _⟩ := C31_history t ha _ (.inr (hops ss'))
  have hd : d = d' := by
    apply octets_inj
    unfold StreamText.IsEncoding at h3 h3'
    rw [hlast] at h3 h3'
    simp only [if_pos hoff] at h3 h3'
    rw [h3, h3']
  subst hd
  exact ⟨d, stream_bind h1 h2, stream_bind h1' h2'⟩

-- C57: a longer name before leaves no trace.
example : (StreamText.endpointName.newVec >>= fun b => StreamText.endpointName.history b
      [.setText "abcdefghijklmnop", .setText "ab"] >>= StreamText.data) =
    .ok [0xF0036162, 0, 0, 0] := by decide +kernel

/-- C57 for function block names: sequences of `set_name` and `set_function_block` on new
messages that leave the same text, and the same number in every packet of it, leave the same
words.  Missing: `function_block()` shows the number of the first packet only, see
`C32_number_on_growth_violation`. -/
theorem C57_function_block_name_history_free_partial (os os' : List StreamText.Op)
    (ht : (os.foldl (StreamText.State.step 13) .start).text =
      (os'.foldl (StreamText.State.step 13) .start).text)
    (hc : ∀ j, j < textPackets 13 (utf8 (os.foldl (StreamText.State.step 13) .start).text).length →
      (os.foldl (StreamText.State.step 13) .start).blocks j =
        (os'.foldl (StreamText.State.step 13) .start).blocks j) :
    ∃ d, (StreamText.functionBlockName.newVec >>= fun b =>
          StreamText.functionBlockName.history b os >>= StreamText.data) = .ok d ∧
      (StreamText.functionBlockName.newVec >>= fun b =>
          StreamText.functionBlockName.history b os' >>= StreamText.data) = .ok d := by
  obtain ⟨b, d, h1, h2, h3, _⟩ := C31_history .functionBlockName (by simp [StreamText.all]) os (.inl rfl)
  obtain ⟨b', d', h1', h2', h3', _⟩ :=
    C31_history .functionBlockName (by simp [StreamText.all]) os' (.inl rfl)
  have hcap : StreamText.functionBlockName.capacity = 13 := rfl
  have hd : d = d' := by
    apply octets_inj
    unfold StreamText.IsEncoding at h3 h3'
    rw [hcap] at h3 h3'
    rw [h3, h3', ht]
    unfold textWire
    apply congrArg List.flatten
    apply List.map_congr_left
    intro j hj
    rw [List.mem_range] at hj
    simp only [hc j (by rw [ht]; exact hj)]
  subst hd
  exact ⟨d, stream_bind h1 h2, stream_bind h1' h2'⟩

-- C57: hypotheses met by different histories.
example : (StreamText.functionBlockName.newVec >>= fun b =>
      StreamText.functionBlockName.history b
        [.setText "abcdefghijklmnop", .setBlock 5, .setText "ab", .setBlock 7] >>= StreamText.data) =
    (StreamText.functionBlockName.newVec >>= fun b =>
      StreamText.functionBlockName.history b [.setBlock 7, .setText "ab"] >>= StreamText.data) := by
  decide +kernel

end Midi2
