import Verif.Spec.Enums
import Verif.Props.Streams
import Verif.Props.Construct

/-!
# C14: rebuffering of all messages and of the enums
-/

namespace Midi2

/-- The packet found first stays the first in any buffer which begins with the packets up to
it. -/
theorem findIdx_prefix {α : Type} {n i : Nat} (hn : 0 < n) {p : List α → Bool} {b d b' : List α}
    (h : (chunksExact n b).findIdx? p = some i) (hd : d = b.take (i * n + n)) (hp : d <+: b') :
    i * n + n ≤ b.length ∧ (chunksExact n b').findIdx? p = some i := by
  have hi : i < (chunksExact n b).length := (List.findIdx?_eq_some_iff_findIdx_eq.mp h).1
  rw [chunksExact_length hn] at hi
  have hlen : i * n + n ≤ b.length := by
    have h1 : (i + 1) * n ≤ b.length / n * n := Nat.mul_le_mul_right n hi
    have h2 := Nat.div_mul_le_self b.length n
    rw [Nat.succ_mul] at h1
    omega
  have hdl : d.length = i * n + n := by rw [hd, List.length_take]; omega
  have hdvd : n ∣ d.length := ⟨i + 1, by rw [hdl, Nat.mul_comm n, Nat.succ_mul]⟩
  have hcl : (chunksExact n d).length = i + 1 := by
    rw [chunksExact_length hn, hdl, ← Nat.succ_mul, Nat.mul_div_cancel _ hn]
  have key : ∀ s, (chunksExact n (d ++ s)).findIdx? p =
      ((chunksExact n d).findIdx? p).or (((chunksExact n s).findIdx? p).map (· + (i + 1))) := by
    intro s
    rw [chunksExact_append hn _ _ hdvd, List.findIdx?_append, hcl]
  have hb : b = d ++ b.drop (i * n + n) := by rw [hd, List.take_append_drop]
  rw [hb, key] at h
  have hfd : (chunksExact n d).findIdx? p = some i := by
    cases e : (chunksExact n d).findIdx? p with
    | some j => rw [e] at h; exact h
    | none =>
      rw [e, Option.none_or] at h
      cases e2 : (chunksExact n (b.drop (i * n + n))).findIdx? p with
      | none => rw [e2] at h; cases h
      | some j =>
        rw [e2] at h
        have : j + (i + 1) = i := Option.some.inj h
        omega
  obtain ⟨s, rfl⟩ := hp
  refine ⟨hlen, ?_⟩
  rw [key, hfd]; rfl

theorem sliceTo_inv {α : Type} {b d : List α} {n : Nat} (h : sliceTo b n = .ok d) :
    n ≤ b.length ∧ d = b.take n := by
  unfold sliceTo at h
  split at h
  · next hl => cases h; exact ⟨hl, rfl⟩
  · cases h

theorem sliceTo_prefix {α : Type} {b d b' : List α} {n : Nat} (h : sliceTo b n = .ok d)
    (hp : d <+: b') : sliceTo b' n = .ok d := by
  obtain ⟨hl, hd⟩ := sliceTo_inv h
  obtain ⟨s, rfl⟩ := hp
  have hdl : d.length = n := by rw [hd, List.length_take]; omega
  unfold sliceTo
  rw [if_pos (by rw [List.length_append]; omega), List.take_left' hdl]

/-- `data()` is determined by itself: it is the same in every buffer beginning with it. -/
theorem UmpKind.data_prefix (k : UmpKind) {b d b' : Buf .ump} (h : k.data b = .ok d)
    (hp : d <+: b') : k.data b' = .ok d := by
  have key : ∀ {n : Nat} {p : Buf .ump → Bool}, 0 < n →
      ((match (chunksExact n b).findIdx? p with
        | some i => Res.ok (i * n + n)
        | none => .panic) >>= fun s => sliceTo b s) = .ok d →
      ((match (chunksExact n b').findIdx? p with
        | some i => Res.ok (i * n + n)
        | none => .panic) >>= fun s => sliceTo b' s) = .ok d := by
    intro n p hn h
    cases e : (chunksExact n b).findIdx? p with
    | none => rw [e] at h; cases h
    | some i =>
      rw [e] at h
      have h : sliceTo b (i * n + n) = .ok d := h
      rw [(findIdx_prefix hn e (sliceTo_inv h).2 hp).2]
      exact sliceTo_prefix h hp
  cases k with
  | fixed d => exact sliceTo_prefix h hp
  | sysex k => exact key k.stride_pos h
  | flexText t => exact key (by omega) h
  | streamText t => exact key (by omega) h

theorem BytesKind.data_prefix (k : BytesKind) {b d b' : Buf .bytes} (h : k.data b = .ok d)
    (hp : d <+: b') : k.data b' = .ok d := by
  cases k with
  | fixed d => exact sliceTo_prefix h hp
  | sysex7 =>
    have h : ((match b.findIdx? (· == Sxb.endByte) with
        | some i => Res.ok (i + 1)
        | none => .panic) >>= fun s => sliceTo b s) = .ok d := h
    show ((match b'.findIdx? (· == Sxb.endByte) with
        | some i => Res.ok (i + 1)
        | none => .panic) >>= fun s => sliceTo b' s) = .ok d
    cases e : b.findIdx? (· == Sxb.endByte) with
    | none => rw [e] at h; cases h
    | some i =>
      rw [e] at h
      have h : sliceTo b (i + 1) = .ok d := h
      obtain ⟨hl, hd⟩ := sliceTo_inv h
      have hdl : d.length = i + 1 := by rw [hd, List.length_take]; omega
      have hb : b = d ++ b.drop (i + 1) := by rw [hd, List.take_append_drop]
      have hfd : d.findIdx? (· == Sxb.endByte) = some i := by
        rw [hb, List.findIdx?_append] at e
        cases e1 : d.findIdx? (· == Sxb.endByte) with
        | some j => rw [e1] at e; exact e
        | none =>
          rw [e1, Option.none_or] at e
          cases e2 : (b.drop (i + 1)).findIdx? (· == Sxb.endByte) with
          | none => rw [e2] at e; cases e
          | some j =>
            rw [e2] at e
            have : j + d.length = i := Option.some.inj e
            omega
      obtain ⟨s, rfl⟩ := hp
      rw [List.findIdx?_append, hfd]
      exact sliceTo_prefix h ⟨s, rfl⟩

theorem UmpKind.data_is_prefix (k : UmpKind) {b d : Buf .ump} (h : k.data b = .ok d) : d <+: b := by
  have key : ∀ {x : Res Nat}, (x >>= fun s => sliceTo b s) = .ok d → d <+: b := by
    intro x hx
    cases x with
    | ok n => exact (sliceTo_inv hx).2 ▸ List.take_prefix n b
    | err e => cases hx
    | panic => cases hx
  cases k with
  | fixed d => exact (sliceTo_inv h).2 ▸ List.take_prefix _ b
  | sysex k => exact key h
  | flexText t => exact key h
  | streamText t => exact key h

theorem BytesKind.data_is_prefix (k : BytesKind) {b d : Buf .bytes} (h : k.data b = .ok d) :
    d <+: b := by
  have key : ∀ {x : Res Nat}, (x >>= fun s => sliceTo b s) = .ok d → d <+: b := by
    intro x hx
    cases x with
    | ok n => exact (sliceTo_inv hx).2 ▸ List.take_prefix n b
    | err e => cases hx
    | panic => cases hx
  cases k with
  | fixed d => exact (sliceTo_inv h).2 ▸ List.take_prefix _ b
  | sysex7 => exact key h

/-- C14 for every UMP message type (fixed-size, system exclusive, text): `rebuffer_into` and
`try_rebuffer_into` give a message with the same `data()`, the latter exactly when the array is
at least as long as the source buffer; `array_rebuffer_into` gives one exactly when the array
holds `data()` (and one packet), and otherwise panics. -/
theorem C14_ump_rebuffer (k : UmpKind) (b d : Buf .ump) (hd : k.data b = .ok d) (size : Nat) :
    (∃ x, k.rebufferFrom b = .ok x ∧ k.data x = .ok d) ∧
    (b.length ≤ size → ∃ x, k.tryRebufferArray size b = .ok x ∧ x.length = size ∧ b <+: x ∧
      k.data x = .ok d) ∧
    (size < b.length → k.tryRebufferArray size b = .err .bufferOverflow) ∧
    (k.packetWords ≤ size → d.length ≤ size → ∃ x, k.arrayRebuffer size b = .ok x ∧ x.length = size ∧
      k.data x = .ok d) ∧
    (size < k.packetWords ∨ size < d.length → k.arrayRebuffer size b = .panic) := by
  have hw : k.packetWords = k.minSize := by
    cases k with
    | sysex k => exact words_eq k
    | _ => rfl
  rw [hw]
  have hp := k.data_is_prefix hd
  refine ⟨⟨b, rfl, hd⟩, fun h => ?_, fun h => if_pos h, fun h1 h2 => ?_, fun h => ?_⟩
  · refine ⟨_, if_neg (by omega), by simp; omega, List.prefix_append _ _, ?_⟩
    exact k.data_prefix hd (hp.trans (List.prefix_append _ _))
  · refine ⟨d ++ List.replicate (size - d.length) 0, ?_, by simp; omega,
      k.data_prefix hd (List.prefix_append _ _)⟩
    unfold UmpKind.arrayRebuffer
    rw [if_neg (by omega), hd, Res.ok_bind, if_pos h2]; rfl
  · unfold UmpKind.arrayRebuffer
    by_cases h1 : size < k.minSize
    · rw [if_pos h1]
    · rw [if_neg h1, hd, Res.ok_bind, if_neg (by omega)]

/-- C14 for every message type over bytes. -/
theorem C14_bytes_rebuffer (k : BytesKind) (b d : Buf .bytes) (hd : k.data b = .ok d) (size : Nat) :
    (∃ x, k.rebufferFrom b = .ok x ∧ k.data x = .ok d) ∧
    (b.length ≤ size → ∃ x, k.tryRebufferArray size b = .ok x ∧ x.length = size ∧ b <+: x ∧
      k.data x = .ok d) ∧
    (size < b.length → k.tryRebufferArray size b = .err .bufferOverflow) ∧
    (k.shortest ≤ size → d.length ≤ size → ∃ x, k.arrayRebuffer size b = .ok x ∧ x.length = size ∧
      k.data x = .ok d) ∧
    (size < k.shortest ∨ size < d.length → k.arrayRebuffer size b = .panic) := by
  have hw : k.shortest = k.minSize := by cases k <;> rfl
  rw [hw]
  have hp := k.data_is_prefix hd
  refine ⟨⟨b, rfl, hd⟩, fun h => ?_, fun h => if_pos h, fun h1 h2 => ?_, fun h => ?_⟩
  · refine ⟨_, if_neg (by omega), by simp; omega, List.prefix_append _ _, ?_⟩
    exact k.data_prefix hd (hp.trans (List.prefix_append _ _))
  · refine ⟨d ++ List.replicate (size - d.length) 0, ?_, by simp; omega,
      k.data_prefix hd (List.prefix_append _ _)⟩
    unfold BytesKind.arrayRebuffer
    rw [if_neg (by omega), hd, Res.ok_bind, if_pos h2]; rfl
  · unfold BytesKind.arrayRebuffer
    by_cases h1 : size < k.minSize
    · rw [if_pos h1]
    · rw [if_neg h1, hd, Res.ok_bind, if_neg (by omega)]

example : ∃ x, UmpKind.arrayRebuffer (.sysex .s7) 5 [0x30160102, 0x03040506, 0x30310700, 0, 0x20903C40] = .ok x ∧
    x.length = 5 ∧
    UmpKind.data (.sysex .s7) x = .ok [0x30160102, 0x03040506, 0x30310700, 0] :=
  (C14_ump_rebuffer (.sysex .s7) [0x30160102, 0x03040506, 0x30310700, 0, 0x20903C40]
    [0x30160102, 0x03040506, 0x30310700, 0] (by decide +kernel) 5).2.2.2.1 (by decide) (by decide)

example : ∃ x, BytesKind.tryRebufferArray .sysex7 6 [0xF0, 1, 2, 0xF7] = .ok x ∧ x.length = 6 ∧
    [0xF0, 1, 2, 0xF7] <+: x ∧ BytesKind.data .sysex7 x = .ok [0xF0, 1, 2, 0xF7] :=
  (C14_bytes_rebuffer .sysex7 [0xF0, 1, 2, 0xF7] [0xF0, 1, 2, 0xF7] (by decide +kernel) 6).2.1
    (by decide)

/-- C14: `array_rebuffer_into` panics on a variable-size message longer than the array although
the array has the minimum size of the type. -/
theorem C14_array_rebuffer_violation :
    UmpMessage.tryFrom [0x30160102, 0x03040506, 0x30310700, 0] =
      .ok (.sysex .s7, [0x30160102, 0x03040506, 0x30310700, 0]) ∧
    UmpKind.arrayRebuffer (.sysex .s7) 2 [0x30160102, 0x03040506, 0x30310700, 0] = .panic ∧
    UmpKind.minSize (.sysex .s7) ≤ 2 ∧
    BytesKind.tryFrom .sysex7 [0xF0, 1, 0xF7] = .ok [0xF0, 1, 0xF7] ∧
    BytesKind.arrayRebuffer .sysex7 2 [0xF0, 1, 0xF7] = .panic := by
  refine ⟨by decide +kernel, by decide +kernel, by decide, by decide +kernel, by decide +kernel⟩

/-- C14 for values of the enums of fixed-size messages (`ChannelVoice1`, `ChannelVoice2`,
`SystemCommon`, `Utility`): rebuffering into an array large enough keeps the variant and
`data()`. -/
theorem C14_fixed_enum_array_rebuffer (d : MsgDesc) (m : Fmt) (b : Buf m)
    (hb : d.minSize m ≤ b.length) (size : Nat) (hs : d.minSize m ≤ size) :
    ∃ x, FixedEnum.arrayRebuffer m size (d, b) = .ok (d, x) ∧ x.length = size ∧
      d.data m x = d.data m b := by
  obtain ⟨x, h1, h2, h3⟩ := (C14_fixed_rebuffer d m b size hb).2.2.2 hs
  refine ⟨x, ?_, h2, h3⟩
  show (d.arrayRebuffer m size b >>= _) = _
  rw [h1]
  rfl

example : ∃ x, FixedEnum.arrayRebuffer .bytes 5 (Msg.cv1NoteOn, [0x93, 0x3C, 0x40, 0xF8]) =
      .ok (Msg.cv1NoteOn, x) ∧ x.length = 5 ∧
    Msg.cv1NoteOn.data .bytes x = Msg.cv1NoteOn.data .bytes [0x93, 0x3C, 0x40, 0xF8] :=
  C14_fixed_enum_array_rebuffer Msg.cv1NoteOn .bytes [0x93, 0x3C, 0x40, 0xF8] (by decide) 5 (by decide)

/-- C14 for parsed `UmpMessage` values: rebuffering keeps the variant and `data()`. -/
theorem C14_ump_message_rebuffer_partial (b b' : Buf .ump) (k : UmpKind)
    (hok : UmpMessage.tryFrom b = .ok (k, b')) (hc : k.Complete b) (size : Nat) :
    ∃ d, UmpMessage.data (k, b') = .ok d ∧ d <+: b ∧
      (∃ x, UmpMessage.rebufferFrom (k, b') = .ok (k, x) ∧ UmpMessage.data (k, x) = .ok d) ∧
      (b.length ≤ size → ∃ x, UmpMessage.tryRebufferArray size (k, b') = .ok (k, x) ∧
        x.length = size ∧ UmpMessage.data (k, x) = .ok d) ∧
      (size < b.length → UmpMessage.tryRebufferArray size (k, b') = .err .bufferOverflow) := by
  obtain ⟨d, ps, h1, h2, _⟩ := C33_ump_message_packets_partial b b' k hok hc
  obtain ⟨rfl, _⟩ := C10_ump_variant b b' k hok
  obtain ⟨⟨x, a1, a2⟩, a3, a4, _⟩ := C14_ump_rebuffer k b' d h1 size
  refine ⟨d, h1, h2, ⟨x, ?_, a2⟩, fun h => ?_, fun h => ?_⟩
  · show (k.rebufferFrom b' >>= _) = _
    rw [a1]; rfl
  · obtain ⟨y, y1, y2, _, y3⟩ := a3 h
    refine ⟨y, ?_, y2, y3⟩
    show (k.tryRebufferArray size b' >>= _) = _
    rw [y1]; rfl
  · show (k.tryRebufferArray size b' >>= _) = _
    rw [a4 h]; rfl

example : ∃ d, UmpMessage.data (.fixed Msg.cv2NoteOn, [0x40973C00, 0x80000000, 7]) = .ok d ∧
    d <+: [0x40973C00, 0x80000000, 7] :=
  have ⟨d, h1, h2, _⟩ := C14_ump_message_rebuffer_partial [0x40973C00, 0x80000000, 7]
    [0x40973C00, 0x80000000, 7] (.fixed Msg.cv2NoteOn) (by decide +kernel) trivial 3
  ⟨d, h1, h2⟩

/-- C14 for parsed `BytesMessage` values. -/
theorem C14_bytes_message_rebuffer (b b' : Buf .bytes) (k : BytesKind)
    (hok : BytesMessage.tryFrom b = .ok (k, b')) (size : Nat) :
    ∃ d, BytesMessage.data (k, b') = .ok d ∧ d <+: b ∧
      (∃ x, BytesMessage.rebufferFrom (k, b') = .ok (k, x) ∧ BytesMessage.data (k, x) = .ok d) ∧
      (b.length ≤ size → ∃ x, BytesMessage.tryRebufferArray size (k, b') = .ok (k, x) ∧
        x.length = size ∧ BytesMessage.data (k, x) = .ok d) ∧
      (size < b.length → BytesMessage.tryRebufferArray size (k, b') = .err .bufferOverflow) := by
  obtain ⟨lo, hi, he⟩ := C11_bytes_variant b b' k hok
  obtain ⟨ht, rfl⟩ := (C11_bytes_dispatch he b b').1.mp hok
  have hd : ∃ d, k.data b' = .ok d := by
    cases k with
    | fixed d => exact ⟨_, data_ok ((tryFrom_iff d .bytes b').mp ht).1⟩
    | sysex7 =>
      have ht : Sxb.tryFrom b' = .ok b' := ht
      cases e : b'.findIdx? (· == Sxb.endByte) with
      | none =>
        unfold Sxb.tryFrom at ht
        split at ht
        · cases ht
        · cases e0 : at' b' 0 with
          | ok w =>
            rw [e0, Res.ok_bind] at ht
            cases hw : (w == Sxb.startByte) with
            | true =>
              rw [hw, Res.check_true, Res.ok_bind] at ht
              unfold Sxb.endPos at ht
              rw [e] at ht
              cases ht
            | false => rw [hw] at ht; cases ht
          | err _ => rw [e0] at ht; cases ht
          | panic => rw [e0] at ht; cases ht
      | some i =>
        have hi := (List.findIdx?_eq_some_iff_findIdx_eq.mp e).1
        refine ⟨b'.take (i + 1), ?_⟩
        show (Sxb.size b' >>= fun s => sliceTo b' s) = _
        unfold Sxb.size Sxb.endPos sliceTo
        rw [e]
        exact if_pos hi
  obtain ⟨d, hd⟩ := hd
  obtain ⟨⟨x, a1, a2⟩, a3, a4, _⟩ := C14_bytes_rebuffer k b' d hd size
  refine ⟨d, hd, k.data_is_prefix hd, ⟨x, ?_, a2⟩, fun h => ?_, fun h => ?_⟩
  · show (k.rebufferFrom b' >>= _) = _
    rw [a1]; rfl
  · obtain ⟨y, y1, y2, _, y3⟩ := a3 h
    refine ⟨y, ?_, y2, y3⟩
    show (k.tryRebufferArray size b' >>= _) = _
    rw [y1]; rfl
  · show (k.tryRebufferArray size b' >>= _) = _
    rw [a4 h]; rfl

example : ∃ d, BytesMessage.data (.sysex7, [0xF0, 1, 2, 0xF7]) = .ok d ∧
    d <+: [0xF0, 1, 2, 0xF7] :=
  have ⟨d, h1, h2, _⟩ := C14_bytes_message_rebuffer [0xF0, 1, 2, 0xF7]
    [0xF0, 1, 2, 0xF7] .sysex7 (by decide +kernel) 6
  ⟨d, h1, h2⟩

/-- C14: `data()` is preserved by rebuffering a flex data text message, but `text()` is not:
the last octet of a full last packet is lost in an exact buffer and comes back in a longer
array. -/
theorem C14_flex_text_getter_violation :
    ∃ b : Buf .ump, ∃ x, UmpMessage.tryFrom b = .ok (.flexText ⟨"CopyrightNotice", 1, 4⟩, b) ∧
      UmpMessage.tryRebufferArray 8 (.flexText ⟨"CopyrightNotice", 1, 4⟩, b) =
        .ok (.flexText ⟨"CopyrightNotice", 1, 4⟩, x) ∧
      FlexText.text b = .ok "abcdefghijk" ∧ FlexText.text x = .ok "abcdefghijkl" :=
  ⟨[0xD0100104, 0x61626364, 0x65666768, 0x696A6B6C],
    [0xD0100104, 0x61626364, 0x65666768, 0x696A6B6C, 0, 0, 0, 0], by decide +kernel,
    by decide +kernel, by decide +kernel, by decide +kernel⟩

end Midi2
