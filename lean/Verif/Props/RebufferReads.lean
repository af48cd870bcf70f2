import Verif.Props.Rebuffer
import Verif.Props.ReparseExact
import Verif.Props.ConstructExact
import Verif.Props.BytesExact

/-!
# C14: what the getters return after rebuffering

`Verif/Props/Rebuffer.lean` compares `data()`.  Here: payload, group, stream id and text of the
rebuffered message.
-/

namespace Midi2

/-- The three ways of giving a UMP message another buffer. -/
def UmpKind.Rebuffered (k : UmpKind) (size : Nat) (b x : Buf .ump) : Prop :=
  k.rebufferFrom b = .ok x ∨ k.tryRebufferArray size b = .ok x ∨ k.arrayRebuffer size b = .ok x

theorem UmpKind.Rebuffered.prefix {k : UmpKind} {size : Nat} {b x d : Buf .ump}
    (h : k.Rebuffered size b x) (hd : k.data b = .ok d) : d <+: x := by
  have hp := k.data_is_prefix hd
  rcases h with h | h | h
  · cases h; exact hp
  · unfold UmpKind.tryRebufferArray at h
    split at h
    · cases h
    · cases h; exact hp.trans (List.prefix_append _ _)
  · unfold UmpKind.arrayRebuffer at h
    split at h
    · cases h
    · rw [hd, Res.ok_bind] at h
      split at h
      · cases h; exact List.prefix_append _ _
      · cases h

/-- C14, system exclusive messages: payload, payload size, group and stream id are kept by every
way of rebuffering. -/
theorem C14_sysex_rebuffer_reads (k : Sx) (b x : Buf .ump) (hok : k.tryFrom b = .ok b)
    (hu : k.layout.Untruncated b) (size : Nat) (hx : (UmpKind.sysex k).Rebuffered size b x) :
    k.payloadList x = k.payloadList b ∧ k.payloadSize x = k.payloadSize b ∧
      Sx.group x = Sx.group b ∧ Sx.streamId x = Sx.streamId b := by
  obtain ⟨g, sizes, M, _, l, h1, h2, h3, h4⟩ := C23_payload_of_accepted k b hok hu
  obtain ⟨s, rfl⟩ := hx.prefix (show (UmpKind.sysex k).data b = _ from h4)
  have hw : 0 < k.layout.words := by cases k <;> decide
  have hn0 : 0 < sizes.length := by
    have := M.nonempty
    cases hs : sizes with
    | nil => exact absurd hs this
    | cons _ _ => simp
  have hwhole := M.whole
  have hn1 : k.layout.words * 1 ≤ k.layout.words * sizes.length := Nat.mul_le_mul_left _ hn0
  have hdl : (b.take (k.layout.words * sizes.length)).length = k.layout.words * sizes.length := by
    rw [List.length_take]; omega
  have hin : ∀ j, j < sizes.length → k.layout.words * j < k.layout.words * sizes.length :=
    fun j hj => Nat.mul_lt_mul_of_pos_left hj hw
  have hf : ∀ i a w, i < k.layout.words * sizes.length →
      fieldAt (b.take (k.layout.words * sizes.length) ++ s) i a w = fieldAt b i a w := by
    intro i a w hi
    rw [fieldAt_append (by rw [hdl]; exact hi), fieldAt_take b hi]
  have M' : k.layout.IsMessage (b.take (k.layout.words * sizes.length) ++ s) g sizes := by
    refine ⟨M.nonempty, by rw [List.length_append]; omega, M.small, fun j hj => ?_, fun j hj => ?_,
      fun j hj => ?_, fun j z hz => ?_⟩
    · rw [hf _ _ _ (hin j hj)]; exact M.type j hj
    · rw [hf _ _ _ (hin j hj)]; exact M.group j hj
    · rw [hf _ _ _ (hin j hj)]; exact M.status j hj
    · rw [hf _ _ _ (hin j (List.getElem?_eq_some_iff.mp hz).1)]; exact M.size j z hz
  obtain ⟨g', _, V⟩ := Sx.isMessage_valid M'
  have hl : V.payload = l := by
    have e : V.payload.map BitVec.toNat = l.map BitVec.toNat := by
      rw [h3, Sx.payload_spec V]
      unfold SysexLayout.payload
      congr 1
      refine List.map_congr_left fun ⟨z, j⟩ hm => ?_
      have hj := List.mem_zipIdx' hm
      unfold SysexLayout.packetBytes
      refine List.map_congr_left fun i hi => ?_
      have hi : i < z := by simpa using hi
      have hz : z ≤ k.layout.capacity := M.small z (by rw [hj.2]; exact List.getElem_mem hj.1)
      have hcap : k.layout.first + k.layout.capacity ≤ 4 * k.layout.words := by cases k <;> decide
      have hm1 : k.layout.words * (j + 1) ≤ k.layout.words * sizes.length :=
        Nat.mul_le_mul_left _ hj.1
      rw [Nat.mul_succ] at hm1
      have hassoc : 4 * k.layout.words * j = 4 * (k.layout.words * j) := Nat.mul_assoc ..
      have ha : 4 * k.layout.words * j + k.layout.first + i < 4 * (k.layout.words * sizes.length) := by
        omega
      rw [← octetVal_take b ha, ← octetVal_take (b.take _ ++ s) ha, List.take_left' hdl]
    exact List.map_inj_right (fun _ _ h => BitVec.eq_of_toNat_eq h) |>.mp e
  have hat : at' (b.take (k.layout.words * sizes.length) ++ s) 0 = at' b 0 := by
    unfold at'
    rw [List.getElem?_append_left (by omega), List.getElem?_take_of_lt (by omega)]
  refine ⟨?_, ?_, ?_, ?_⟩
  · rw [V.frame.payloadList_eq, h1]; exact congrArg Res.ok hl
  · rw [V.frame.payloadSize_eq, h2]; exact congrArg (fun l => Res.ok (List.length l)) hl
  · unfold Sx.group; rw [hat]
  · unfold Sx.streamId; rw [hat]

-- A message of two packets with a note on behind it, into an array of six words.
example : (UmpKind.sysex .s7).Rebuffered 6 [0x35160102, 0x03040506, 0x35310700, 0, 0x20903C40]
      [0x35160102, 0x03040506, 0x35310700, 0, 0, 0] ∧
    Sx.s7.tryFrom [0x35160102, 0x03040506, 0x35310700, 0, 0x20903C40] =
      .ok [0x35160102, 0x03040506, 0x35310700, 0, 0x20903C40] ∧
    Sx.s7.payloadList [0x35160102, 0x03040506, 0x35310700, 0, 0, 0] = .ok [1, 2, 3, 4, 5, 6, 7] :=
  ⟨.inr (.inr (by decide +kernel)), by decide +kernel, by decide +kernel⟩

/-- C14, sysex7 in bytes. -/
theorem C14_sysex7_bytes_rebuffer_reads (b x : Buf .bytes) (hok : Sxb.tryFrom b = .ok b) (size : Nat)
    (hx : BytesKind.sysex7.rebufferFrom b = .ok x ∨ BytesKind.sysex7.tryRebufferArray size b = .ok x ∨
      BytesKind.sysex7.arrayRebuffer size b = .ok x) :
    Sxb.payloadList x = Sxb.payloadList b ∧ Sxb.payloadSize x = Sxb.payloadSize b := by
  rcases hx with h | h | h
  · cases h; exact ⟨rfl, rfl⟩
  · unfold BytesKind.tryRebufferArray at h
    split at h
    · cases h
    · cases h
      obtain ⟨_, _, h1, h2⟩ := C12_sysex7_bytes_suffix b _ hok
      exact ⟨h1, h2⟩
  · unfold BytesKind.arrayRebuffer at h
    split at h
    · cases h
    · cases hd : Sxb.data b with
      | ok d =>
        rw [show BytesKind.sysex7.data b = .ok d from hd, Res.ok_bind] at h
        split at h
        · cases h
          obtain ⟨a1, _, a3, a4⟩ := C53_sysex7_bytes b d hok hd
          obtain ⟨_, _, h1, h2⟩ := C12_sysex7_bytes_suffix d (List.replicate (size - d.length) 0) a1
          exact ⟨h1.trans a3, h2.trans a4⟩
        · cases h
      | err e => rw [show BytesKind.sysex7.data b = .err e from hd] at h; cases h
      | panic => rw [show BytesKind.sysex7.data b = .panic from hd] at h; cases h

example : Sxb.payloadList [0xF0, 1, 2, 0xF7, 0, 0] = Sxb.payloadList [0xF0, 1, 2, 0xF7] :=
  (C14_sysex7_bytes_rebuffer_reads [0xF0, 1, 2, 0xF7] [0xF0, 1, 2, 0xF7, 0, 0] (by decide +kernel) 6
    (.inr (.inl (by decide +kernel)))).1

/-! ## Fixed-size messages in bytes -/

/-- C14: every property survives `try_rebuffer_into`, and it survives `array_rebuffer_into` for
every type but `SongPositionPointer`. -/
theorem C14_fixed_bytes_rebuffer_reads_partial {d : MsgDesc} (hd : d ∈ Msg.hybridAll)
    (b x : Buf .bytes) (size : Nat) (hb : d.minSize .bytes ≤ b.length)
    (hx : (d.tryRebufferArray .bytes size b = .ok x ∧ ¬ ShortPointer d b) ∨
      (d.arrayRebuffer .bytes size b = .ok x ∧ d.name ≠ "system_common::SongPositionPointer"))
    {n : String} {f : Fld} (hf : (n, f) ∈ d.props) : f.read .bytes x = f.read .bytes b := by
  rcases hx with ⟨hx, hs⟩ | ⟨hx, hn⟩
  · unfold MsgDesc.tryRebufferArray at hx
    split at hx
    · cases hx
    · cases hx
      exact (C12_bytes_suffix hd b _ hb (not_short hd hb hs)).2.1 n f hf
  · have hl : (b.take (d.minSize .bytes)).length = d.minSize .bytes := by
      rw [List.length_take]; omega
    have key := fun s => (C12_bytes_suffix hd (b.take (d.minSize .bytes)) s (by omega)
      (fun h => absurd h hn)).2.1 n f hf
    unfold MsgDesc.arrayRebuffer at hx
    rw [data_ok hb] at hx
    split at hx
    · cases hx
    · simp only [Res.ok_bind] at hx
      split at hx
      · cases hx
        rw [key, ← key (b.drop (d.minSize .bytes)), List.take_append_drop]
      · cases hx

example : Fld.read .bytes (.hybrid .u7 ⟨0, 0, 0x7F⟩ ⟨0x0000007F, 0, 0, 0⟩) [0x93, 0x3C, 0x40, 0] =
    Fld.read .bytes (.hybrid .u7 ⟨0, 0, 0x7F⟩ ⟨0x0000007F, 0, 0, 0⟩) [0x93, 0x3C, 0x40, 0xF8] :=
  C14_fixed_bytes_rebuffer_reads_partial (d := Msg.cv1NoteOn) (n := "velocity") (by decide +kernel) _ _ 4
    (by decide) (.inr ⟨by decide +kernel, by decide⟩) (by simp [Msg.cv1NoteOn])

/-- C14 fails for `SongPositionPointer`: `array_rebuffer_into` loses the high part of the
position. -/
theorem C14_song_position_pointer_violation :
    ∃ b x : Buf .bytes, Msg.sysSongPositionPointer.tryFrom .bytes b = .ok b ∧
      Msg.sysSongPositionPointer.arrayRebuffer .bytes 3 b = .ok x ∧
      Fld.read .bytes (.hybrid .u14 ⟨0, 0x7F, 0x7F⟩ ⟨0x00007F7F, 0, 0, 0⟩) b = .ok (8323 : BitVec 14) ∧
      Fld.read .bytes (.hybrid .u14 ⟨0, 0x7F, 0x7F⟩ ⟨0x00007F7F, 0, 0, 0⟩) x = .ok (3 : BitVec 14) :=
  ⟨[0xF2, 3, 65], [0xF2, 3, 0], by decide +kernel, by decide +kernel, by decide +kernel,
    by decide +kernel⟩

example : Msg.cv1NoteOn.arrayRebuffer .bytes 4 [0x93, 0x3C, 0x40, 0xF8] =
    .ok [0x93, 0x3C, 0x40, 0] := by decide +kernel

/-! ## Text -/

theorem octetAt_zeros (b : Buf .ump) (n : Nat) {a : Nat} (h : 4 * b.length ≤ a) :
    (octetAt (b ++ List.replicate n 0) a).getD 0 = 0 := by
  by_cases h2 : a < 4 * (b.length + n)
  · rw [octetAt_lt (by rw [List.length_append, List.length_replicate]; exact h2)]
    simp only [Option.getD_some]
    rw [List.getElem_append_right (by omega), List.getElem_replicate]
    have : ∀ r < 4, U32.octet (0 : BitVec 32) r = 0 := by decide
    exact this _ (Nat.mod_lt _ (by omega))
  · rw [octetAt_none (by rw [List.length_append, List.length_replicate]; omega)]
    rfl

theorem octetAt_append (b c : Buf .ump) {a : Nat} (h : a < 4 * b.length) :
    octetAt (b ++ c) a = octetAt b a := by
  rw [octetAt_lt (by rw [List.length_append]; omega), octetAt_lt (by omega)]
  congr 2
  exact List.getElem_append_left (by omega)

theorem slots_longer {f f' : Nat → BitVec 8} {n m : Nat} (hn : n ≤ m)
    (h : ∀ i, i < n → f' i = f i) (hz : ∀ i, n ≤ i → i < m → f' i = 0) :
    ((List.range m).map f').filter (· ≠ 0) = ((List.range n).map f).filter (· ≠ 0) := by
  obtain ⟨d, rfl⟩ := Nat.exists_eq_add_of_le hn
  rw [List.range_add, List.map_append, List.filter_append]
  have : (List.map f' (List.map (fun x => n + x) (List.range d))).filter (· ≠ 0) = [] := by
    rw [List.filter_eq_nil_iff]
    intro x hx
    simp only [List.mem_map, List.mem_range] at hx
    obtain ⟨_, ⟨i, hi, rfl⟩, rfl⟩ := hx
    rw [hz _ (by omega) (by omega)]
    simp
  rw [this, List.append_nil]
  congr 1
  exact List.map_congr_left fun i hi => h i (List.mem_range.mp hi)

/-- C14, stream text messages in whole packets: `rebuffer_into` and `try_rebuffer_into` keep text
and function block number. -/
theorem C14_stream_text_rebuffer_reads (t : StreamText) (ht : t ∈ StreamText.all) (b x : Buf .ump)
    (h4 : 4 ∣ b.length) (hb : b ≠ []) (size : Nat)
    (hx : (UmpKind.streamText t).rebufferFrom b = .ok x ∨
      (UmpKind.streamText t).tryRebufferArray size b = .ok x) :
    t.text x = t.text b ∧ StreamText.block x = StreamText.block b := by
  have K := StreamText.known_of_mem ht
  rcases hx with h | h
  · cases h; exact ⟨rfl, rfl⟩
  unfold UmpKind.tryRebufferArray at h
  split at h
  · cases h
  cases h
  next hs =>
  have hpos : 0 < b.length := List.length_pos_iff.mpr hb
  constructor
  · unfold StreamText.text
    rw [StreamText.textBytes_eq K, StreamText.textBytes_eq K]
    obtain ⟨n, hn⟩ := h4
    have hoff := K.off
    have hl : (b ++ List.replicate (size - b.length) (0 : BitVec 32)).length / 4 = size / 4 := by
      rw [List.length_append, List.length_replicate]; congr 1; omega
    have hb4 : b.length / 4 = n := by omega
    rw [hl, hb4]
    have hc : 0 < 14 - t.offset := by omega
    have haddr : ∀ i, slotAddr (2 + t.offset) i =
        16 * (i / (14 - t.offset)) + (2 + t.offset) + i % (14 - t.offset) := by
      intro i; unfold slotAddr; rw [show 16 - (2 + t.offset) = 14 - t.offset by omega]
    rw [slots_longer (Nat.mul_le_mul_left _ (show n ≤ size / 4 by omega))]
    · intro i hi
      have h1 : i / (14 - t.offset) < n := Nat.div_lt_of_lt_mul hi
      have h2 := Nat.mod_lt i hc
      rw [octetAt_append]
      rw [haddr]; omega
    · intro i hi _
      have h1 : n ≤ i / (14 - t.offset) := by
        rw [Nat.le_div_iff_mul_le hc, Nat.mul_comm]; exact hi
      apply octetAt_zeros
      rw [haddr]; omega
  · unfold StreamText.block at'
    rw [List.getElem?_append_left hpos]

example : StreamText.endpointName.text ([0xF0036162, 0x63000000, 0, 0] ++ List.replicate 5 0) =
    .ok "abc" := by decide +kernel

/-- C14, flex data text messages in whole packets, exactly: group and channel are kept.  The text
is kept when the array has no room for another packet; otherwise it is the text without the
last octet being left out, and `text()` panics if that is not valid UTF-8. -/
theorem C14_flex_text_rebuffer_exactly (t : FlexText) (b x : Buf .ump) (h4 : 4 ∣ b.length)
    (hb : b ≠ []) (size : Nat) (hx : (UmpKind.flexText t).tryRebufferArray size b = .ok x) :
    FlexText.group x = FlexText.group b ∧ FlexText.channel x = FlexText.channel b ∧
    (size < b.length + 4 → FlexText.text x = FlexText.text b) ∧
    (b.length + 4 ≤ size →
      (∀ s : String, utf8 s = (FlexText.slots b).filter (· ≠ 0) → FlexText.text x = .ok s) ∧
      ((¬ ∃ s : String, utf8 s = (FlexText.slots b).filter (· ≠ 0)) →
        FlexText.text x = .panic)) := by
  unfold UmpKind.tryRebufferArray at hx
  split at hx
  · cases hx
  cases hx
  next hs =>
  have hpos : 0 < b.length := List.length_pos_iff.mpr hb
  obtain ⟨n, hn⟩ := h4
  have hat : at' (b ++ List.replicate (size - b.length) 0) 0 = at' b 0 := by
    unfold at'
    rw [List.getElem?_append_left hpos]
  have hb4 : b.length / 4 = n := by omega
  have hl : (b ++ List.replicate (size - b.length) (0 : BitVec 32)).length / 4 = size / 4 := by
    rw [List.length_append, List.length_replicate]; congr 1; omega
  have haddr : ∀ i, slotAddr 4 i = 16 * (i / 12) + 4 + i % 12 := fun i => rfl
  refine ⟨?_, ?_, fun h => ?_, fun h => ?_⟩
  · unfold FlexText.group; rw [hat]
  · unfold FlexText.channel; rw [hat]
  · unfold FlexText.text
    rw [FlexText.textBytes_eq b (by omega), FlexText.textBytes_eq _ (by
      rw [List.length_append]; omega), hl, hb4, show size / 4 = n by omega]
    rw [List.map_congr_left (g := fun i => (octetAt b (slotAddr 4 i)).getD 0)]
    intro i hi
    rw [List.mem_range] at hi
    rw [octetAt_append]
    rw [haddr]; omega
  · have key : FlexText.textBytes (b ++ List.replicate (size - b.length) 0) =
        .ok (((List.range (12 * n)).map fun i => (octetAt b (slotAddr 4 i)).getD 0).filter (· ≠ 0)) := by
      rw [FlexText.textBytes_eq _ (by rw [List.length_append]; omega), hl]
      rw [slots_longer (n := 12 * n) (by omega)]
      · intro i hi
        rw [octetAt_append]
        rw [haddr]; omega
      · intro i hi _
        apply octetAt_zeros
        rw [haddr]; omega
    have hmap : ((((List.range (12 * n)).map fun i => (octetAt b (slotAddr 4 i)).getD 0).filter
        (· ≠ 0)).map BitVec.toNat) = (FlexText.slots b).filter (· ≠ 0) := by
      rw [filter_toNat, FlexText.slots_eq, List.map_map, hb4]
      rfl
    constructor
    · intro s hs
      unfold FlexText.text
      rw [key, Res.ok_bind]
      rw [utf8_eq, ← hmap] at hs
      rw [← map_toNat_inj hs, fromUtf8_strBytes]
      rfl
    · intro hs
      unfold FlexText.text
      rw [key, Res.ok_bind]
      rw [← hmap, ← fromUtf8_iff] at hs
      cases e : fromUtf8 (((List.range (12 * n)).map fun i =>
          (octetAt b (slotAddr 4 i)).getD 0).filter (· ≠ 0)) with
      | ok s => exact absurd ⟨s, e⟩ hs
      | err _ => rfl
      | panic => exact absurd e (fromUtf8_ne_panic _)

example : FlexText.text [0xD0100104, 0x61626300, 0, 0, 0, 0, 0, 0] = .ok "abc" :=
  ((C14_flex_text_rebuffer_exactly ⟨"CopyrightNotice", 1, 4⟩ [0xD0100104, 0x61626300, 0, 0]
    [0xD0100104, 0x61626300, 0, 0, 0, 0, 0, 0] (by decide) (List.cons_ne_nil _ _) 8
    (by decide +kernel)).2.2.2 (by decide)).1 "abc" (by decide +kernel)

/-- C14 fails for a flex data text message accepted from a slice: rebuffered into a longer
array, `text()` panics. -/
theorem C14_flex_text_panic_violation :
    ∃ b x : Buf .ump, UmpMessage.tryFrom b = .ok (.flexText ⟨"CopyrightNotice", 1, 4⟩, b) ∧
      FlexText.text b = .ok "abcdefghijk" ∧
      UmpMessage.tryRebufferArray 8 (.flexText ⟨"CopyrightNotice", 1, 4⟩, b) =
        .ok (.flexText ⟨"CopyrightNotice", 1, 4⟩, x) ∧
      FlexText.text x = .panic :=
  ⟨[0xD0100104, 0x61626364, 0x65666768, 0x696A6BC3],
    [0xD0100104, 0x61626364, 0x65666768, 0x696A6BC3, 0, 0, 0, 0], by decide +kernel,
    by decide +kernel, by decide +kernel, by decide +kernel⟩

/-! ## Truncated messages -/

/-- C14 for parsed `UmpMessage` values whose last packet is cut off, where `data()` panics:
`rebuffer_into` gives the same words and `try_rebuffer_into` the same words in front, with the
same variant, and `array_rebuffer_into` panics; with `C14_ump_message_rebuffer_partial` this says
for every parsed message what rebuffering it does. -/
theorem C14_ump_message_truncated (b b' : Buf .ump) (k : UmpKind)
    (hok : UmpMessage.tryFrom b = .ok (k, b')) (hc : ¬ k.Complete b) (size : Nat) :
    UmpMessage.data (k, b') = .panic ∧ UmpMessage.rebufferFrom (k, b') = .ok (k, b) ∧
      (b.length ≤ size → UmpMessage.tryRebufferArray size (k, b') =
        .ok (k, b ++ List.replicate (size - b.length) 0)) ∧
      (size < b.length → UmpMessage.tryRebufferArray size (k, b') = .err .bufferOverflow) ∧
      k.arrayRebuffer size b = .panic := by
  have hd := ((C06_ump_message_exactly b b' k hok).2 hc).1
  obtain ⟨rfl, _⟩ := C10_ump_variant b b' k hok
  refine ⟨hd, rfl, fun h => ?_, fun h => ?_, ?_⟩
  · show (k.tryRebufferArray size b' >>= _) = _
    unfold UmpKind.tryRebufferArray
    rw [if_neg (by omega)]; rfl
  · show (k.tryRebufferArray size b' >>= _) = _
    unfold UmpKind.tryRebufferArray
    rw [if_pos (by omega)]; rfl
  · unfold UmpKind.arrayRebuffer
    rw [show k.data b' = .panic from hd]
    split <;> rfl

example : UmpMessage.tryFrom [0x30160102, 0x03040506, 0x30310700] =
      .ok (.sysex .s7, [0x30160102, 0x03040506, 0x30310700]) ∧
    UmpMessage.data (.sysex .s7, [0x30160102, 0x03040506, 0x30310700]) = .panic := by decide +kernel

end Midi2
