import Verif.Lemmas.BehindText
import Verif.Props.TextStream
import Verif.Props.Text

/-!
# C77: setting a text in a part of an array

A text message stands at the front of an array and its text is set.  The message is the
encoding of the text; what becomes of every word behind it is said here.  Those words are not
left alone: the text setters wipe the packets of the whole array they were given.
-/

namespace Midi2

/-- C77, `try_new_with_buffer` of the flex data text messages on a part of an array: an error if
there is no room for a packet.  Otherwise there is a new message at the front, and in the packets
of type flex data that directly follow the group becomes 0. -/
theorem C77_flex_text_new_exactly (t : FlexText) (b : Buf .ump) :
    (b.length < 4 → t.tryNewWithBuffer b = .err .bufferOverflow) ∧
    (4 ≤ b.length → ∃ x n, t.tryNewWithBuffer b = .ok x ∧ t.Backs x ∧ FlexText.group x = .ok 0 ∧
      FlexText.channel x = .ok none ∧
      FlexText.data x = .ok (x.take 4) ∧ t.IsEncoding (x.take 4) 0 (fun _ => none) "" ∧
      RunBehind 4 13 b n ∧ FlexBehind 0 n b x) := by
  refine ⟨fun h => ?_, fun hb => ?_⟩
  · unfold FlexText.tryNewWithBuffer fixedTryResize
    rw [if_pos h]; rfl
  · obtain ⟨x, n, e1, e2, e3, e4, e5, e6⟩ := t.new_behind hb
    obtain ⟨y, y1, y2, -, -, -, ⟨d, d1, d2, -⟩, -⟩ :=
      C08_flex_text_try_new_with_buffer_exactly t b hb
    rw [e1] at y1
    cases y1
    have hd : d.length = 4 ∧ d = x.take d.length := by
      have hl : (octets d).length = 4 * d.length := by
        exact Sx.length_octets d
      have h16 : (octets d).length = 16 := by
        rw [show octets d = _ from d2]; rfl
      refine ⟨by omega, ?_⟩
      unfold FlexText.data at d1
      obtain ⟨k, k1, k2⟩ := bind_inv d1
      unfold sliceTo at k2
      split at k2
      · cases k2
        rw [List.length_take]
        rw [Nat.min_eq_left (by assumption)]
      · cases k2
    rw [hd.1] at hd
    refine ⟨x, n, e1, e2, e3, e4, ?_, ?_, e5, e6⟩
    · rw [d1, ← hd.2]
    · rw [← hd.2]; exact d2

/-- C77, `set_group` of the flex data text messages: behind the message, the group is set in the
packets of type flex data that directly follow one another from the front on. -/
theorem C77_flex_text_set_group_exactly (t : FlexText) (b : Buf .ump) (B : t.Backs b)
    (g : BitVec 4) :
    t.Backs (FlexText.setGroup b g) ∧ FlexText.group (FlexText.setGroup b g) = .ok g ∧
      ∃ n, RunBehind 4 13 b n ∧ FlexBehind g.toNat n b (FlexText.setGroup b g) :=
  have h := FlexText.setGroup_backs B g
  ⟨h.1, h.2.1, FlexText.setGroup_behind B.len rfl B.type (fun _ _ => rfl) g⟩

/-- C77, `set_optional_channel` of the flex data text messages changes the first word only. -/
theorem C77_flex_text_set_channel (t : FlexText) (b : Buf .ump) (B : t.Backs b)
    (c : Option (BitVec 4)) :
    ∃ b', FlexText.setChannel b c = .ok b' ∧ FlexText.channel b' = .ok c ∧ t.Backs b' ∧
      b'.drop 1 = b.drop 1 := by
  obtain ⟨w, e1, e2, e3, e4⟩ := FlexText.backs_word B
  have hl := B.len
  have h0 : (b.set 0 (FlexText.putChannel c w))[0]? = some (FlexText.putChannel c w) :=
    List.getElem?_set_self (by omega)
  refine ⟨_, FlexText.setChannel_ok e1 c, ?_, ?_, ?_⟩
  · rw [FlexText.channel_word h0]
    exact congrArg Res.ok (FlexText.channelOf_bits (f := U32.crumb w 4) (by
      rw [FlexText.octet1_putChannel]))
  · refine FlexText.backs_of_word (by rw [List.length_set]; exact hl) h0 ?_ ?_ ?_
    · rw [U32.nibble_octet_hi _ 0 (by omega), FlexText.octet_putChannel_ne _ _ (by omega) (by omega),
        ← U32.nibble_octet_hi _ 0 (by omega)]; exact e2
    · rw [FlexText.octet_putChannel_ne _ _ (by omega) (by omega)]; exact e3
    · rw [FlexText.octet_putChannel_ne _ _ (by omega) (by omega)]; exact e4
  · cases b with
    | nil => simp at hl
    | cons x b => rfl

/-- C77, `try_new_with_buffer` of the stream text messages on a part of an array: an error if there
is no room for a packet.  Otherwise there is a message of this type at the front, and the whole
packets behind get its status, of whatever type they are. -/
theorem C77_stream_text_new_exactly (t : StreamText) (ht : t ∈ StreamText.all) (b : Buf .ump) :
    (b.length < 4 → t.tryNewWithBuffer b = .err .bufferOverflow) ∧
    (4 ≤ b.length → ∃ x n, t.tryNewWithBuffer b = .ok x ∧ t.Backs x ∧ RunBehind 4 15 b n ∧
      StreamTextBehind (t.offset == 1) t.status.toNat n b x) := by
  have K := StreamText.known_of_mem ht
  refine ⟨fun h => ?_, fun hb => ?_⟩
  · unfold StreamText.tryNewWithBuffer fixedTryResize
    rw [if_pos h]; rfl
  · obtain ⟨x, n, e1, e2, e3, e4, -⟩ := StreamText.new_behind K hb
    exact ⟨x, n, e1, e2, e3, e4⟩

/-- C77, `set_function_block` of `FunctionBlockName`: behind the message, the third octet of the
first word of every whole packet, of whatever type, becomes the number; nothing else changes. -/
theorem C77_function_block_set_number_exactly (b : Buf .ump)
    (B : StreamText.functionBlockName.Backs b) (n : BitVec 8) :
    StreamText.functionBlockName.Backs (StreamText.setBlock b n) ∧
    StreamText.block (StreamText.setBlock b n) = .ok n ∧
    (StreamText.setBlock b n).length = b.length ∧
    ∀ a, octetVal (StreamText.setBlock b n) a =
      if a % 16 = 2 ∧ a / 16 < b.length / 4 then n.toNat else octetVal b a := by
  have K : StreamText.functionBlockName.Known := StreamText.known_of_mem (by simp [StreamText.all])
  have hl := B.len
  refine ⟨StreamText.setBlock_backs K B n, ?_, StreamText.setBlock_length b n, fun a => ?_⟩
  · obtain ⟨w, e1, -⟩ := StreamText.backs_word K B
    have h0 : (StreamText.setBlock b n)[0]? = some (U32.setOctet w 2 n) := by
      rw [StreamText.setBlock_word, if_pos (by omega), e1]; rfl
    rw [StreamText.block_word h0, U32.octet_setOctet _ _ _ (by omega) (by omega), if_pos rfl]
  · have key : ∀ c : Buf .ump, octetVal c a = ((octetAt c a).map BitVec.toNat).getD 0 := by
      intro c; exact Sx.octetVal_eq c a
    rw [key, key, StreamText.setBlock_octet]
    by_cases h : a % 16 = 2 ∧ a / 16 < b.length / 4
    · rw [if_pos h, if_pos (by omega)]; rfl
    · rw [if_neg h, if_neg (by omega)]

/-- C77, `try_set_text` of the flex data text messages: the message at the front is the encoding
of the text; behind it the first word of every whole packet is kept, the other three are zeroed,
and the words of an incomplete packet at the end are kept. -/
theorem C77_flex_text_set_text_exactly (t : FlexText) (b : Buf .ump) (B : t.Backs b) (s : String)
    (room : 4 * textPackets 12 (utf8 s).length ≤ b.length) :
    ∃ b' m g c, FlexText.trySetText b s = .ok b' ∧ FlexText.data b' = .ok m ∧
      FlexText.group b = .ok g ∧ FlexText.channel b = .ok c ∧
      t.IsEncoding m g (fun _ => c) s ∧
      m.length = 4 * textPackets 12 (utf8 s).length ∧ b'.take m.length = m ∧
      b'.length = b.length ∧
      ∀ i, m.length ≤ i → b'[i]? =
        if i / 4 < b.length / 4 ∧ i % 4 ≠ 0 then some 0 else b[i]? := by
  rw [strBytes_length] at room ⊢
  obtain ⟨w, e1, _⟩ := FlexText.backs_word B
  obtain ⟨b', f1, f2, H⟩ :=
    FlexText.trySetText_holds B (FlexText.group_word e1) (FlexText.channel_word e1) s room
  obtain ⟨d, d1, d2⟩ := isEncoding_of_holds H
  have hd := d1
  rw [H.data_eq] at hd
  cases hd
  have hm : (b'.take (4 * textPackets 12 (strBytes s).length)).length =
      4 * textPackets 12 (strBytes s).length := by
    rw [List.length_take]; have := H.whole; omega
  refine ⟨b', _, _, _, f1, d1, FlexText.group_word e1, FlexText.channel_word e1, d2, hm,
    by rw [hm], f2, ?_⟩
  rw [hm]
  obtain ⟨x, x1, x2, x3, x4⟩ := FlexText.fill_full e1 (strBytes s) room
  have hx : FlexText.trySetText b s = .ok x := by
    unfold FlexText.trySetText fixedTryResize
    simp only
    rw [if_neg (by rw [FlexText.sizeForStr_eq]; omega), Res.ok_bind]
    exact x1
  rw [f1] at hx
  cases hx
  have hle := le_textPackets (cap := 12) (n := (strBytes s).length) (by omega)
  intro i hi
  by_cases hw : i / 4 < b.length / 4
  · by_cases h0 : i % 4 = 0
    · rw [if_neg (fun c => c.2 h0)]
      refine word_of_octets fun r hr => ?_
      rw [x3 _ (by omega), if_pos (by omega), if_neg (by omega), octetAt_lt (by omega)]
      rfl
    · rw [if_pos ⟨hw, h0⟩]
      refine word_of_zeros fun r hr => ?_
      rw [x3 _ (by omega), if_neg (by omega), List.getElem?_eq_none]
      · rfl
      · have hs : slotIndex 4 (4 * i + r) =
          12 * ((4 * i + r) / 16) + ((4 * i + r) % 16 - 4) := rfl
        omega
  · rw [if_neg (fun c => hw c.1)]
    exact word_of_octets fun r hr => x4 _ (by omega)

/-- C77, `try_set_name`, `try_set_id` of the stream text messages: the message at the front is
the encoding of the text; behind it every word of every whole packet is zeroed, the first too,
and the words of an incomplete packet at the end are kept. -/
theorem C77_stream_text_set_text_exactly (t : StreamText) (ht : t ∈ StreamText.all)
    (b : Buf .ump) (B : t.Backs b) (s : String)
    (room : 4 * textPackets t.capacity (utf8 s).length ≤ b.length) :
    ∃ b' m bl, t.trySetText b s = .ok b' ∧ StreamText.data b' = .ok m ∧
      t.IsEncoding m bl s ∧ (∀ j, (bl j).toNat = octetVal b (16 * j + 2)) ∧
      m.length = 4 * textPackets t.capacity (utf8 s).length ∧ b'.take m.length = m ∧
      b'.length = b.length ∧
      ∀ i, m.length ≤ i → b'[i]? = if i / 4 < b.length / 4 then some 0 else b[i]? := by
  have K := StreamText.known_of_mem ht
  rw [K.capacity_eq, length_utf8] at *
  obtain ⟨b', f1, f2, H⟩ := StreamText.trySetText_holds K B s room
  obtain ⟨d, d2, d1, d3⟩ := StreamText.isEncoding_of_holds K H
  obtain ⟨w, e1, _⟩ := StreamText.backs_word K B
  have hd := d1
  rw [H.data_eq K] at hd
  cases hd
  have hm : (b'.take (4 * textPackets (14 - t.offset) (strBytes s).length)).length =
      4 * textPackets (14 - t.offset) (strBytes s).length := by
    rw [List.length_take]; have := H.whole; omega
  refine ⟨b', _, _, f1, d1, d2, StreamText.blockAt_val b, hm, by rw [hm], f2, ?_⟩
  rw [hm]
  obtain ⟨x, x1, x2, x3, x4⟩ := StreamText.fill_full K.off e1 (strBytes s) room
  have hx : t.trySetText b s = .ok x := by
    unfold StreamText.trySetText fixedTryResize
    simp only
    rw [if_neg (by rw [StreamText.sizeForStr_eq K.off]; omega), Res.ok_bind]
    exact x1
  rw [f1] at hx
  cases hx
  have ho := K.off
  have hle := le_textPackets (cap := 14 - t.offset) (n := (strBytes s).length) (by omega)
  intro i hi
  by_cases hw : i / 4 < b.length / 4
  · rw [if_pos hw]
    refine word_of_zeros fun r hr => ?_
    rw [x3 _ (by omega)]
    have hn : ¬ (4 * i + r) / 16 < textPackets (14 - t.offset) (strBytes s).length := by omega
    rw [if_neg hn, if_neg hn]
    split
    · rfl
    · split
      · rfl
      · rw [List.getElem?_eq_none]
        · rfl
        · have hs : slotIndex (2 + t.offset) (4 * i + r) =
            (16 - (2 + t.offset)) * ((4 * i + r) / 16) + ((4 * i + r) % 16 - (2 + t.offset)) := rfl
          rw [show 16 - (2 + t.offset) = 14 - t.offset by omega] at hs
          have := Nat.mul_le_mul_left (14 - t.offset) (show
            textPackets (14 - t.offset) (strBytes s).length ≤ (4 * i + r) / 16 by omega)
          omega
  · rw [if_neg hw]
    exact word_of_octets fun r hr => x4 _ (by omega)

/-- C77: setting the text of the message at the front of an array wipes the message behind it.
Here
the octets of a system exclusive message behind a flex data text; its first word is kept. -/
theorem C77_flex_text_wipes_violation :
    ∃ b', FlexText.trySetText
        [0xD0100101, 0, 0, 0, 0x50060001, 0x02030405, 0, 0] "hi" = .ok b' ∧
      Sx.s8.tryFrom (([0xD0100101, 0, 0, 0, 0x50060001, 0x02030405, 0, 0] : Buf .ump).drop 4) =
        .ok [0x50060001, 0x02030405, 0, 0] ∧
      b' = [0xD0100101, 0x68690000, 0, 0, 0x50060001, 0, 0, 0] :=
  ⟨_, by decide +kernel, by decide +kernel, rfl⟩

/-- C77: setting the name of an endpoint wipes a note on and a note off behind it. -/
theorem C77_stream_text_wipes_violation :
    ∃ b', StreamText.endpointName.trySetText
        [0xF0030000, 0, 0, 0, 0x40903C00, 0x80000000, 0x40803C00, 0x80000000, 0x20903C40]
        "hi" = .ok b' ∧
      b' = [0xF0036869, 0, 0, 0, 0, 0, 0, 0, 0x20903C40] :=
  ⟨_, by decide +kernel, rfl⟩

-- The hypotheses are met: messages behind, and an incomplete packet at the end.
example : ∃ b', FlexText.trySetText
    [0xD0100101, 0, 0, 0, 0x40903C00, 0x80000000, 0x40803C00, 0x80000000, 0x20903C40] "hi" = .ok b' ∧
    b'.length = 9 :=
  have ⟨b', _, _, _, h, _, _, _, _, _, _, hl, _⟩ := C77_flex_text_set_text_exactly ⟨"", 1, 1⟩
    [0xD0100101, 0, 0, 0, 0x40903C00, 0x80000000, 0x40803C00, 0x80000000, 0x20903C40]
    ⟨by decide, by decide, by decide, by decide⟩ "hi" (by decide)
  ⟨b', h, hl⟩

example : ∃ b', StreamText.endpointName.trySetText
    [0xF0030000, 0, 0, 0, 0x40903C00, 0x80000000, 0x40803C00, 0x80000000, 0x20903C40] "hi" = .ok b' ∧
    b'.length = 9 :=
  have ⟨b', _, _, h, _, _, _, _, _, hl, _⟩ := C77_stream_text_set_text_exactly
    StreamText.endpointName (by simp [StreamText.all])
    [0xF0030000, 0, 0, 0, 0x40903C00, 0x80000000, 0x40803C00, 0x80000000, 0x20903C40]
    ⟨by decide, by decide, by decide⟩ "hi" (by decide)
  ⟨b', h, hl⟩

-- A text, and behind it a text of group 5 and a note on.
example : ∃ x n, (⟨"", 1, 1⟩ : FlexText).tryNewWithBuffer
    [1, 2, 3, 4, 0xD5100101, 0x41000000, 0, 0, 0x40903C00, 0x80000000] = .ok x ∧
    RunBehind 4 13 [1, 2, 3, 4, 0xD5100101, 0x41000000, 0, 0, 0x40903C00, 0x80000000] n ∧
    FlexBehind 0 n [1, 2, 3, 4, 0xD5100101, 0x41000000, 0, 0, 0x40903C00, 0x80000000] x :=
  have ⟨x, n, h1, _, _, _, _, _, h2, h3⟩ := (C77_flex_text_new_exactly ⟨"", 1, 1⟩
    [1, 2, 3, 4, 0xD5100101, 0x41000000, 0, 0, 0x40903C00, 0x80000000]).2 (by decide)
  ⟨x, n, h1, h2, h3⟩

/-- C77: a new flex data text resets the group of a flex data text behind it; `set_group` sets it. -/
theorem C77_flex_text_group_violation :
    (⟨"", 1, 1⟩ : FlexText).tryNewWithBuffer [0, 0, 0, 0, 0xD5100101, 0x41000000, 0, 0] =
      .ok [0xD0100101, 0, 0, 0, 0xD0100101, 0x41000000, 0, 0] ∧
    FlexText.setGroup [0xD0100101, 0, 0, 0, 0xD0100101, 0x41000000, 0, 0] 7 =
      [0xD7100101, 0, 0, 0, 0xD7100101, 0x41000000, 0, 0] := by decide +kernel

/-- C77: a new function block name overwrites the status and the note number of a note on behind it,
and `set_function_block` the note number. -/
theorem C77_function_block_name_violation :
    StreamText.functionBlockName.tryNewWithBuffer
        [0, 0, 0, 0, 0x40903C00, 0x80000000, 0, 0] =
      .ok [0xF0120000, 0, 0, 0, 0x40120000, 0x80000000, 0, 0] ∧
    StreamText.setBlock [0xF0120000, 0, 0, 0, 0x40903C00, 0x80000000, 0, 0] 5 =
      [0xF0120500, 0, 0, 0, 0x40900500, 0x80000000, 0, 0] := by decide +kernel

example : ∃ x n, StreamText.functionBlockName.tryNewWithBuffer
    [0, 0, 0, 0, 0x40903C00, 0x80000000, 0, 0] = .ok x ∧
    StreamTextBehind true 0x12 n [0, 0, 0, 0, 0x40903C00, 0x80000000, 0, 0] x :=
  have ⟨x, n, h1, _, _, h2⟩ := (C77_stream_text_new_exactly .functionBlockName
    (by simp [StreamText.all]) [0, 0, 0, 0, 0x40903C00, 0x80000000, 0, 0]).2 (by decide)
  ⟨x, n, h1, h2⟩

end Midi2
