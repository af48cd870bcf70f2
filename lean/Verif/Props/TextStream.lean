import Verif.Lemmas.TextStreamHold
import Verif.Props.Text

/-!
# C31, C32 and the stream text parts of C05–C08, C33
-/

namespace Midi2

namespace StreamText

theorem isEncoding_of_holds {t : StreamText} (K : t.Known) {b : Buf .ump} {bl : Nat → BitVec 8}
    {s : String} (H : t.Holds b bl (strBytes s)) :
    ∃ d, t.IsEncoding d bl s ∧ data b = .ok d ∧ d.length = 4 * textPackets t.capacity (utf8 s).length := by
  refine ⟨_, ?_, H.data_eq K, ?_⟩
  · unfold IsEncoding
    rw [H.wire K, utf8_eq, List.length_map]
  · rw [List.length_take, K.capacity_eq, length_utf8]
    have := H.whole
    omega

theorem text_of_bytes {t : StreamText} {b : Buf .ump} {s : String}
    (h : t.textBytes b = .ok (strBytes s)) : t.text b = .ok s := by
  unfold text
  rw [h, Res.ok_bind, fromUtf8_strBytes]
  rfl

theorem Holds.text_eq {t : StreamText} (K : t.Known) {b : Buf .ump} {bl : Nat → BitVec 8}
    {s : String} (hs : NulFree s) (H : t.Holds b bl (strBytes s)) :
    t.text b = .ok s ∧ t.textBytes b = .ok (strBytes s) := by
  have hb : t.textBytes b = .ok (strBytes s) := by rw [H.textBytes_eq K, nul_filter hs]
  exact ⟨text_of_bytes hb, hb⟩

/-- Encodings of messages without function block do not depend on the numbers. -/
theorem isEncoding_blocks {t : StreamText} (h0 : t.offset = 0) {d : Buf .ump} {bl bl' : Nat → BitVec 8}
    {s : String} (h : t.IsEncoding d bl s) : t.IsEncoding d bl' s := by
  unfold IsEncoding at *
  rw [h]
  simp only [h0, if_true]

theorem blockAt_val (b : Buf .ump) (j : Nat) : (blockAt b j).toNat = octetVal b (16 * j + 2) := by
  rw [Sx.octetVal_eq]
  unfold blockAt
  cases octetAt b (16 * j + 2) <;> rfl

end StreamText

/-! ## C31: endpoint name, product instance id -/

/-- C31, over a resizable buffer: every text without NUL, set on any message, is returned by
the getters, and the words are its encoding and parse. -/
theorem C31_stream_text (t : StreamText) (ht : t = .endpointName ∨ t = .productInstanceId)
    (b : Buf .ump) (B : t.Backs b) (s : String) :
    ∃ b' d, t.setText b s = .ok b' ∧ t.Backs b' ∧ StreamText.data b' = .ok d ∧
      t.IsEncoding d (fun _ => 0) s ∧
      (NulFree s → t.text b' = .ok s ∧ (∃ l, t.textBytes b' = .ok l ∧ l.map BitVec.toNat = utf8 s) ∧
        t.tryFrom d = .ok d ∧ t.text d = .ok s) := by
  have K : t.Known := StreamText.known_of_mem (by rcases ht with h | h <;> rw [h] <;> simp [StreamText.all])
  have h0 : t.offset = 0 := by rcases ht with h | h <;> rw [h] <;> rfl
  obtain ⟨b', f1, f2, H⟩ := StreamText.setText_holds K B s
  obtain ⟨d, d1, d2, d3⟩ := StreamText.isEncoding_of_holds K H
  refine ⟨b', d, f1, H.backs K, d2, StreamText.isEncoding_blocks h0 d1, fun hs => ?_⟩
  obtain ⟨t1, t2⟩ := H.text_eq K hs
  have hd : d = b' := by
    rw [H.data_eq K, ← f2, List.take_length] at d2
    cases d2; rfl
  subst hd
  refine ⟨t1, ⟨_, t2, (utf8_eq s).symm⟩, ?_, t1⟩
  rw [StreamText.tryFrom_iff K]
  exact H.accepts K f2 (fun h => absurd (h0 ▸ h) (by decide)) ⟨s, (nul_filter hs).symm⟩

example : ∃ b' d, StreamText.endpointName.setText [0xF0030000, 0, 0, 0] "abcdefghijklmé" = .ok b' ∧
    StreamText.data b' = .ok d ∧
    StreamText.endpointName.IsEncoding d (fun _ => 0) "abcdefghijklmé" ∧
    StreamText.endpointName.text d = .ok "abcdefghijklmé" :=
  have ⟨b', d, h1, _, h2, h3, h4⟩ := C31_stream_text .endpointName (.inl rfl) [0xF0030000, 0, 0, 0]
    ⟨by decide, by decide, by decide⟩ "abcdefghijklmé"
  ⟨b', d, h1, h2, h3, (h4 (by unfold NulFree; decide)).2.2.2⟩

/-- C31, over a buffer of fixed size: the text is set exactly when its packets fit. -/
theorem C31_try_stream_text (t : StreamText) (ht : t = .endpointName ∨ t = .productInstanceId)
    (b : Buf .ump) (B : t.Backs b) (s : String) :
    (4 * textPackets 14 (utf8 s).length ≤ b.length →
      ∃ b' d, t.trySetText b s = .ok b' ∧ b'.length = b.length ∧ t.Backs b' ∧
        StreamText.data b' = .ok d ∧ t.IsEncoding d (fun _ => 0) s ∧
        (NulFree s → t.text b' = .ok s ∧
          (∃ l, t.textBytes b' = .ok l ∧ l.map BitVec.toNat = utf8 s) ∧
          t.tryFrom d = .ok d ∧ t.text d = .ok s)) ∧
    (b.length < 4 * textPackets 14 (utf8 s).length →
      t.trySetText b s = .err .bufferOverflow) := by
  have K : t.Known := StreamText.known_of_mem (by rcases ht with h | h <;> rw [h] <;> simp [StreamText.all])
  have h0 : t.offset = 0 := by rcases ht with h | h <;> rw [h] <;> rfl
  have h14 : 14 - t.offset = 14 := by rw [h0]
  rw [length_utf8]
  constructor
  · intro hf
    obtain ⟨b', f1, f2, H⟩ := StreamText.trySetText_holds K B s (by rw [h14]; exact hf)
    obtain ⟨d, d1, d2, d3⟩ := StreamText.isEncoding_of_holds K H
    refine ⟨b', d, f1, f2, H.backs K, d2, StreamText.isEncoding_blocks h0 d1, fun hs => ?_⟩
    obtain ⟨t1, t2⟩ := H.text_eq K hs
    have HT := H.take K
    rw [H.data_eq K] at d2
    cases d2
    refine ⟨t1, ⟨_, t2, (utf8_eq s).symm⟩, ?_, (HT.text_eq K hs).1⟩
    rw [StreamText.tryFrom_iff K]
    refine HT.accepts K ?_ (fun h => absurd (h0 ▸ h) (by decide)) ⟨s, (nul_filter hs).symm⟩
    rw [List.length_take]
    have := H.whole
    omega
  · intro h
    exact StreamText.trySetText_overflow K b s (by rw [h14]; exact h)

/-- An endpoint name over two packets of buffer. -/
def sampleName : Buf .ump := [0xF0036869, 0, 0, 0, 5, 6, 7, 8]

example : StreamText.endpointName.Backs sampleName := ⟨by decide, by decide, by decide⟩

-- C31: 14 bytes fill one packet; 15 need two.
example : StreamText.endpointName.setText sampleName "abcdefghijklmn" =
    .ok [0xF0036162, 0x63646566, 0x6768696A, 0x6B6C6D6E] := by decide +kernel

example : StreamText.endpointName.trySetText sampleName "abcdefghijklmé" =
    .ok [0xF4036162, 0x63646566, 0x6768696A, 0x6B6C6DC3, 0xFC03A900, 0, 0, 0] := by decide +kernel

-- The specification, octet by octet.
example : StreamText.endpointName.IsEncoding
    [0xF4036162, 0x63646566, 0x6768696A, 0x6B6C6DC3, 0xFC03A900, 0, 0, 0] (fun _ => 0)
    "abcdefghijklmé" := by
  unfold StreamText.IsEncoding; decide

example : NulFree "abcdefghijklmé" := by unfold NulFree; decide

/-! ## C32: function block name -/

/-- C32: on a function block name the text is set and returned the same way, with 13 bytes per
packet; the number returned by `function_block()` is kept.  The number of each packet is the
one the packet had in the old buffer, 0 for packets that did not exist (see
`C32_number_on_growth_violation`). -/
theorem C32_function_block_name_text (b : Buf .ump) (B : StreamText.functionBlockName.Backs b)
    (s : String) :
    ∃ b' d bl, StreamText.functionBlockName.setText b s = .ok b' ∧
      StreamText.functionBlockName.Backs b' ∧ StreamText.data b' = .ok d ∧
      StreamText.functionBlockName.IsEncoding d bl s ∧ (∀ j, (bl j).toNat = octetVal b (16 * j + 2)) ∧
      StreamText.block b' = StreamText.block b ∧
      (NulFree s → StreamText.functionBlockName.text b' = .ok s ∧
        ∃ l, StreamText.functionBlockName.textBytes b' = .ok l ∧ l.map BitVec.toNat = utf8 s) := by
  have K : StreamText.functionBlockName.Known := StreamText.known_of_mem (by simp [StreamText.all])
  obtain ⟨b', f1, f2, H⟩ := StreamText.setText_holds K B s
  obtain ⟨d, d1, d2, d3⟩ := StreamText.isEncoding_of_holds K H
  obtain ⟨w, e1, _⟩ := StreamText.backs_word K B
  refine ⟨b', d, _, f1, H.backs K, d2, d1, StreamText.blockAt_val b, ?_, fun hs => ?_⟩
  · rw [H.block_eq K rfl, StreamText.block_word e1]
    unfold StreamText.blockAt
    rw [FlexText.octetAt_word0 _ _ _ (by omega), Nat.mul_zero, e1]
    rfl
  · obtain ⟨t1, t2⟩ := H.text_eq K hs
    exact ⟨t1, _, t2, (utf8_eq s).symm⟩

example : ∃ b', StreamText.functionBlockName.setText [0xF0120300, 0, 0, 0] "abcdefghijklmn" = .ok b' ∧
    StreamText.functionBlockName.text b' = .ok "abcdefghijklmn" :=
  have ⟨b', _, _, h1, _, _, _, _, _, h2⟩ := C32_function_block_name_text [0xF0120300, 0, 0, 0]
    ⟨by decide, by decide, by decide⟩ "abcdefghijklmn"
  ⟨b', h1, (h2 (by unfold NulFree; decide)).1⟩

/-- C32, over a buffer of fixed size. -/
theorem C32_try_function_block_name_text (b : Buf .ump) (B : StreamText.functionBlockName.Backs b)
    (s : String) :
    (4 * textPackets 13 (utf8 s).length ≤ b.length →
      ∃ b' d bl, StreamText.functionBlockName.trySetText b s = .ok b' ∧ b'.length = b.length ∧
        StreamText.functionBlockName.Backs b' ∧ StreamText.data b' = .ok d ∧
        StreamText.functionBlockName.IsEncoding d bl s ∧
        (∀ j, (bl j).toNat = octetVal b (16 * j + 2)) ∧
        StreamText.block b' = StreamText.block b ∧
        (NulFree s → StreamText.functionBlockName.text b' = .ok s ∧
          ∃ l, StreamText.functionBlockName.textBytes b' = .ok l ∧ l.map BitVec.toNat = utf8 s)) ∧
    (b.length < 4 * textPackets 13 (utf8 s).length →
      StreamText.functionBlockName.trySetText b s = .err .bufferOverflow) := by
  have K : StreamText.functionBlockName.Known := StreamText.known_of_mem (by simp [StreamText.all])
  rw [length_utf8]
  refine ⟨fun hf => ?_, StreamText.trySetText_overflow K b s⟩
  obtain ⟨b', f1, f2, H⟩ := StreamText.trySetText_holds K B s hf
  obtain ⟨d, d1, d2, d3⟩ := StreamText.isEncoding_of_holds K H
  obtain ⟨w, e1, _⟩ := StreamText.backs_word K B
  refine ⟨b', d, _, f1, f2, H.backs K, d2, d1, StreamText.blockAt_val b, ?_, fun hs => ?_⟩
  · rw [H.block_eq K rfl, StreamText.block_word e1]
    unfold StreamText.blockAt
    rw [FlexText.octetAt_word0 _ _ _ (by omega), Nat.mul_zero, e1]
    rfl
  · obtain ⟨t1, t2⟩ := H.text_eq K hs
    exact ⟨t1, _, t2, (utf8_eq s).symm⟩

example : StreamText.functionBlockName.trySetText [0xF0120300, 0, 0, 0] "abcdefghijklmn" =
    .err .bufferOverflow :=
  (C32_try_function_block_name_text [0xF0120300, 0, 0, 0] ⟨by decide, by decide, by decide⟩
    "abcdefghijklmn").2 (by decide)

/-- C32, the number: it is the same in all packets, and the words parse, when the packets of
the new text had the same number in the old buffer.  Missing: packets added by growth when the
number is not 0. -/
theorem C32_number_partial (b : Buf .ump) (B : StreamText.functionBlockName.Backs b) (s : String)
    (h : ∀ j, j < textPackets 13 (utf8 s).length → octetVal b (16 * j + 2) = octetVal b 2) :
    ∃ b' d n, StreamText.functionBlockName.setText b s = .ok b' ∧ StreamText.data b' = .ok d ∧
      StreamText.block b = .ok n ∧ StreamText.block b' = .ok n ∧
      StreamText.functionBlockName.IsEncoding d (fun _ => n) s ∧
      (NulFree s → StreamText.functionBlockName.tryFrom d = .ok d ∧
        StreamText.functionBlockName.text d = .ok s) := by
  have K : StreamText.functionBlockName.Known := StreamText.known_of_mem (by simp [StreamText.all])
  obtain ⟨b', f1, f2, H⟩ := StreamText.setText_holds K B s
  have hbl : ∀ j, j < textPackets 13 (strBytes s).length →
      StreamText.blockAt b j = StreamText.blockAt b 0 := by
    intro j hj
    apply BitVec.eq_of_toNat_eq
    rw [StreamText.blockAt_val, StreamText.blockAt_val]
    exact h j (by rw [length_utf8]; exact hj)
  have H' := H.congr_block (bl' := fun _ => StreamText.blockAt b 0) hbl
  obtain ⟨d, d1, d2, d3⟩ := StreamText.isEncoding_of_holds K H'
  obtain ⟨w, e1, _⟩ := StreamText.backs_word K B
  have hd : d = b' := by
    rw [H.data_eq K, ← f2, List.take_length] at d2
    cases d2; rfl
  refine ⟨b', d, _, f1, d2, ?_, H'.block_eq K rfl, d1, fun hs => ?_⟩
  · rw [StreamText.block_word e1]
    unfold StreamText.blockAt
    rw [FlexText.octetAt_word0 _ _ _ (by omega), Nat.mul_zero, e1]
    rfl
  · subst hd
    refine ⟨?_, (H.text_eq K hs).1⟩
    rw [StreamText.tryFrom_iff K]
    exact H'.accepts K f2 (fun _ _ _ => rfl) ⟨s, (nul_filter hs).symm⟩

/-- C32: `set_function_block(n)` after any `set_name` gives all packets the number, and the
words parse. -/
theorem C32_set_function_block (b : Buf .ump) (B : StreamText.functionBlockName.Backs b) (s : String)
    (n : BitVec 8) :
    ∃ b' d, StreamText.functionBlockName.setText b s = .ok b' ∧
      StreamText.data (StreamText.setBlock b' n) = .ok d ∧
      StreamText.functionBlockName.IsEncoding d (fun _ => n) s ∧
      StreamText.block (StreamText.setBlock b' n) = .ok n ∧
      (NulFree s → StreamText.functionBlockName.text (StreamText.setBlock b' n) = .ok s ∧
        StreamText.functionBlockName.tryFrom d = .ok d) := by
  have K : StreamText.functionBlockName.Known := StreamText.known_of_mem (by simp [StreamText.all])
  obtain ⟨b', f1, f2, H⟩ := StreamText.setText_holds K B s
  have H' := H.setBlock rfl n
  obtain ⟨d, d1, d2, d3⟩ := StreamText.isEncoding_of_holds K H'
  have hd : d = StreamText.setBlock b' n := by
    rw [H'.data_eq K, ← f2, ← StreamText.setBlock_length b' n, List.take_length] at d2
    cases d2; rfl
  refine ⟨b', d, f1, d2, d1, H'.block_eq K rfl, fun hs => ⟨(H'.text_eq K hs).1, ?_⟩⟩
  rw [StreamText.tryFrom_iff K, hd]
  exact H'.accepts K (by rw [StreamText.setBlock_length]; exact f2) (fun _ _ _ => rfl)
    ⟨s, (nul_filter hs).symm⟩

/-- A function block name with number 3. -/
def sampleBlockName : Buf .ump := [0xF0120368, 0x69000000, 0, 0]

example : StreamText.functionBlockName.Backs sampleBlockName := ⟨by decide, by decide, by decide⟩

-- C32 partial: a text that fits the packets of the old message.
example : ∀ j, j < textPackets 13 (utf8 "abcdefghijklm").length →
    octetVal sampleBlockName (16 * j + 2) = octetVal sampleBlockName 2 := by decide

/-- C32: when the text grows over more packets than the buffer had, the new packets have
number 0, and the message does not parse. -/
theorem C32_number_on_growth_violation (b : Buf .ump) (B : StreamText.functionBlockName.Backs b)
    (s : String) (hg : b.length < 4 * textPackets 13 (utf8 s).length)
    (h4 : 4 ∣ b.length) (hn : octetVal b 2 ≠ 0) :
    ∃ b' d, StreamText.functionBlockName.setText b s = .ok b' ∧ StreamText.data b' = .ok d ∧
      fieldAt d b.length 16 8 = some 0 ∧ fieldAt d 0 16 8 = some (octetVal b 2) ∧
      StreamText.functionBlockName.tryFrom d ≠ .ok d := by
  have K : StreamText.functionBlockName.Known := StreamText.known_of_mem (by simp [StreamText.all])
  obtain ⟨b', f1, f2, H⟩ := StreamText.setText_holds K B s
  have hd : StreamText.data b' = .ok b' := by
    rw [H.data_eq K, ← f2, List.take_length]
  have h1 : (1 : Nat) = StreamText.functionBlockName.offset := rfl
  rw [length_utf8] at hg
  have hfield : ∀ j, j < textPackets 13 (strBytes s).length →
      fieldAt b' (4 * j) 16 8 = some (octetVal b (16 * j + 2)) := by
    intro j hj
    obtain ⟨w, e1, _, _, _, e5⟩ := H.word hj
    rw [fieldAt, e1, Option.map_some, ← StreamText.blockAt_val, ← e5 rfl]
    exact congrArg some (octet_field w (i := 2) (by omega)).symm
  obtain ⟨m, hm⟩ := h4
  have hz : fieldAt b' b.length 16 8 = some 0 := by
    rw [hm, hfield m (by omega), Sx.octetVal_eq, octetAt_none (by omega)]
    rfl
  have h0 : fieldAt b' 0 16 8 = some (octetVal b 2) := hfield 0 (by omega)
  refine ⟨b', b', f1, hd, hz, h0, ?_⟩
  rw [ne_eq, StreamText.tryFrom_iff K]
  intro A
  have := A.blocks rfl m (by rw [f2]; show 4 * (m + 1) ≤ 4 * textPackets 13 _; omega)
  rw [← hm, hz, h0] at this
  exact hn (Option.some.inj this).symm

example : sampleBlockName.length < 4 * textPackets 13 (utf8 "abcdefghijklmn").length ∧
    4 ∣ sampleBlockName.length ∧ octetVal sampleBlockName 2 ≠ 0 := by decide

/-! ## Histories -/

theorem stream_history_holds {t : StreamText} (K : t.Known) (os : List StreamText.Op)
    (hos : t.offset = 1 ∨ ∀ o ∈ os, ∃ s, o = .setText s) : ∀ {b : Buf .ump} (st : StreamText.State),
    b.length = 4 * textPackets (14 - t.offset) (strBytes st.text).length →
    t.Holds b st.blocks (strBytes st.text) →
    ∃ b', t.history b os = .ok b' ∧
      b'.length = 4 * textPackets (14 - t.offset)
        (strBytes (os.foldl (StreamText.State.step t.capacity) st).text).length ∧
      t.Holds b' (os.foldl (StreamText.State.step t.capacity) st).blocks
        (strBytes (os.foldl (StreamText.State.step t.capacity) st).text) := by
  induction os with
  | nil => intro b st hl H; exact ⟨b, rfl, hl, H⟩
  | cons o os ih =>
    intro b st hl H
    have ih := @ih (hos.imp id fun h o ho => h o (List.mem_cons_of_mem _ ho))
    cases o with
    | setText s =>
      obtain ⟨b', f1, f2, H'⟩ := StreamText.setText_holds K (H.backs K) s
      have H'' : t.Holds b' (st.step t.capacity (.setText s)).blocks (strBytes s) := by
        refine ⟨H'.whole, H'.head, ?_, H'.slot⟩
        intro h1 j hj
        rw [H'.block h1 j hj]
        show _ = some (if j < textPackets t.capacity (utf8 st.text).length then st.blocks j else 0)
        rw [K.capacity_eq, length_utf8]
        unfold StreamText.blockAt
        by_cases hj' : j < textPackets (14 - t.offset) (strBytes st.text).length
        · rw [if_pos hj', H.block h1 j hj']; rfl
        · rw [if_neg hj', octetAt_none (by omega)]; rfl
      obtain ⟨b'', g1, g2⟩ := ih (st.step t.capacity (.setText s)) f2 H''
      refine ⟨b'', ?_, g2⟩
      show (t.setText b s >>= _) = _
      rw [f1]; exact g1
    | setBlock n =>
      have h1 : t.offset = 1 := by
        rcases hos with h | h
        · exact h
        · obtain ⟨s, hs⟩ := h _ List.mem_cons_self
          cases hs
      obtain ⟨b'', g1, g2⟩ := ih (st.step t.capacity (.setBlock n))
        (by rw [StreamText.setBlock_length]; exact hl) (H.setBlock h1 n)
      exact ⟨b'', g1, g2⟩

/-- C31, C32 over histories: after any sequence of `set_name` / `set_id` and, for the function
block name, `set_function_block` on a new message, the words are the encoding of the last text
with the numbers described by `State`, and the getters agree. -/
theorem C31_history (t : StreamText) (ht : t ∈ StreamText.all) (os : List StreamText.Op)
    (hos : t = .functionBlockName ∨ ∀ o ∈ os, ∃ s, o = .setText s) :
    ∃ b d, (t.newVec >>= fun b => t.history b os) = .ok b ∧ StreamText.data b = .ok d ∧
      t.IsEncoding d (os.foldl (StreamText.State.step t.capacity) .start).blocks
        (os.foldl (StreamText.State.step t.capacity) .start).text ∧
      (t = .functionBlockName →
        StreamText.block b = .ok ((os.foldl (StreamText.State.step t.capacity) .start).blocks 0)) ∧
      (NulFree (os.foldl (StreamText.State.step t.capacity) .start).text →
        t.text b = .ok (os.foldl (StreamText.State.step t.capacity) .start).text) := by
  have K : t.Known := StreamText.known_of_mem ht
  obtain ⟨b0, n1, n2, H0⟩ := StreamText.init_zeros K (n := 4) (by omega)
  obtain ⟨b, h1, h2, H⟩ := stream_history_holds K os (hos.imp (fun h => by rw [h]; rfl) id) .start
    (show b0.length = 4 * textPackets (14 - t.offset) (strBytes "").length by rw [n2]; rfl) H0
  obtain ⟨d, d1, d2, _⟩ := StreamText.isEncoding_of_holds K H
  refine ⟨b, d, ?_, d2, d1, fun h => H.block_eq K (by rw [h]; rfl), fun hs => (H.text_eq K hs).1⟩
  have : t.newVec = .ok b0 := n1
  rw [this]; exact h1

-- A history: the number set before the text grows is lost in the second packet.
example : (StreamText.functionBlockName.newVec >>= fun b => StreamText.functionBlockName.history b
    [.setBlock 5, .setText "abcdefghijklmn"]) =
    .ok [0xF4120561, 0x62636465, 0x66676869, 0x6A6B6C6D, 0xFC12006E, 0, 0, 0] := by decide +kernel

/-! ## C05, C06, C07, C33: parsing -/

/-- C05: parsing returns the slice or an error. -/
theorem C05_stream_text_total (t : StreamText) (ht : t ∈ StreamText.all) (b : Buf .ump) :
    t.tryFrom b = .ok b ∨ ∃ e, t.tryFrom b = .err e := by
  cases h : t.tryFrom b with
  | ok b' => rw [StreamText.tryFrom_self h]; exact .inl rfl
  | err e => exact .inr ⟨e, rfl⟩
  | panic => exact absurd h (StreamText.tryFrom_ne_panic (StreamText.known_of_mem ht) b)

example : StreamText.endpointName.tryFrom [0xF0030000] = .ok [0xF0030000] ∨
    ∃ e, StreamText.endpointName.tryFrom [0xF0030000] = .err e :=
  C05_stream_text_total _ (by decide +kernel) _

/-- C07: exactly the slices described by `Accepts` are accepted. -/
theorem C07_stream_text_accepts_exactly (t : StreamText) (ht : t ∈ StreamText.all) (b : Buf .ump) :
    t.tryFrom b = .ok b ↔ t.Accepts b := StreamText.tryFrom_iff (StreamText.known_of_mem ht) b

example : StreamText.endpointName.Accepts [0xF0036162, 0, 0, 0] :=
  (C07_stream_text_accepts_exactly _ (by decide +kernel) _).mp (by decide +kernel)

/-- C06: text and number of an accepted message can be read. -/
theorem C06_stream_text_getters (t : StreamText) (ht : t ∈ StreamText.all) (b : Buf .ump)
    (h : t.tryFrom b = .ok b) :
    (∃ n, StreamText.block b = .ok n) ∧
      ∃ s l, t.text b = .ok s ∧ t.textBytes b = .ok l ∧
        l.map BitVec.toNat = utf8 s ∧ utf8 s = (t.slots b).filter (· ≠ 0) := by
  have K := StreamText.known_of_mem ht
  have A := (StreamText.tryFrom_iff K b).mp h
  obtain ⟨w, e1, _⟩ := StreamText.backs_word K A.backs
  obtain ⟨s, h1, h2, h3⟩ := A.text_eq K
  exact ⟨⟨_, StreamText.block_word e1⟩, s, _, h1, h2, (utf8_eq s).symm, h3⟩

example : ∃ s l, StreamText.endpointName.text [0xF0036162, 0, 0, 0] = .ok s ∧
    StreamText.endpointName.textBytes [0xF0036162, 0, 0, 0] = .ok l ∧ l.map BitVec.toNat = utf8 s :=
  have ⟨_, s, l, h1, h2, h3, _⟩ := C06_stream_text_getters .endpointName (by decide +kernel)
    [0xF0036162, 0, 0, 0] (by decide +kernel)
  ⟨s, l, h1, h2, h3⟩

theorem stream_packets_of_data {b d : Buf .ump} {n : Nat} (h : StreamText.data b = .ok d)
    (hn : d.length = 4 * n) :
    ∃ ps, StreamText.packets b = .ok ps ∧ ps.length = n ∧ (∀ p ∈ ps, p.length = 4) ∧
      ps.flatten = d := by
  refine ⟨chunksExact 4 d, ?_, ?_, ?_, ?_⟩
  · unfold StreamText.packets
    rw [h]; rfl
  · rw [chunksExact_length (by omega), hn]; omega
  · intro p hp; exact chunksExact_mem_length (by omega) hp
  · rw [chunksExact_flatten (by omega), List.take_of_length_le]
    rw [hn]; omega

/-- `data()` and `packets()` depend on the formats of the packets only. -/
theorem stream_data_of_formats {b : Buf .ump}
    (hf : SeqOk ((StreamText.run b).map fun w => field w 4 2))
    (hw : 4 * (StreamText.run b).length ≤ b.length) :
    ∃ d ps, StreamText.data b = .ok d ∧ d = b.take (4 * (StreamText.run b).length) ∧
      StreamText.packets b = .ok ps ∧ ps.length = (StreamText.run b).length ∧
      (∀ p ∈ ps, p.length = 4) ∧ ps.flatten = d := by
  have hd : StreamText.data b = .ok (b.take (4 * (StreamText.run b).length)) := by
    unfold StreamText.data
    rw [StreamText.size_of_formats hf hw, Res.ok_bind]
    unfold sliceTo
    rw [if_pos hw]
  obtain ⟨ps, h1, h2, h3, h4⟩ := stream_packets_of_data hd
    (show _ = 4 * (StreamText.run b).length by rw [List.length_take]; omega)
  exact ⟨_, ps, hd, rfl, h1, h2, h3, h4⟩

/-- C06, C33: `data()` and `packets()` of an accepted message whose last packet is complete.
Missing: a truncated last packet, for which the code panics. -/
theorem C06_stream_text_data_partial (t : StreamText) (ht : t ∈ StreamText.all) (b : Buf .ump)
    (h : t.tryFrom b = .ok b) (hw : 4 * (StreamText.run b).length ≤ b.length) :
    ∃ d ps, StreamText.data b = .ok d ∧ d = b.take (4 * (StreamText.run b).length) ∧
      StreamText.packets b = .ok ps ∧ ps.length = (StreamText.run b).length ∧
      (∀ p ∈ ps, p.length = 4) ∧ ps.flatten = d :=
  stream_data_of_formats ((StreamText.tryFrom_iff (StreamText.known_of_mem ht) b).mp h).formats hw

/-- An accepted name of two packets. -/
def sampleNameTwo : Buf .ump :=
  [0xF4036162, 0x63646566, 0x6768696A, 0x6B6C6DC3, 0xFC03A900, 0, 0, 0]

example : StreamText.endpointName.tryFrom sampleNameTwo = .ok sampleNameTwo ∧
    4 * (StreamText.run sampleNameTwo).length ≤ sampleNameTwo.length ∧
    (StreamText.run sampleNameTwo).length = 2 :=
  ⟨by decide +kernel, by decide, by decide⟩

/-- C06: a slice whose last packet is truncated is accepted, and `data()` panics. -/
theorem C06_stream_text_truncated_violation :
    StreamText.endpointName.tryFrom [0xF4036162, 0, 0, 0, 0xFC030000] =
        .ok [0xF4036162, 0, 0, 0, 0xFC030000] ∧
      StreamText.data [0xF4036162, 0, 0, 0, 0xFC030000] = .panic ∧
      StreamText.packets [0xF4036162, 0, 0, 0, 0xFC030000] = .panic :=
  ⟨by decide +kernel, by decide, by decide⟩

/-- C33: after setting a text, the packets are the consecutive four-word parts of `data()`. -/
theorem C33_stream_text_packets (t : StreamText) (ht : t ∈ StreamText.all) (b : Buf .ump)
    (B : t.Backs b) (s : String) :
    ∃ b' d ps, t.setText b s = .ok b' ∧ StreamText.data b' = .ok d ∧
      StreamText.packets b' = .ok ps ∧ ps.length = textPackets t.capacity (utf8 s).length ∧
      (∀ p ∈ ps, p.length = 4) ∧ ps.flatten = d := by
  have K := StreamText.known_of_mem ht
  obtain ⟨b', f1, f2, H⟩ := StreamText.setText_holds K B s
  obtain ⟨d, d1, d2, d3⟩ := StreamText.isEncoding_of_holds K H
  obtain ⟨ps, p1, p2, p3, p4⟩ := stream_packets_of_data d2 d3
  exact ⟨b', d, ps, f1, d2, p1, p2, p3, p4⟩

example : ∃ b' ps, StreamText.endpointName.setText [0xF0030000, 0, 0, 0] "abcdefghijklmno" = .ok b' ∧
    StreamText.packets b' = .ok ps ∧ ps.length = 2 :=
  have ⟨b', _, ps, h1, _, h2, h3, _⟩ := C33_stream_text_packets .endpointName (by decide +kernel)
    [0xF0030000, 0, 0, 0] ⟨by decide, by decide, by decide⟩ "abcdefghijklmno"
  ⟨b', ps, h1, h2, h3⟩

/-! ## C08: new messages -/

/-- What a new message should be: valid, number 0, no text. -/
def StreamText.IsNew (t : StreamText) (b : Buf .ump) : Prop :=
  t.Backs b ∧ t.text b = .ok "" ∧ (t.offset = 1 → StreamText.block b = .ok 0) ∧
  ∃ d, StreamText.data b = .ok d ∧ t.IsEncoding d (fun _ => 0) "" ∧ t.tryFrom d = .ok d

theorem stream_isNew_of_holds {t : StreamText} (K : t.Known) {b : Buf .ump}
    (H : t.Holds b (fun _ => 0) []) : t.IsNew b := by
  have H' : t.Holds b (fun _ => 0) (strBytes "") := H
  obtain ⟨d, d1, d2, d3⟩ := StreamText.isEncoding_of_holds K H'
  refine ⟨H.backs K, (H'.text_eq K (by unfold NulFree; decide)).1, H.block_eq K, d, d2, d1, ?_⟩
  rw [H.data_eq K] at d2
  cases d2
  rw [StreamText.tryFrom_iff K]
  refine (H.take K).accepts K ?_ (fun _ _ _ => rfl) ⟨"", by simp; rfl⟩
  rw [List.length_take]
  have := H.whole
  omega

/-- C08: `new()` over a resizable buffer. -/
theorem C08_stream_text_new (t : StreamText) (ht : t ∈ StreamText.all) :
    ∃ b, t.newVec = .ok b ∧ t.IsNew b := by
  have K := StreamText.known_of_mem ht
  obtain ⟨b, h1, _, H⟩ := StreamText.init_zeros K (n := 4) (by omega)
  exact ⟨b, h1, stream_isNew_of_holds K H⟩

example : ∃ b, StreamText.functionBlockName.newVec = .ok b ∧ StreamText.functionBlockName.IsNew b :=
  C08_stream_text_new _ (by decide +kernel)

/-- C08: `new_with_buffer(b)`, whatever the buffer. -/
theorem C08_stream_text_new_with_buffer (t : StreamText) (ht : t ∈ StreamText.all) (b0 : Buf .ump) :
    ∃ b, t.newWithBuffer b0 = .ok b ∧ t.IsNew b := by
  have K := StreamText.known_of_mem ht
  obtain ⟨b, h1, _, H⟩ := StreamText.init_zeros K (n := 4) (by omega)
  refine ⟨b, ?_, stream_isNew_of_holds K H⟩
  rw [← h1]
  unfold StreamText.newWithBuffer zeroPrefix
  congr 1
  rw [List.drop_of_length_le (by rw [FlexText.vecResize_length]; omega), List.append_nil]

example : ∃ b, StreamText.functionBlockName.newWithBuffer [1, 2, 3, 4, 5] = .ok b ∧
    StreamText.functionBlockName.IsNew b :=
  C08_stream_text_new_with_buffer _ (by decide +kernel) _

/-- C08: `new()` and `try_new()` over an array. -/
theorem C08_stream_text_array (t : StreamText) (ht : t ∈ StreamText.all) (n : Nat) :
    (4 ≤ n → ∃ b, t.newArray n = .ok b ∧ t.tryNew n = .ok b ∧ b.length = n ∧ t.IsNew b) ∧
    (n < 4 → t.tryNew n = .err .bufferOverflow) := by
  have K := StreamText.known_of_mem ht
  constructor
  · intro h
    obtain ⟨b, h1, h2, H⟩ := StreamText.init_zeros K h
    refine ⟨b, ?_, ?_, h2, stream_isNew_of_holds K H⟩
    · unfold StreamText.newArray; rw [if_neg (by omega)]; exact h1
    · unfold StreamText.tryNew fixedTryResize
      rw [if_neg (by rw [List.length_replicate]; omega)]; exact h1
  · intro h
    unfold StreamText.tryNew fixedTryResize
    rw [if_pos (by rw [List.length_replicate]; omega)]; rfl

example : StreamText.endpointName.tryNew 3 = .err .bufferOverflow :=
  (C08_stream_text_array _ (by decide +kernel) 3).2 (by decide)

/-- C08: `try_new_with_buffer(b)` over a buffer of exactly one packet, whatever its content.
Missing: longer buffers, whose words after the first packet are kept. -/
theorem C08_stream_text_try_new_with_buffer_partial (t : StreamText) (ht : t ∈ StreamText.all)
    (b0 : Buf .ump) :
    (b0.length = 4 → ∃ b, t.tryNewWithBuffer b0 = .ok b ∧ b.length = 4 ∧ t.IsNew b) ∧
    (b0.length < 4 → t.tryNewWithBuffer b0 = .err .bufferOverflow) := by
  have K := StreamText.known_of_mem ht
  constructor
  · intro h
    obtain ⟨b, h1, h2, H⟩ := StreamText.init_zeros K (n := 4) (by omega)
    refine ⟨b, ?_, h2, stream_isNew_of_holds K H⟩
    unfold StreamText.tryNewWithBuffer fixedTryResize zeroPrefix
    rw [if_neg (by omega)]
    show t.init (List.replicate 4 0 ++ b0.drop 4) = _
    rw [List.drop_of_length_le (by omega), List.append_nil]
    exact h1
  · intro h
    unfold StreamText.tryNewWithBuffer fixedTryResize
    rw [if_pos (by omega)]; rfl

example : ∃ b, StreamText.endpointName.tryNewWithBuffer [1, 2, 3, 4] = .ok b ∧ b.length = 4 ∧
    StreamText.endpointName.IsNew b :=
  (C08_stream_text_try_new_with_buffer_partial _ (by decide +kernel) [1, 2, 3, 4]).1 rfl

/-- C08: over a longer buffer holding an old message, the new message begins with a "begin"
packet and has the old text. -/
theorem C08_stream_text_dirty_buffer_violation :
    ∃ b, StreamText.endpointName.tryNewWithBuffer
        [0xF4036162, 0x63646566, 0x6768696A, 0x6B6C6DC3, 0xFC036162, 0, 0, 0] = .ok b ∧
      StreamText.data b = .ok b ∧ b.length = 8 ∧ StreamText.endpointName.text b = .ok "ab" :=
  ⟨[0xF4030000, 0, 0, 0, 0xFC036162, 0, 0, 0], by decide +kernel, by decide, by decide,
    by decide +kernel⟩

end Midi2
