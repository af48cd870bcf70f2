import Verif.Lemmas.UsizeTextWrap
import Verif.Spec.UsizeText

/-!
# C66: machine integers in text messages

Texts of at least a quarter of the address space that fill their packets make the size
computation overflow.  In a build with overflow checks setting such a text panics, in one
without them it panics or, in a buffer that is large enough, truncates the message.  Nothing
else overflows.
-/

namespace Midi2

/-! ### Setting a text -/

/-- C66: what setting a flex data text does on a `w`-bit target, for every text that target can
hold.  Without overflow it does what it does for unbounded numbers, in every kind of build. -/
theorem C66_flex_text_exactly {w : Nat} (hw : 5 ≤ w) (b : Buf .ump) (s : String)
    (hs : (utf8 s).length < 2 ^ w) :
    (¬ TextOverflows w 12 s → ∀ dbg,
      FlexText.setTextU (.checked w) dbg b s = FlexText.setText b s ∧
      FlexText.setTextU (.wrapping w) dbg b s = FlexText.setText b s ∧
      FlexText.trySetTextU (.checked w) dbg b s = FlexText.trySetText b s ∧
      FlexText.trySetTextU (.wrapping w) dbg b s = FlexText.trySetText b s) ∧
    (TextOverflows w 12 s →
      (∀ dbg, FlexText.setTextU (.checked w) dbg b s = .panic ∧
        FlexText.trySetTextU (.checked w) dbg b s = .panic) ∧
      FlexText.setTextU (.wrapping w) false b s = .panic ∧
      (b.length < 4 * textPackets 12 (utf8 s).length →
        FlexText.trySetTextU (.wrapping w) false b s =
          if b.length < 4 * (utf8 s).length % 2 ^ w / 12 then .err .bufferOverflow else .panic)) := by
  rw [length_utf8] at hs
  unfold TextOverflows
  rw [length_utf8]
  refine ⟨fun ho dbg => ?_, fun ho => ⟨fun dbg => ?_, ?_, fun hb => ?_⟩⟩
  · exact ⟨FlexText.setTextU_eq (Arith.checked_exact w) hw dbg b s hs ho,
      FlexText.setTextU_eq (Arith.wrapping_exact w) hw dbg b s hs ho,
      FlexText.trySetTextU_eq (Arith.checked_exact w) hw dbg b s hs ho,
      FlexText.trySetTextU_eq (Arith.wrapping_exact w) hw dbg b s hs ho⟩
  · rw [FlexText.setTextU, FlexText.trySetTextU, FlexText.sizeForStrU_checked ho.1 ho.2]
    exact ⟨rfl, rfl⟩
  · exact FlexText.setTextU_wrapping hw b s hs ho.1 ho.2
  · refine FlexText.trySetTextU_wrapping_small hw b s hs ho.1 ho.2 ?_
    have : 0 < 2 ^ w := Nat.pow_pos (by decide)
    unfold textPackets at hb
    rw [if_neg (by omega)] at hb
    omega

/-- C66: where the buffer is large enough for the text, `try_set_text` of a release build
reports success, and the message is the first packets of the text: as many as the wrapped size
says. -/
theorem C66_flex_text_truncated {w : Nat} (hw : 5 ≤ w) (t : FlexText) (b : Buf .ump) (B : t.Backs b)
    (s : String) (hs : (utf8 s).length < 2 ^ w) (ho : TextOverflows w 12 s)
    (hb : 4 * textPackets 12 (utf8 s).length ≤ b.length) (m : Nat)
    (hm : m = 4 * (utf8 s).length % 2 ^ w / 48) (h0 : 0 < m) :
    ∃ b' d g c, FlexText.group b = .ok g ∧ FlexText.channel b = .ok c ∧
      FlexText.trySetTextU (.wrapping w) false b s = .ok b' ∧
      FlexText.data b' = .ok d ∧ d.length = 4 * m ∧ m < textPackets 12 (utf8 s).length ∧
      octets d = textWire (fun j => flexHeader g.toNat (c.map BitVec.toNat) t.bank.toNat
        t.status.toNat m j) 12 ((utf8 s).take (12 * m)) := by
  unfold TextOverflows at ho
  rw [utf8_eq] at *
  rw [List.length_map] at *
  obtain ⟨x, e1, _⟩ := FlexText.backs_word B
  have hp : 0 < 2 ^ w := Nat.pow_pos (by decide)
  have htp : textPackets 12 (strBytes s).length = (strBytes s).length / 12 := by
    unfold textPackets
    rw [if_neg (by omega)]
    omega
  rw [htp] at hb ⊢
  obtain ⟨b', f1, _, d, f2, f3, f4⟩ := FlexText.trySetTextU_wrapping_large hw B
    (FlexText.group_word e1) (FlexText.channel_word e1) s hs ho.1 ho.2 (by omega) hm.symm h0
  have := Nat.mod_lt (4 * (strBytes s).length) hp
  exact ⟨b', d, _, _, FlexText.group_word e1, FlexText.channel_word e1, f1, f2, f3, by omega,
    by rw [f4, List.map_take]⟩

/-- A text of 24 octets on a target of 6 bits: the size of 8 words is computed as 2. -/
example : TextOverflows 6 12 "abcdefghijklmnopqrstuvwx" ∧
    FlexText.setTextU (.checked 6) true [0xD0100102, 0, 0, 0] "abcdefghijklmnopqrstuvwx" = .panic ∧
    FlexText.setTextU (.wrapping 6) false [0xD0100102, 0, 0, 0] "abcdefghijklmnopqrstuvwx" = .panic ∧
    (FlexText.setText [0xD0100102, 0, 0, 0] "abcdefghijklmnopqrstuvwx").isOk := by decide +kernel

/-- 60 octets on the same target, in 20 words: the size of 20 words is computed as 4, all five
packets get their text but only the first gets a header, and the message is that packet. -/
example : TextOverflows 6 12 "abcdefghijklmnopqrstuvwxyzabcdefghijklmnopqrstuvwxyzABCDEFGH" ∧
    4 * (utf8 "abcdefghijklmnopqrstuvwxyzabcdefghijklmnopqrstuvwxyzABCDEFGH").length % 2 ^ 6 / 48 =
      1 ∧
    ((FlexText.trySetTextU (.wrapping 6) false (0xD0100101 :: List.replicate 19 0)
        "abcdefghijklmnopqrstuvwxyzabcdefghijklmnopqrstuvwxyzABCDEFGH").bind fun b =>
      (FlexText.data b).bind fun d => .ok (b.drop 4 |>.take 8, d)) =
      .ok ([0, 0x6D6E6F70, 0x71727374, 0x75767778, 0, 0x797A6162, 0x63646566, 0x6768696A],
        [0xD0100101, 0x61626364, 0x65666768, 0x696A6B6C]) := by decide +kernel

/-- C66 for stream texts. -/
theorem C66_stream_text_exactly {w : Nat} (hw : 5 ≤ w) (t : StreamText) (ht : t ∈ StreamText.all)
    (b : Buf .ump) (s : String) (hs : (utf8 s).length < 2 ^ w) :
    (¬ TextOverflows w t.capacity s → ∀ dbg,
      StreamText.setTextU (.checked w) dbg t b s = t.setText b s ∧
      StreamText.setTextU (.wrapping w) dbg t b s = t.setText b s ∧
      StreamText.trySetTextU (.checked w) dbg t b s = t.trySetText b s ∧
      StreamText.trySetTextU (.wrapping w) dbg t b s = t.trySetText b s) ∧
    (TextOverflows w t.capacity s →
      (∀ dbg, StreamText.setTextU (.checked w) dbg t b s = .panic ∧
        StreamText.trySetTextU (.checked w) dbg t b s = .panic) ∧
      StreamText.setTextU (.wrapping w) false t b s = .panic ∧
      (b.length < 4 * textPackets t.capacity (utf8 s).length →
        StreamText.trySetTextU (.wrapping w) false t b s =
          if b.length < 4 * (utf8 s).length % 2 ^ w / t.capacity then .err .bufferOverflow
          else .panic)) := by
  have hoff : t.offset < 2 ∧ t.capacity = 14 - t.offset := by
    simp only [StreamText.all, List.mem_cons, List.not_mem_nil, or_false] at ht
    rcases ht with rfl | rfl | rfl <;> exact ⟨by decide, by decide⟩
  obtain ⟨hoff, hcap⟩ := hoff
  rw [length_utf8] at hs
  unfold TextOverflows
  rw [length_utf8, hcap]
  refine ⟨fun ho dbg => ?_, fun ho => ⟨fun dbg => ?_, ?_, fun hb => ?_⟩⟩
  · exact ⟨StreamText.setTextU_eq (Arith.checked_exact w) hw dbg t hoff b s hs ho,
      StreamText.setTextU_eq (Arith.wrapping_exact w) hw dbg t hoff b s hs ho,
      StreamText.trySetTextU_eq (Arith.checked_exact w) hw dbg t hoff b s hs ho,
      StreamText.trySetTextU_eq (Arith.wrapping_exact w) hw dbg t hoff b s hs ho⟩
  · rw [StreamText.setTextU, StreamText.trySetTextU, StreamText.sizeForStrU_checked ho.1 ho.2]
    exact ⟨rfl, rfl⟩
  · exact StreamText.setTextU_wrapping hw t hoff b s hs ho.1 ho.2
  · refine StreamText.trySetTextU_wrapping_small hw t hoff b s hs ho.1 ho.2 ?_
    have : 0 < 2 ^ w := Nat.pow_pos (by decide)
    unfold textPackets at hb
    rw [if_neg (by omega)] at hb
    have h01 : t.offset = 0 ∨ t.offset = 1 := by omega
    rcases h01 with h | h
    · rw [h] at hb ho ⊢; simp only [Nat.sub_zero] at hb ho ⊢; omega
    · rw [h] at hb ho ⊢; simp only [show (14 : Nat) - 1 = 13 from rfl] at hb ho ⊢; omega

example : StreamText.setTextU (.checked 6) true .functionBlockName [0xF0120500, 0, 0, 0]
      "abcdefghijklmnopqrstuvwxyz" = .panic ∧
    (StreamText.setTextU (.checked 8) true .functionBlockName [0xF0120500, 0, 0, 0]
      "abcdefghijklmnopqrstuvwxyz").isOk := by decide +kernel

/-- C66: the same truncation for stream texts, where the wrapped size is a number of whole
packets.  The function block numbers of those packets stay. -/
theorem C66_stream_text_truncated {w : Nat} (hw : 5 ≤ w) (t : StreamText)
    (ht : t ∈ StreamText.all) (b : Buf .ump) (B : t.Backs b) (s : String)
    (hs : (utf8 s).length < 2 ^ w) (ho : TextOverflows w t.capacity s)
    (hb : 4 * textPackets t.capacity (utf8 s).length ≤ b.length) (m : Nat)
    (hm : 4 * m = 4 * (utf8 s).length % 2 ^ w / t.capacity) (h0 : 0 < m) :
    ∃ b' d, StreamText.trySetTextU (.wrapping w) false t b s = .ok b' ∧
      StreamText.data b' = .ok d ∧ d.length = 4 * m ∧ m < textPackets t.capacity (utf8 s).length ∧
      octets d = textWire (fun j => streamHeader t.status.toNat m j ++
        if t.offset = 0 then [] else [octetVal b (16 * j + 2)]) t.capacity
        ((utf8 s).take (t.capacity * m)) := by
  have K := StreamText.known_of_mem ht
  have hoff := K.off
  unfold TextOverflows at ho
  rw [utf8_eq] at *
  rw [List.length_map] at *
  have hc := K.capacity_eq
  have hp : 0 < 2 ^ w := Nat.pow_pos (by decide)
  have hlt := Nat.mod_lt (4 * (strBytes s).length) hp
  have htp : (14 - t.offset) * textPackets (14 - t.offset) (strBytes s).length =
      (strBytes s).length := by
    unfold textPackets
    rw [if_neg (by omega)]
    have hx := Nat.div_add_mod (strBytes s).length (14 - t.offset)
    rw [hc] at ho
    rw [ho.1, Nat.add_zero] at hx
    generalize (strBytes s).length / (14 - t.offset) = q at hx
    rw [← hx, show (14 - t.offset) * q + (14 - t.offset) - 1 =
      (14 - t.offset) * q + (14 - t.offset - 1) by omega, Nat.mul_add_div (by omega),
      Nat.div_eq_of_lt (by omega), Nat.add_zero]
  have hmul := Nat.mul_div_le (4 * (strBytes s).length % 2 ^ w) (14 - t.offset)
  rw [hc] at ho hb hm ⊢
  rw [← hm, show (14 - t.offset) * (4 * m) = 4 * ((14 - t.offset) * m) by ac_rfl] at hmul
  obtain ⟨b', f1, _, d, f2, f3, f4⟩ := StreamText.trySetTextU_wrapping_large hw K B s hs ho.1 ho.2
    (by
      have := Nat.mul_le_mul_left (14 - t.offset) hb
      rw [show (14 - t.offset) * (4 * textPackets (14 - t.offset) (strBytes s).length) =
        4 * ((14 - t.offset) * textPackets (14 - t.offset) (strBytes s).length) by ac_rfl, htp] at this
      exact this) hm.symm h0
  refine ⟨b', d, f1, f2, f3, ?_, ?_⟩
  · refine Nat.lt_of_mul_lt_mul_left (a := 14 - t.offset) ?_
    rw [htp]; omega
  · rw [f4, List.map_take, hc]
    congr 1
    funext j
    have : (StreamText.blockAt b j).toNat = octetVal b (16 * j + 2) := by
      unfold StreamText.blockAt octetAt octetVal fieldAt
      cases h : b[(16 * j + 2) / 4]? with
      | none => rfl
      | some x => exact octet_field x (by omega)
    rw [this]

/-- 78 octets on a target of 8 bits, in 24 words: the size is computed as four words.  For 70
octets it is computed as one word, which no packet has: the headers behind the first packet are
not cleared, and an endpoint name keeps the packets of the last one. -/
example : TextOverflows 8 13 (String.ofList (List.replicate 78 'a')) ∧
    4 * 78 % 2 ^ 8 / 13 = 4 * 1 ∧
    ((StreamText.trySetTextU (.wrapping 8) false .functionBlockName (0xF0120500 :: List.replicate 23 0)
        (String.ofList (List.replicate 78 'a'))).bind StreamText.data) =
      .ok [0xF0120561, 0x61616161, 0x61616161, 0x61616161] ∧
    TextOverflows 8 14 (String.ofList (List.replicate 70 'a')) ∧
    4 * 70 % 2 ^ 8 / 14 = 1 ∧
    ((StreamText.trySetTextU (.wrapping 8) false .endpointName
        ([0xF4030000, 0, 0, 0, 0xFC030000, 0, 0, 0] ++ List.replicate 12 0)
        (String.ofList (List.replicate 70 'a'))).bind StreamText.data) =
      .ok [0xF4036161, 0x61616161, 0x61616161, 0x61616161, 0xFC036161, 0x61616161, 0x61616161,
        0x61616161] := by decide +kernel

/-! ### Histories -/

/-- C66: a history of calls on a flex data text message that does not panic with overflow checks
and debug assertions has the same outcome without them, and it is that for unbounded numbers. -/
theorem C66_flex_text_history {w : Nat} (hw : 5 ≤ w) (fixed : Bool) (os : List FlexText.Op)
    (hs : ∀ o ∈ os, FlexText.Op.OnTarget w o) (b : Buf .ump)
    (h : FlexText.Op.execAllU (.checked w) true fixed os b ≠ .panic) :
    FlexText.Op.execAllU (.wrapping w) false fixed os b =
      FlexText.Op.execAllU (.checked w) true fixed os b ∧
    FlexText.Op.execAll fixed os b = FlexText.Op.execAllU (.checked w) true fixed os b := by
  induction os generalizing b with
  | nil => exact ⟨rfl, rfl⟩
  | cons o os ih =>
    have hs1 := hs o (List.mem_cons_self ..)
    have step : o.execU (.checked w) true fixed b ≠ .panic →
        o.execU (.wrapping w) false fixed b = o.execU (.checked w) true fixed b ∧
        o.exec fixed b = o.execU (.checked w) true fixed b := by
      cases o with
      | setGroup g => exact fun _ => ⟨rfl, rfl⟩
      | setChannel c => exact fun _ => ⟨rfl, rfl⟩
      | setText s =>
        intro hp
        obtain ⟨h1, h2⟩ := C66_flex_text_exactly hw b s hs1
        simp only [FlexText.Op.execU, FlexText.Op.exec] at hp ⊢
        by_cases ho : TextOverflows w 12 s
        · have := (h2 ho).1 true
          rw [this.1, this.2] at hp
          exact absurd (by cases fixed <;> rfl) hp
        · have c := h1 ho true
          have d := h1 ho false
          rw [c.1, c.2.2.1, d.2.1, d.2.2.2]
          exact ⟨rfl, rfl⟩
    simp only [FlexText.Op.execAllU, FlexText.Op.execAll] at h ⊢
    have hp1 : o.execU (.checked w) true fixed b ≠ .panic := by
      intro e; rw [e] at h; exact h rfl
    obtain ⟨s1, s2⟩ := step hp1
    rw [s1, s2]
    cases hx : o.execU (.checked w) true fixed b with
    | panic => exact absurd hx hp1
    | err e => exact ⟨rfl, rfl⟩
    | ok x =>
      rw [hx] at h
      simp only [Res.ok_bind] at h ⊢
      have hp2 : FlexText.Op.execAllU (.checked w) true fixed os x.1 ≠ .panic := by
        intro e; rw [e] at h; exact h rfl
      obtain ⟨i1, i2⟩ := ih (fun o ho => hs o (List.mem_cons_of_mem _ ho)) x.1 hp2
      rw [i1, i2]
      exact ⟨rfl, rfl⟩

example : (FlexText.Op.execAllU (.checked 16) true true [.setText "Grüße", .setGroup 3, .setText
    "a text of more than twelve octets", .setText "x"] (0xD0100101 :: List.replicate 7 0)).bind
      (fun x => .ok x.2) = .ok [none, none, some .bufferOverflow, none] := by decide +kernel

/-- C66 for histories of stream text messages. -/
theorem C66_stream_text_history {w : Nat} (hw : 5 ≤ w) (t : StreamText) (ht : t ∈ StreamText.all)
    (fixed : Bool) (os : List StreamText.Op) (hs : ∀ o ∈ os, StreamText.Op.OnTarget w o)
    (b : Buf .ump) (h : StreamText.Op.execAllU (.checked w) true t fixed os b ≠ .panic) :
    StreamText.Op.execAllU (.wrapping w) false t fixed os b =
      StreamText.Op.execAllU (.checked w) true t fixed os b ∧
    StreamText.Op.execAll t fixed os b = StreamText.Op.execAllU (.checked w) true t fixed os b := by
  induction os generalizing b with
  | nil => exact ⟨rfl, rfl⟩
  | cons o os ih =>
    have hs1 := hs o (List.mem_cons_self ..)
    have step : o.execU (.checked w) true t fixed b ≠ .panic →
        o.execU (.wrapping w) false t fixed b = o.execU (.checked w) true t fixed b ∧
        o.exec t fixed b = o.execU (.checked w) true t fixed b := by
      cases o with
      | setBlock n => exact fun _ => ⟨rfl, rfl⟩
      | setText s =>
        intro hp
        obtain ⟨h1, h2⟩ := C66_stream_text_exactly hw t ht b s hs1
        simp only [StreamText.Op.execU, StreamText.Op.exec] at hp ⊢
        by_cases ho : TextOverflows w t.capacity s
        · have := (h2 ho).1 true
          rw [this.1, this.2] at hp
          exact absurd (by cases fixed <;> rfl) hp
        · have c := h1 ho true
          have d := h1 ho false
          rw [c.1, c.2.2.1, d.2.1, d.2.2.2]
          exact ⟨rfl, rfl⟩
    simp only [StreamText.Op.execAllU, StreamText.Op.execAll] at h ⊢
    have hp1 : o.execU (.checked w) true t fixed b ≠ .panic := by
      intro e; rw [e] at h; exact h rfl
    obtain ⟨s1, s2⟩ := step hp1
    rw [s1, s2]
    cases hx : o.execU (.checked w) true t fixed b with
    | panic => exact absurd hx hp1
    | err e => exact ⟨rfl, rfl⟩
    | ok x =>
      rw [hx] at h
      simp only [Res.ok_bind] at h ⊢
      have hp2 : StreamText.Op.execAllU (.checked w) true t fixed os x.1 ≠ .panic := by
        intro e; rw [e] at h; exact h rfl
      obtain ⟨i1, i2⟩ := ih (fun o ho => hs o (List.mem_cons_of_mem _ ho)) x.1 hp2
      rw [i1, i2]
      exact ⟨rfl, rfl⟩

example : (StreamText.Op.execAllU (.checked 16) true .functionBlockName false
    [.setText "Grüße", .setBlock 3, .setText "fourteen octets"] [0xF0120000, 0, 0, 0]).bind
      (fun x => .ok (x.1.take 5, x.2)) =
    .ok ([0xF4120366, 0x6F757274, 0x65656E20, 0x6F637465, 0xFC120074], [none, none, none]) := by
  decide +kernel

/-! ### Reading -/

/-- C66: what the reading methods and the parser of flex data texts do on a `w`-bit target, for
every slice of at least four words.  Without overflow checks it is what they do for unbounded
numbers.  With them, `size_hint` overflows for slices of a twelfth of the address space:
collecting a text that is not empty panics, and so does the parser. -/
theorem C66_flex_text_reads {w : Nat} (hw : 5 ≤ w) (t : FlexText) (b : Buf .ump)
    (hl : 4 ≤ b.length) (hb : b.length < 2 ^ w) :
    FlexText.dataU (.checked w) b = FlexText.data b ∧
    FlexText.dataU (.wrapping w) b = FlexText.data b ∧
    FlexText.textU (.wrapping w) b = FlexText.text b ∧
    FlexText.tryFromU (.wrapping w) t b = t.tryFrom b ∧
    (12 * b.length < 2 ^ w → FlexText.textU (.checked w) b = FlexText.text b ∧
      FlexText.tryFromU (.checked w) t b = t.tryFrom b) ∧
    (2 ^ w ≤ 12 * b.length → ∀ l, FlexText.textBytes b = .ok l →
      FlexText.textBytesU (.checked w) b = (if l = [] then .ok [] else .panic) ∧
      (t.tryFrom b = .ok b → FlexText.tryFromU (.checked w) t b =
        if l = [] then .ok b else .panic)) := by
  have key : ∀ A : Arith, FlexText.textBytesU A b = FlexText.textBytes b →
      FlexText.textU A b = FlexText.text b ∧ FlexText.tryFromU A t b = t.tryFrom b := by
    intro A e
    unfold FlexText.textU FlexText.text FlexText.tryFromU FlexText.tryFrom FlexText.validateText
    rw [e]
    refine ⟨rfl, ?_⟩
    congr 7
    funext _
    congr 1
    funext _
    congr 1
    funext _
    congr 1
    funext _
    congr 1
    funext _
    congr 1
    funext _
    cases FlexText.textBytes b with
    | panic => rfl
    | err e => rfl
    | ok l => simp only [Res.ok_bind]; cases fromUtf8 l <;> rfl
  obtain ⟨x, hx⟩ := FlexText.hint_wrapping (w := w) b
  have hwr := key _ (FlexText.textBytesU_eq (Arith.wrapping_exact w) hw b hl hb hx)
  refine ⟨FlexText.dataU_eq (Arith.checked_exact w) b hb,
    FlexText.dataU_eq (Arith.wrapping_exact w) b hb, hwr.1, hwr.2, fun h12 => ?_, fun h12 l hl' => ?_⟩
  · exact key _ (FlexText.textBytesU_eq (Arith.checked_exact w) hw b hl hb
      (FlexText.hint_eq (Arith.checked_exact w) b hl h12))
  · have hp := FlexText.textBytesU_panic (Arith.checked_exact w) hw b hl hb
      (FlexText.hint_checked_panic b hl h12) l hl'
    refine ⟨hp, fun hok => ?_⟩
    unfold FlexText.tryFrom at hok
    unfold FlexText.tryFromU
    rw [if_neg (by omega)] at hok ⊢
    rw [hp]
    revert hok
    cases (Fld.umpType 0xD).validate32 b with
    | panic => intro h; cases h
    | err e => intro h; cases h
    | ok _ =>
    cases consistentGroups 4 0xD#4 b with
    | panic => intro h; cases h
    | err e => intro h; cases h
    | ok _ =>
    cases Fld.flexOptionalChannel.validate32 b with
    | panic => intro h; cases h
    | err e => intro h; cases h
    | ok _ =>
    cases (Fld.flexBank t.bank).validate32 b with
    | panic => intro h; cases h
    | err e => intro h; cases h
    | ok _ =>
    cases (Fld.flexStatus t.status).validate32 b with
    | panic => intro h; cases h
    | err e => intro h; cases h
    | ok _ =>
    cases FlexText.validateFormats b with
    | panic => intro h; cases h
    | err e => intro h; cases h
    | ok _ =>
    intro _
    simp only [Res.ok_bind]
    by_cases hnil : l = []
    · rw [if_pos hnil, if_pos hnil]
      have : fromUtf8 [] = .ok "" := by decide +kernel
      simp only [Res.ok_bind]
      rw [this]; rfl
    · rw [if_neg hnil, if_neg hnil]; rfl

/-- On a target of 6 bits a slice of eight words is too large for a debug build. -/
example : FlexText.tryFromU (.checked 6) ⟨"ProjectName", 1, 1⟩
      [0xD0500101, 0x61626364, 0x65666768, 0x696A6B6C, 0xD0D00101, 0x6D000000, 0, 0] = .panic ∧
    FlexText.tryFrom ⟨"ProjectName", 1, 1⟩
      [0xD0500101, 0x61626364, 0x65666768, 0x696A6B6C, 0xD0D00101, 0x6D000000, 0, 0] =
      .ok [0xD0500101, 0x61626364, 0x65666768, 0x696A6B6C, 0xD0D00101, 0x6D000000, 0, 0] := by
  decide +kernel

/-- C66 for the reading methods and parsers of stream texts, where `size_hint` overflows from a
fourteenth of the address space. -/
theorem C66_stream_text_reads {w : Nat} (hw : 5 ≤ w) (t : StreamText) (ht : t ∈ StreamText.all)
    (b : Buf .ump) (hl : 4 ≤ b.length) (hb : b.length < 2 ^ w) :
    StreamText.dataU (.checked w) b = StreamText.data b ∧
    StreamText.dataU (.wrapping w) b = StreamText.data b ∧
    StreamText.textU (.wrapping w) t b = t.text b ∧
    StreamText.tryFromU (.wrapping w) t b = t.tryFrom b ∧
    (14 * b.length < 2 ^ w → StreamText.textU (.checked w) t b = t.text b ∧
      StreamText.tryFromU (.checked w) t b = t.tryFrom b) ∧
    (2 ^ w ≤ 14 * b.length → ∀ l, t.textBytes b = .ok l →
      StreamText.textBytesU (.checked w) t b = (if l = [] then .ok [] else .panic) ∧
      (t.tryFrom b = .ok b → StreamText.tryFromU (.checked w) t b =
        if l = [] then .ok b else .panic)) := by
  have hoff : t.offset < 2 := by
    simp only [StreamText.all, List.mem_cons, List.not_mem_nil, or_false] at ht
    rcases ht with rfl | rfl | rfl <;> decide
  have key : ∀ A : Arith, StreamText.textBytesU A t b = t.textBytes b →
      StreamText.textU A t b = t.text b ∧ StreamText.tryFromU A t b = t.tryFrom b := by
    intro A e
    unfold StreamText.textU StreamText.text StreamText.tryFromU StreamText.tryFrom
      StreamText.validateText
    rw [e]
    refine ⟨rfl, ?_⟩
    congr 2
    funext _
    congr 1
    funext _
    congr 1
    funext _
    congr 1
    funext _
    cases t.textBytes b with
    | panic => rfl
    | err e => rfl
    | ok l => simp only [Res.ok_bind]; cases fromUtf8 l <;> rfl
  obtain ⟨x, hx⟩ := StreamText.hint_wrapping (w := w) (off := t.offset) b
  have hwr := key _ (StreamText.textBytesU_eq (Arith.wrapping_exact w) hw t hoff b hb hx)
  refine ⟨StreamText.dataU_eq (Arith.checked_exact w) b hb,
    StreamText.dataU_eq (Arith.wrapping_exact w) b hb, hwr.1, hwr.2, fun h12 => ?_, fun h12 l hl' => ?_⟩
  · exact key _ (StreamText.textBytesU_eq (Arith.checked_exact w) hw t hoff b hb
      (StreamText.hint_eq (Arith.checked_exact w) b hl h12))
  · have hp := StreamText.textBytesU_panic (Arith.checked_exact w) hw t hoff b hb
      (StreamText.hint_checked_panic b hl h12) l hl'
    refine ⟨hp, fun hok => ?_⟩
    unfold StreamText.tryFrom at hok
    unfold StreamText.tryFromU
    rw [if_neg (by omega)] at hok ⊢
    rw [hp]
    revert hok
    cases (Fld.umpType 0xF).validate32 b with
    | panic => intro h; cases h
    | err e => intro h; cases h
    | ok _ =>
    cases (Fld.streamStatus t.status).validate32 b with
    | panic => intro h; cases h
    | err e => intro h; cases h
    | ok _ =>
    cases Fld.streamFormats.validate32 b with
    | panic => intro h; cases h
    | err e => intro h; cases h
    | ok _ =>
    cases t.checkBlock b with
    | panic => intro h; cases h
    | err e => intro h; cases h
    | ok _ =>
    intro _
    simp only [Res.ok_bind]
    by_cases hnil : l = []
    · rw [if_pos hnil, if_pos hnil]
      have : fromUtf8 [] = .ok "" := by decide +kernel
      simp only [Res.ok_bind]
      rw [this]; rfl
    · rw [if_neg hnil, if_neg hnil]; rfl

/-- A name in eight words: within the bounds of a 16-bit target, too large on one of 6 bits. -/
example : StreamText.textU (.checked 6) .endpointName
      [0xF4034772, 0xC3BCC39F, 0x65206175, 0x73204BC3, 0xFC03B66C, 0x6E000000, 0, 0] = .panic ∧
    StreamText.textU (.checked 16) .endpointName
      [0xF4034772, 0xC3BCC39F, 0x65206175, 0x73204BC3, 0xFC03B66C, 0x6E000000, 0, 0] =
      .ok "Grüße aus Köln" := by
  decide +kernel

end Midi2
