import Verif.Lemmas.TextFlexApi
import Verif.Spec.TextRun

/-!
# C29, C30 and the text parts of C05–C08, C27, C33, C40: flex data text messages
-/

namespace Midi2

open FlexText

theorem isEncoding_of_holds {t : FlexText} {b : Buf .ump} {g : BitVec 4}
    {cs : Nat → Option (BitVec 4)} {s : String} (H : t.Holds b g cs (strBytes s)) :
    ∃ d, FlexText.data b = .ok d ∧ t.IsEncoding d g cs s := by
  refine ⟨_, H.data_eq, ?_⟩
  unfold FlexText.IsEncoding
  rw [H.wire, utf8_eq, List.length_map]

theorem nul_filter {s : String} (hs : NulFree s) : (strBytes s).filter (· ≠ 0) = strBytes s := by
  rw [List.filter_eq_self]
  intro x hx
  simpa using nulFree_bytes hs x hx

theorem length_mod_zero {s : String} (h : strBytes s = []) : s = "" := by
  have h1 := fromUtf8_strBytes s
  have h2 := fromUtf8_strBytes ""
  rw [h] at h1
  have : strBytes "" = [] := rfl
  rw [this, h1] at h2
  injection h2

/-- Whether the last slot of an exact buffer holds a byte of the text. -/
theorem take_slots {l : List (BitVec 8)} (h : l.length % 12 ≠ 0 ∨ l = []) :
    l.take (12 * textPackets 12 l.length - 1) = l := by
  apply List.take_of_length_le
  rcases h with h | h
  · have := le_textPackets (cap := 12) (n := l.length) (by omega)
    omega
  · subst h; simp

theorem take_slots_full {l : List (BitVec 8)} (h : l.length % 12 = 0) (h0 : l ≠ []) :
    l.take (12 * textPackets 12 l.length - 1) = l.dropLast := by
  have hl : 0 < l.length := List.length_pos_iff.mpr h0
  rw [List.dropLast_eq_take]
  congr 1
  unfold textPackets
  rw [if_neg (by omega)]
  omega

theorem text_of_bytes {b : Buf .ump} {s : String} (h : FlexText.textBytes b = .ok (strBytes s)) :
    FlexText.text b = .ok s := by
  unfold FlexText.text
  rw [h, Res.ok_bind, fromUtf8_strBytes]
  rfl

theorem bytes_of_text {b : Buf .ump} {l : List (BitVec 8)} {s : String}
    (h : FlexText.textBytes b = .ok l) (ht : FlexText.text b = .ok s) : l = strBytes s := by
  unfold FlexText.text at ht
  rw [h, Res.ok_bind] at ht
  cases hf : fromUtf8 l with
  | ok x => rw [hf] at ht; cases ht; exact (fromUtf8_ok hf).symm
  | err e => rw [hf] at ht; cases ht
  | panic => rw [hf] at ht; cases ht

theorem strBytes_length (s : String) : (utf8 s).length = (strBytes s).length := length_utf8 s

/-! ## C29: round trip -/

/-- C29, over a resizable buffer: for every text without NUL, set on any message, the
getters return the text, except when its length in UTF-8 is a positive multiple of 12. -/
theorem C29_text_round_trip_partial (t : FlexText) (b : Buf .ump) (B : t.Backs b) (s : String)
    (hs : NulFree s) (hn : (utf8 s).length % 12 ≠ 0 ∨ s = "") :
    ∃ b' l, FlexText.setText b s = .ok b' ∧ FlexText.text b' = .ok s ∧
      FlexText.textBytes b' = .ok l ∧ l.map BitVec.toNat = utf8 s ∧ t.Backs b' := by
  obtain ⟨w, e1, _⟩ := backs_word B
  obtain ⟨b', f1, f2, H⟩ := setText_holds B (group_word e1) (channel_word e1) s
  have hb : FlexText.textBytes b' = .ok (strBytes s) := by
    rw [H.textBytes_eq, f2, Nat.mul_div_cancel_left _ (by omega),
      take_slots (by rw [strBytes_length] at hn; exact hn.imp id (fun h => by rw [h]; rfl)),
      nul_filter hs]
  exact ⟨b', strBytes s, f1, text_of_bytes hb, hb, (utf8_eq s).symm, H.backs⟩

/-- C29, the excluded lengths: the last byte of the text is never returned, so the getter
does not return the text. -/
theorem C29_multiple_of_12_violation (t : FlexText) (b : Buf .ump) (B : t.Backs b) (s : String)
    (hs : NulFree s) (hn : (utf8 s).length % 12 = 0) (h0 : s ≠ "") :
    ∃ b' l, FlexText.setText b s = .ok b' ∧ FlexText.textBytes b' = .ok l ∧
      l.map BitVec.toNat = (utf8 s).dropLast ∧ FlexText.text b' ≠ .ok s := by
  obtain ⟨w, e1, _⟩ := backs_word B
  obtain ⟨b', f1, f2, H⟩ := setText_holds B (group_word e1) (channel_word e1) s
  have hne : strBytes s ≠ [] := fun h => h0 (length_mod_zero h)
  have hb : FlexText.textBytes b' = .ok (strBytes s).dropLast := by
    rw [H.textBytes_eq, f2, Nat.mul_div_cancel_left _ (by omega),
      take_slots_full (by rw [← strBytes_length]; exact hn) hne]
    congr 1
    rw [List.filter_eq_self]
    intro x hx
    simpa using nulFree_bytes hs x (List.dropLast_subset _ hx)
  refine ⟨b', _, f1, hb, by rw [utf8_eq, List.map_dropLast], ?_⟩
  intro hc
  have := bytes_of_text hb hc
  have hl := congrArg List.length this
  rw [List.length_dropLast] at hl
  have := List.length_pos_iff.mpr hne
  omega

/-- C29, over a buffer of fixed size: the text is set exactly when its packets fit, and is
returned unless its last byte is the last of the buffer. -/
theorem C29_try_text_round_trip_partial (t : FlexText) (b : Buf .ump) (B : t.Backs b) (s : String)
    (hs : NulFree s) (hn : (utf8 s).length % 12 ≠ 0 ∨ s = "" ∨
      4 * textPackets 12 (utf8 s).length + 4 ≤ b.length) :
    (4 * textPackets 12 (utf8 s).length ≤ b.length →
      ∃ b' l, FlexText.trySetText b s = .ok b' ∧ b'.length = b.length ∧
        FlexText.text b' = .ok s ∧ FlexText.textBytes b' = .ok l ∧ l.map BitVec.toNat = utf8 s ∧
        t.Backs b') ∧
    (b.length < 4 * textPackets 12 (utf8 s).length →
      FlexText.trySetText b s = .err .bufferOverflow) := by
  rw [strBytes_length] at hn ⊢
  refine ⟨fun hf => ?_, trySetText_overflow b s⟩
  obtain ⟨w, e1, _⟩ := backs_word B
  obtain ⟨b', f1, f2, H⟩ := trySetText_holds B (group_word e1) (channel_word e1) s hf
  have hb : FlexText.textBytes b' = .ok (strBytes s) := by
    have hle := le_textPackets (cap := 12) (n := (strBytes s).length) (by omega)
    have : (strBytes s).length ≤ 12 * (b'.length / 4) - 1 := by
      rcases hn with h | h | h
      · omega
      · subst h
        have : (strBytes "").length = 0 := rfl
        omega
      · omega
    rw [H.textBytes_eq, List.take_of_length_le this, nul_filter hs]
  exact ⟨b', strBytes s, f1, f2, text_of_bytes hb, hb, (utf8_eq s).symm, H.backs⟩

/-- A message over which the theorems apply: three packets of buffer, copyright text. -/
def sampleFlex : Buf .ump := [0xD2050104, 0x68690000, 0, 0, 7, 0, 0, 0, 0, 0, 0, 0]

example : (⟨"", 1, 4⟩ : FlexText).Backs sampleFlex := ⟨by decide, by decide, by decide, by decide⟩

-- C29: 13 bytes with a two-byte character.
example : ∃ b' l, FlexText.setText sampleFlex "abcdefghijké" = .ok b' ∧
    FlexText.text b' = .ok "abcdefghijké" ∧ FlexText.textBytes b' = .ok l ∧
    l.map BitVec.toNat = utf8 "abcdefghijké" ∧ (⟨"", 1, 4⟩ : FlexText).Backs b' :=
  C29_text_round_trip_partial ⟨"", 1, 4⟩ sampleFlex ⟨by decide, by decide, by decide, by decide⟩ _
    (by unfold NulFree; decide) (by decide)

-- C29 violation: a text of 12 bytes loses its last byte.
example : (FlexText.setText sampleFlex "abcdefghijkl" >>= FlexText.text) = .ok "abcdefghijk" := by
  decide +kernel

example : NulFree "abcdefghijkl" ∧ (utf8 "abcdefghijkl").length % 12 = 0 := by
  unfold NulFree; decide

/-- C29: when the last character of such a text has more than one byte, the getter panics and
the message does not parse. -/
theorem C29_broken_character_violation :
    ∃ b', FlexText.setText sampleFlex "abcdefghijé" = .ok b' ∧ FlexText.text b' = .panic ∧
      FlexText.data b' = .ok b' ∧ (⟨"", 1, 4⟩ : FlexText).tryFrom b' = .err .invalidData :=
  ⟨[0xD2050104, 0x61626364, 0x65666768, 0x696AC3A9], by decide +kernel, by decide +kernel,
    by decide +kernel, by decide +kernel⟩

/-! ## C30: wire format -/

/-- C30, over a resizable buffer: for every text, the words of the message are the encoding
of the text with the group and channel the message had, and these are kept. -/
theorem C30_wire_format (t : FlexText) (b : Buf .ump) (B : t.Backs b) (s : String) :
    ∃ b' d g c, FlexText.setText b s = .ok b' ∧ FlexText.data b' = .ok d ∧
      t.IsEncoding d g (fun _ => c) s ∧ d.length = 4 * textPackets 12 (utf8 s).length ∧
      FlexText.group b = .ok g ∧ FlexText.group b' = .ok g ∧
      FlexText.channel b = .ok c ∧ FlexText.channel b' = .ok c ∧ t.Backs b' := by
  obtain ⟨w, e1, _⟩ := backs_word B
  obtain ⟨b', f1, f2, H⟩ := setText_holds B (group_word e1) (channel_word e1) s
  obtain ⟨d, d1, d2⟩ := isEncoding_of_holds H
  refine ⟨b', d, _, _, f1, d1, d2, ?_, group_word e1, H.group_eq, channel_word e1, H.channel_eq,
    H.backs⟩
  rw [H.data_eq] at d1
  cases d1
  rw [List.length_take, strBytes_length]
  have := H.whole
  omega

example : ∃ b' d, FlexText.setText sampleFlex "abcdefghijklm" = .ok b' ∧ FlexText.data b' = .ok d ∧
    d.length = 8 :=
  have ⟨b', d, _, _, h1, h2, _, h3, _⟩ := C30_wire_format ⟨"", 1, 4⟩ sampleFlex
    ⟨by decide, by decide, by decide, by decide⟩ "abcdefghijklm"
  ⟨b', d, h1, h2, h3⟩

/-- C30, over a buffer of fixed size. -/
theorem C30_try_wire_format (t : FlexText) (b : Buf .ump) (B : t.Backs b) (s : String)
    (hf : 4 * textPackets 12 (utf8 s).length ≤ b.length) :
    ∃ b' d g c, FlexText.trySetText b s = .ok b' ∧ b'.length = b.length ∧
      FlexText.data b' = .ok d ∧ t.IsEncoding d g (fun _ => c) s ∧
      FlexText.group b = .ok g ∧ FlexText.group b' = .ok g ∧
      FlexText.channel b = .ok c ∧ FlexText.channel b' = .ok c ∧ t.Backs b' := by
  rw [strBytes_length] at hf
  obtain ⟨w, e1, _⟩ := backs_word B
  obtain ⟨b', f1, f2, H⟩ := trySetText_holds B (group_word e1) (channel_word e1) s hf
  obtain ⟨d, d1, d2⟩ := isEncoding_of_holds H
  exact ⟨b', d, _, _, f1, f2, d1, d2, group_word e1, H.group_eq, channel_word e1, H.channel_eq,
    H.backs⟩

example : ∃ b', FlexText.trySetText sampleFlex "abc" = .ok b' ∧ b'.length = sampleFlex.length :=
  have ⟨b', _, _, _, h1, h2, _⟩ := C30_try_wire_format ⟨"", 1, 4⟩ sampleFlex
    ⟨by decide, by decide, by decide, by decide⟩ "abc" (by decide)
  ⟨b', h1, h2⟩

/-- C30: the words parse and give back the text, for the texts of C29. -/
theorem C30_data_parses_partial (t : FlexText) (b : Buf .ump) (B : t.Backs b) (s : String)
    (hs : NulFree s) (hn : (utf8 s).length % 12 ≠ 0 ∨ s = "") :
    ∃ b' d, FlexText.setText b s = .ok b' ∧ FlexText.data b' = .ok d ∧ t.tryFrom d = .ok d ∧
      FlexText.text d = .ok s := by
  obtain ⟨w, e1, _⟩ := backs_word B
  obtain ⟨b', f1, f2, H⟩ := setText_holds B (group_word e1) (channel_word e1) s
  have hn' : (strBytes s).length % 12 ≠ 0 ∨ strBytes s = [] := by
    rw [strBytes_length] at hn; exact hn.imp id (fun h => by rw [h]; rfl)
  have hd : FlexText.data b' = .ok b' := by
    rw [H.data_eq, ← f2, List.take_length]
  refine ⟨b', b', f1, hd, ?_, ?_⟩
  · rw [FlexText.tryFrom_iff]
    exact H.accepts f2 ⟨s, by rw [take_slots hn', nul_filter hs]⟩
  · apply text_of_bytes
    rw [H.textBytes_eq, f2, Nat.mul_div_cancel_left _ (by omega), take_slots hn', nul_filter hs]

example : ∃ b' d, FlexText.setText sampleFlex "abcdefghijklm" = .ok b' ∧ FlexText.data b' = .ok d ∧
    (⟨"", 1, 4⟩ : FlexText).tryFrom d = .ok d ∧ FlexText.text d = .ok "abcdefghijklm" :=
  C30_data_parses_partial ⟨"", 1, 4⟩ sampleFlex ⟨by decide, by decide, by decide, by decide⟩ _
    (by unfold NulFree; decide) (by decide)

-- The specification on a text of two packets, octet by octet.
example : (⟨"", 1, 4⟩ : FlexText).IsEncoding
    [0xD2450104, 0x61626364, 0x65666768, 0x696A6B6C, 0xD2C50104, 0x6D000000, 0, 0]
    2 (fun _ => some 5) "abcdefghijklm" := by
  unfold FlexText.IsEncoding; decide

/-! ## Histories -/

theorem history_holds {t : FlexText} (os : List FlexText.Op) : ∀ {b : Buf .ump} (st : FlexText.State),
    b.length = 4 * textPackets 12 (strBytes st.text).length →
    t.Holds b st.group st.channels (strBytes st.text) →
    ∃ b', FlexText.history b os = .ok b' ∧
      b'.length = 4 * textPackets 12 (strBytes (os.foldl FlexText.State.step st).text).length ∧
      t.Holds b' (os.foldl FlexText.State.step st).group (os.foldl FlexText.State.step st).channels
        (strBytes (os.foldl FlexText.State.step st).text) := by
  induction os with
  | nil => intro b st hl H; exact ⟨b, rfl, hl, H⟩
  | cons o os ih =>
    intro b st hl H
    cases o with
    | setText s =>
      obtain ⟨b', f1, f2, H'⟩ := setText_holds H.backs H.group_eq H.channel_eq s
      obtain ⟨b'', g1, g2⟩ := ih (st.step (.setText s)) f2 H'
      refine ⟨b'', ?_, g2⟩
      show (FlexText.setText b s >>= _) = _
      rw [f1]; exact g1
    | setGroup g =>
      obtain ⟨b'', g1, g2⟩ := ih (st.step (.setGroup g)) (by rw [setGroup_length]; exact hl)
        (H.setGroup g)
      exact ⟨b'', g1, g2⟩
    | setChannel c =>
      obtain ⟨b', f1, f2, H'⟩ := H.setChannel c
      obtain ⟨b'', g1, g2⟩ := ih (st.step (.setChannel c)) (by rw [f2]; exact hl) H'
      refine ⟨b'', ?_, g2⟩
      show (FlexText.setChannel b c >>= _) = _
      rw [f1]; exact g1

/-- C27, C29, C30, C40 over histories: after any sequence of `set_text`, `set_group` and
`set_optional_channel` on a new message, the words are the encoding of the last text and
group with the channels described by `State`, and the getters agree. -/
theorem C30_history (t : FlexText) (os : List FlexText.Op) :
    ∃ b d, (t.newVec >>= fun b => FlexText.history b os) = .ok b ∧ FlexText.data b = .ok d ∧
      t.IsEncoding d (os.foldl FlexText.State.step .start).group
        (os.foldl FlexText.State.step .start).channels (os.foldl FlexText.State.step .start).text ∧
      FlexText.group b = .ok (os.foldl FlexText.State.step .start).group ∧
      FlexText.channel b = .ok ((os.foldl FlexText.State.step .start).channels 0) ∧
      (NulFree (os.foldl FlexText.State.step .start).text →
        (utf8 (os.foldl FlexText.State.step .start).text).length % 12 ≠ 0 ∨
          (os.foldl FlexText.State.step .start).text = "" →
        FlexText.text b = .ok (os.foldl FlexText.State.step .start).text) := by
  obtain ⟨b0, n1, n2, H0⟩ := init_zeros t (n := 4) (by omega)
  obtain ⟨b, h1, h2, H⟩ := history_holds (t := t) os .start
    (show b0.length = 4 * textPackets 12 (strBytes "").length by rw [n2]; rfl) H0
  obtain ⟨d, d1, d2⟩ := isEncoding_of_holds H
  refine ⟨b, d, ?_, d1, d2, H.group_eq, H.channel_eq, ?_⟩
  · have : t.newVec = .ok b0 := n1
    rw [this]; exact h1
  · intro hs hn
    apply text_of_bytes
    rw [H.textBytes_eq, h2, Nat.mul_div_cancel_left _ (by omega),
      take_slots (by rw [strBytes_length] at hn; exact hn.imp id (fun h => by rw [h]; rfl)),
      nul_filter hs]

-- A history with a channel set after growth.
example : ((FlexText.newVec ⟨"", 1, 4⟩) >>= fun b => FlexText.history b
    [.setText "abcdefghijklm", .setGroup 3, .setChannel (some 9)]) =
    .ok [0xD3490104, 0x61626364, 0x65666768, 0x696A6B6C, 0xD3D00104, 0x6D000000, 0, 0] := by
  decide +kernel

/-! ## C27: `set_group` -/

theorem field_setNibble1 (w : BitVec 32) (g : BitVec 4) :
    field (U32.setNibble w 1 g) 0 4 = field w 0 4 ∧ field (U32.setNibble w 1 g) 4 4 = g.toNat ∧
    field (U32.setNibble w 1 g) 8 2 = field w 8 2 ∧ field (U32.setNibble w 1 g) 10 2 = field w 10 2 ∧
    field (U32.setNibble w 1 g) 16 8 = field w 16 8 ∧
    field (U32.setNibble w 1 g) 24 8 = field w 24 8 := by
  have n0 := nibble_field (U32.setNibble w 1 g) (i := 0) (by omega)
  have n1 := nibble_field (U32.setNibble w 1 g) (i := 1) (by omega)
  have n2 := crumb_field (U32.setNibble w 1 g) (i := 4) (by omega)
  have n3 := crumb_field (U32.setNibble w 1 g) (i := 5) (by omega)
  have n4 := octet_field (U32.setNibble w 1 g) (i := 2) (by omega)
  have n5 := octet_field (U32.setNibble w 1 g) (i := 3) (by omega)
  have m0 := nibble_field w (i := 0) (by omega)
  have m2 := crumb_field w (i := 4) (by omega)
  have m3 := crumb_field w (i := 5) (by omega)
  have m4 := octet_field w (i := 2) (by omega)
  have m5 := octet_field w (i := 3) (by omega)
  rw [U32.nibble_setNibble _ _ _ (by omega) (by omega)] at n0 n1
  rw [U32.crumb_setNibble_ne _ _ _ (by omega) (by omega) (by omega)] at n2 n3
  rw [U32.octet_setNibble_ne _ _ _ (by omega) (by omega) (by omega)] at n4 n5
  exact ⟨n0.symm.trans m0, n1.symm, n2.symm.trans m2, n3.symm.trans m3, n4.symm.trans m4,
    n5.symm.trans m5⟩

theorem fieldAt_setGroup {b : Buf .ump} (g : BitVec 4) (i p n : Nat)
    (h : ∀ w : BitVec 32, field (U32.setNibble w 1 g) p n = field w p n) :
    fieldAt (FlexText.setGroup b g) i p n = fieldAt b i p n := by
  unfold fieldAt
  rw [FlexText.setGroup_word]
  split
  · rw [Option.map_map]
    cases b[i]? with
    | none => rfl
    | some w => exact congrArg some (h w)
  · rfl

theorem run_setGroup (b : Buf .ump) (g : BitVec 4) :
    (FlexText.run (FlexText.setGroup b g)).map (fun w => field w 8 2) =
      (FlexText.run b).map fun w => field w 8 2 := by
  apply Sx.map_takeWhile_congr
  · unfold packetHeads
    simp only [List.length_map, List.length_range]
    rw [FlexText.setGroup_length]
  · intro j x y hx hy
    rw [Sx.packetHeads_getElem? _ _ (by omega)] at hx hy
    rw [FlexText.setGroup_word, hy] at hx
    obtain ⟨h1, _, h3, _⟩ := field_setNibble1 y g
    split at hx
    · simp only [Option.map_some, Option.some.injEq] at hx
      subst hx
      rw [h1, h3]
      exact ⟨rfl, rfl⟩
    · cases hx; exact ⟨rfl, rfl⟩

theorem length_run_setGroup (b : Buf .ump) (g : BitVec 4) :
    (FlexText.run (FlexText.setGroup b g)).length = (FlexText.run b).length := by
  have := congrArg List.length (run_setGroup b g)
  simpa using this

theorem run_lt_lead {b : Buf .ump} {j : Nat} (h1 : j < (FlexText.run b).length)
    (h2 : 4 * (j + 1) ≤ b.length) : j < FlexText.lead b := by
  have : j + 1 ≤ FlexText.lead b := FlexText.le_lead (by omega) fun i hi => by
    obtain ⟨w, e1, _, e3⟩ := typedRun_get (k := 4) (ty := 0xD) (b := b) (j := i) (by omega)
      (Nat.lt_of_le_of_lt (Nat.le_of_lt_succ hi) h1)
    refine ⟨w, e1, ?_⟩
    have := nibble_field w (i := 0) (by omega)
    rw [Nat.mul_zero, e3] at this
    exact BitVec.eq_of_toNat_eq this
  omega

theorem slots_setGroup (b : Buf .ump) (g : BitVec 4) :
    FlexText.slots (FlexText.setGroup b g) = FlexText.slots b := by
  rw [FlexText.slots_eq, FlexText.slots_eq, FlexText.setGroup_length]
  apply List.map_congr_left
  intro i _
  have ha : slotAddr 4 i = 16 * (i / 12) + 4 + i % 12 := rfl
  rw [FlexText.setGroup_octet _ _ (by omega)]

theorem channelOf_setNibble (w : BitVec 32) (g : BitVec 4) :
    FlexText.channelOf (U32.setNibble w 1 g) = FlexText.channelOf w := by
  unfold FlexText.channelOf
  rw [U32.crumb_setNibble_ne _ _ _ (by omega) (by omega) (by omega),
    U32.nibble_setNibble _ _ _ (by omega) (by omega), if_neg (show ¬ (3 = 1) by omega)]

/-- C27: `set_group(g)` on any accepted message sets the group of every packet, keeps text and
channel, and the message stays valid. -/
theorem C27_flex_text_set_group (t : FlexText) (b : Buf .ump) (A : t.Accepts b) (g : BitVec 4) :
    FlexText.group (FlexText.setGroup b g) = .ok g ∧
    (∀ j, j < (FlexText.run b).length → 4 * (j + 1) ≤ b.length →
      fieldAt (FlexText.setGroup b g) (4 * j) 4 4 = some g.toNat) ∧
    FlexText.text (FlexText.setGroup b g) = FlexText.text b ∧
    FlexText.textBytes (FlexText.setGroup b g) = FlexText.textBytes b ∧
    FlexText.channel (FlexText.setGroup b g) = FlexText.channel b ∧
    t.Accepts (FlexText.setGroup b g) := by
  have hlen := A.len
  have hp := FlexText.run_pos A
  have hgrp : ∀ j, j < (FlexText.run b).length → 4 * (j + 1) ≤ b.length →
      fieldAt (FlexText.setGroup b g) (4 * j) 4 4 = some g.toNat := by
    intro j h1 h2
    unfold fieldAt
    rw [FlexText.setGroup_head g (run_lt_lead h1 h2) (List.getElem?_eq_getElem (by omega)),
      Option.map_some, (field_setNibble1 _ g).2.1]
  have h0 := FlexText.setGroup_head g (run_lt_lead (j := 0) hp (by omega))
    (List.getElem?_eq_getElem (show 4 * 0 < b.length by omega))
  have htb : FlexText.textBytes (FlexText.setGroup b g) = FlexText.textBytes b :=
    FlexText.textBytes_congr A.len (FlexText.setGroup_length b g)
      (fun a ha => FlexText.setGroup_octet b g (by omega))
  refine ⟨?_, hgrp, ?_, htb, ?_, ?_⟩
  · rw [FlexText.group_word h0, U32.nibble_setNibble _ _ _ (by omega) (by omega), if_pos rfl]
  · unfold FlexText.text
    rw [htb]
  · rw [FlexText.channel_word h0, channelOf_setNibble,
      FlexText.channel_word (List.getElem?_eq_getElem (show 4 * 0 < b.length by omega))]
  · refine ⟨by rw [FlexText.setGroup_length]; exact A.len, ?_, ?_, ?_, ?_, ?_⟩
    · rw [run_setGroup]; exact A.formats
    · intro j h1 h2
      rw [length_run_setGroup] at h1
      rw [FlexText.setGroup_length] at h2
      rw [hgrp j h1 h2]
      have := hgrp 0 hp (by omega)
      rw [Nat.mul_zero] at this
      rw [this]
    · intro j h
      rw [FlexText.setGroup_length] at h
      rw [fieldAt_setGroup g _ _ _ (fun w => (field_setNibble1 w g).2.2.2.2.1)]
      exact A.banks j h
    · intro j h
      rw [FlexText.setGroup_length] at h
      rw [fieldAt_setGroup g _ _ _ (fun w => (field_setNibble1 w g).2.2.2.2.2)]
      exact A.statuses j h
    · rw [slots_setGroup]; exact A.text

/-- An accepted message of two packets. -/
def sampleFlexTwo : Buf .ump :=
  [0xD2450104, 0x61626364, 0x65666768, 0x696A6B6C, 0xD2C50104, 0x6D000000, 0, 0]

example : (⟨"", 1, 4⟩ : FlexText).Accepts sampleFlexTwo ∧ (FlexText.run sampleFlexTwo).length = 2 :=
  ⟨(FlexText.tryFrom_iff _ _).mp (by decide +kernel), by decide⟩

/-! ## C40: channel -/

/-- C40: `set_optional_channel(c)` then `optional_channel()` is `c`, on every message; group and
text are kept. -/
theorem C40_flex_text_set_get (t : FlexText) (b : Buf .ump) (B : t.Backs b) (c : Option (BitVec 4)) :
    ∃ b', FlexText.setChannel b c = .ok b' ∧ FlexText.channel b' = .ok c ∧
      FlexText.group b' = FlexText.group b ∧ FlexText.text b' = FlexText.text b ∧ t.Backs b' := by
  obtain ⟨w, e1, e2, e3, e4⟩ := FlexText.backs_word B
  have hb : 0 < b.length := by have := B.len; omega
  have h0 : (b.set 0 (FlexText.putChannel c w))[0]? = some (FlexText.putChannel c w) :=
    List.getElem?_set_self hb
  have hn : ∀ i, i < 2 → U32.nibble (FlexText.putChannel c w) i = U32.nibble w i := by
    intro i hi
    have : i = 0 ∨ i = 1 := by omega
    rcases this with rfl | rfl
    · rw [U32.nibble_octet_hi _ 0 (by omega), U32.nibble_octet_hi w 0 (by omega),
        FlexText.octet_putChannel_ne _ _ (by omega) (by omega)]
    · rw [show (1 : Nat) = 2 * 0 + 1 from rfl, U32.nibble_octet_lo _ 0 (by omega),
        U32.nibble_octet_lo w 0 (by omega), FlexText.octet_putChannel_ne _ _ (by omega) (by omega)]
  refine ⟨_, FlexText.setChannel_ok e1 c, ?_, ?_, ?_, ?_⟩
  · rw [FlexText.channel_word h0, FlexText.channelOf_bits (FlexText.octet1_putChannel c w)]
  · rw [FlexText.group_word h0, FlexText.group_word e1, hn 1 (by omega)]
  · unfold FlexText.text
    rw [FlexText.textBytes_congr B.len (List.length_set ..) (fun a ha => by
      rw [FlexText.set0_octet hb, if_neg (by omega)])]
  · refine FlexText.backs_of_word (by rw [List.length_set]; exact B.len) h0 ?_ ?_ ?_
    · rw [hn 0 (by omega)]; exact e2
    · rw [FlexText.octet_putChannel_ne _ _ (by omega) (by omega)]; exact e3
    · rw [FlexText.octet_putChannel_ne _ _ (by omega) (by omega)]; exact e4

example : ∃ b', FlexText.setChannel sampleFlex (some 9) = .ok b' ∧ FlexText.channel b' = .ok (some 9) :=
  have ⟨b', h1, h2, _⟩ := C40_flex_text_set_get ⟨"", 1, 4⟩ sampleFlex
    ⟨by decide, by decide, by decide, by decide⟩ (some 9)
  ⟨b', h1, h2⟩

/-- C40, several packets: when the channel is set before the text, all packets have it.  Missing:
setting it on a message of several packets, where the code writes the first packet only. -/
theorem C40_channel_then_text_partial (t : FlexText) (b : Buf .ump) (B : t.Backs b)
    (c : Option (BitVec 4)) (s : String) :
    ∃ b' d g, (FlexText.setChannel b c >>= fun b => FlexText.setText b s) = .ok b' ∧
      FlexText.data b' = .ok d ∧ t.IsEncoding d g (fun _ => c) s ∧ FlexText.channel b' = .ok c := by
  obtain ⟨b1, f1, f2, _, _, f5⟩ := C40_flex_text_set_get t b B c
  obtain ⟨b', d, g, c', h1, h2, h3, _, _, _, h6, h7, _⟩ := C30_wire_format t b1 f5 s
  rw [f2] at h6
  cases h6
  exact ⟨b', d, g, by rw [f1]; exact h1, h2, h3, h7⟩

example : ∃ b' d g, (FlexText.setChannel sampleFlex (some 9) >>= fun b =>
      FlexText.setText b "abcdefghijklm") = .ok b' ∧ FlexText.data b' = .ok d ∧
    (⟨"", 1, 4⟩ : FlexText).IsEncoding d g (fun _ => some 9) "abcdefghijklm" ∧
    FlexText.channel b' = .ok (some 9) :=
  C40_channel_then_text_partial ⟨"", 1, 4⟩ sampleFlex ⟨by decide, by decide, by decide, by decide⟩ (some 9)
    "abcdefghijklm"

/-- C40: on a message of several packets, `set_optional_channel` changes the first packet only. -/
theorem C40_flex_text_violation :
    ∃ b', FlexText.setChannel sampleFlexTwo (some 9) = .ok b' ∧ FlexText.data b' = .ok b' ∧
      FlexText.channel b' = .ok (some 9) ∧ fieldAt b' 0 12 4 = some 9 ∧ fieldAt b' 4 12 4 = some 5 :=
  ⟨[0xD2490104, 0x61626364, 0x65666768, 0x696A6B6C, 0xD2C50104, 0x6D000000, 0, 0],
    by decide, by decide, by decide, by decide, by decide⟩

/-! ## C05, C06, C07, C33: parsing -/

/-- C05: parsing returns the slice or `InvalidData`. -/
theorem C05_flex_text_total (t : FlexText) (b : Buf .ump) :
    t.tryFrom b = .ok b ∨ ∃ e, t.tryFrom b = .err e := by
  cases h : t.tryFrom b with
  | ok b' => rw [FlexText.tryFrom_self h]; exact .inl rfl
  | err e => exact .inr ⟨e, rfl⟩
  | panic => exact absurd h (FlexText.tryFrom_ne_panic t b)

example : FlexText.tryFrom ⟨"CopyrightNotice", 1, 4⟩ [0xD0100104, 0, 0, 0] =
      .ok [0xD0100104, 0, 0, 0] ∧
    FlexText.tryFrom ⟨"CopyrightNotice", 1, 4⟩ [0xD0100105, 0, 0, 0] = .err .invalidData := by
  decide +kernel

/-- C07: exactly the slices described by `Accepts` are accepted. -/
theorem C07_flex_text_accepts_exactly (t : FlexText) (b : Buf .ump) :
    t.tryFrom b = .ok b ↔ t.Accepts b := FlexText.tryFrom_iff t b

/-- C06: group, channel and text of an accepted message can be read. -/
theorem C06_flex_text_getters (t : FlexText) (b : Buf .ump) (h : t.tryFrom b = .ok b) :
    (∃ g, FlexText.group b = .ok g) ∧ (∃ c, FlexText.channel b = .ok c) ∧
      ∃ s l, FlexText.text b = .ok s ∧ FlexText.textBytes b = .ok l ∧
        l.map BitVec.toNat = utf8 s ∧ utf8 s = (FlexText.slots b).dropLast.filter (· ≠ 0) := by
  have A := (FlexText.tryFrom_iff t b).mp h
  obtain ⟨w, e1, _⟩ := FlexText.backs_word A.backs
  obtain ⟨s, h1, h2, h3⟩ := A.text_eq
  exact ⟨⟨_, FlexText.group_word e1⟩, ⟨_, FlexText.channel_word e1⟩, s, _, h1, h2,
    (utf8_eq s).symm, h3⟩

example : ∃ s l, FlexText.text sampleFlexTwo = .ok s ∧ FlexText.textBytes sampleFlexTwo = .ok l ∧
    l.map BitVec.toNat = utf8 s :=
  have ⟨_, _, s, l, h1, h2, h3, _⟩ := C06_flex_text_getters ⟨"", 1, 4⟩ sampleFlexTwo (by decide +kernel)
  ⟨s, l, h1, h2, h3⟩

/-- Packets of a buffer whose length is a multiple of four words. -/
theorem packets_of_data {b d : Buf .ump} {n : Nat} (h : FlexText.data b = .ok d)
    (hn : d.length = 4 * n) :
    ∃ ps, FlexText.packets b = .ok ps ∧ ps.length = n ∧ (∀ p ∈ ps, p.length = 4) ∧
      ps.flatten = d := by
  refine ⟨chunksExact 4 d, ?_, ?_, ?_, ?_⟩
  · unfold FlexText.packets
    rw [h]; rfl
  · rw [chunksExact_length (by omega), hn]; omega
  · intro p hp; exact chunksExact_mem_length (by omega) hp
  · rw [chunksExact_flatten (by omega), List.take_of_length_le]
    rw [hn]; omega

/-- `data()` and `packets()` depend on the formats of the packets only. -/
theorem flex_data_of_formats {b : Buf .ump}
    (hf : SeqOk ((FlexText.run b).map fun w => field w 8 2))
    (hw : 4 * (FlexText.run b).length ≤ b.length) :
    ∃ d ps, FlexText.data b = .ok d ∧ d = b.take (4 * (FlexText.run b).length) ∧
      FlexText.packets b = .ok ps ∧ ps.length = (FlexText.run b).length ∧
      (∀ p ∈ ps, p.length = 4) ∧ ps.flatten = d := by
  have hd : FlexText.data b = .ok (b.take (4 * (FlexText.run b).length)) := by
    unfold FlexText.data
    rw [FlexText.size_of_formats hf hw, Res.ok_bind]
    unfold sliceTo
    rw [if_pos hw]
  obtain ⟨ps, h1, h2, h3, h4⟩ := packets_of_data hd
    (show _ = 4 * (FlexText.run b).length by rw [List.length_take]; omega)
  exact ⟨_, ps, hd, rfl, h1, h2, h3, h4⟩

/-- C06, C33: `data()` and `packets()` of an accepted message whose last packet is complete.
Missing: a truncated last packet, for which the code panics. -/
theorem C06_flex_text_data_partial (t : FlexText) (b : Buf .ump) (h : t.tryFrom b = .ok b)
    (hw : 4 * (FlexText.run b).length ≤ b.length) :
    ∃ d ps, FlexText.data b = .ok d ∧ d = b.take (4 * (FlexText.run b).length) ∧
      FlexText.packets b = .ok ps ∧ ps.length = (FlexText.run b).length ∧
      (∀ p ∈ ps, p.length = 4) ∧ ps.flatten = d :=
  flex_data_of_formats ((FlexText.tryFrom_iff t b).mp h).formats hw

example : (⟨"", 1, 4⟩ : FlexText).tryFrom sampleFlexTwo = .ok sampleFlexTwo ∧
    4 * (FlexText.run sampleFlexTwo).length ≤ sampleFlexTwo.length :=
  ⟨by decide +kernel, by decide⟩

/-- C06: a slice whose last packet is truncated is accepted, and `data()` panics. -/
theorem C06_flex_text_truncated_violation :
    (⟨"", 1, 4⟩ : FlexText).tryFrom (sampleFlexTwo.take 5) = .ok (sampleFlexTwo.take 5) ∧
      FlexText.data (sampleFlexTwo.take 5) = .panic ∧
      FlexText.packets (sampleFlexTwo.take 5) = .panic :=
  ⟨by decide +kernel, by decide, by decide⟩

/-- C33: after setting a text, the packets are the consecutive four-word parts of `data()`. -/
theorem C33_flex_text_packets (t : FlexText) (b : Buf .ump) (B : t.Backs b) (s : String) :
    ∃ b' d ps, FlexText.setText b s = .ok b' ∧ FlexText.data b' = .ok d ∧
      FlexText.packets b' = .ok ps ∧ ps.length = textPackets 12 (utf8 s).length ∧
      (∀ p ∈ ps, p.length = 4) ∧ ps.flatten = d := by
  obtain ⟨b', d, g, c, h1, h2, _, h4, _⟩ := C30_wire_format t b B s
  obtain ⟨ps, p1, p2, p3, p4⟩ := packets_of_data h2 h4
  exact ⟨b', d, ps, h1, h2, p1, p2, p3, p4⟩

example : ∃ b' ps, FlexText.setText sampleFlex "abcdefghijklm" = .ok b' ∧
    FlexText.packets b' = .ok ps ∧ ps.length = 2 :=
  have ⟨b', _, ps, h1, _, h2, h3, _⟩ := C33_flex_text_packets ⟨"", 1, 4⟩ sampleFlex
    ⟨by decide, by decide, by decide, by decide⟩ "abcdefghijklm"
  ⟨b', ps, h1, h2, h3⟩

/-! ## C08: new messages -/

/-- What a new message should be: valid, group 0, no channel, no text. -/
def FlexText.IsNew (t : FlexText) (b : Buf .ump) : Prop :=
  t.Backs b ∧ FlexText.group b = .ok 0 ∧ FlexText.channel b = .ok none ∧
  FlexText.text b = .ok "" ∧ ∃ d, FlexText.data b = .ok d ∧ t.IsEncoding d 0 (fun _ => none) "" ∧
    t.tryFrom d = .ok d

theorem isNew_of_holds {t : FlexText} {b : Buf .ump} (H : t.Holds b 0 (fun _ => none) []) :
    t.IsNew b := by
  have H' : t.Holds b 0 (fun _ => none) (strBytes "") := H
  obtain ⟨d, d1, d2⟩ := isEncoding_of_holds H'
  refine ⟨H.backs, H.group_eq, H.channel_eq, ?_, d, d1, d2, ?_⟩
  · apply text_of_bytes
    rw [H.textBytes_eq]; simp [strBytes]
  · rw [H.data_eq] at d1
    cases d1
    rw [FlexText.tryFrom_iff]
    refine H.take.accepts ?_ ⟨"", by simp; rfl⟩
    rw [List.length_take]
    have := H.whole
    omega

/-- C08: `new()` over a resizable buffer. -/
theorem C08_flex_text_new (t : FlexText) : ∃ b, t.newVec = .ok b ∧ t.IsNew b := by
  obtain ⟨b, h1, _, H⟩ := FlexText.init_zeros t (n := 4) (by omega)
  exact ⟨b, h1, isNew_of_holds H⟩

example : FlexText.newVec ⟨"CopyrightNotice", 1, 4⟩ = .ok [0xD0100104, 0, 0, 0] := by decide +kernel

/-- C08: `new_with_buffer(b)`, whatever the buffer. -/
theorem C08_flex_text_new_with_buffer (t : FlexText) (b0 : Buf .ump) :
    ∃ b, t.newWithBuffer b0 = .ok b ∧ t.IsNew b := by
  obtain ⟨b, h1, _, H⟩ := FlexText.init_zeros t (n := 4) (by omega)
  refine ⟨b, ?_, isNew_of_holds H⟩
  rw [← h1]
  unfold FlexText.newWithBuffer zeroPrefix
  congr 1
  rw [List.drop_of_length_le (by rw [FlexText.vecResize_length]; omega), List.append_nil]

/-- C08: `new()` and `try_new()` over an array. -/
theorem C08_flex_text_array (t : FlexText) (n : Nat) :
    (4 ≤ n → ∃ b, t.newArray n = .ok b ∧ t.tryNew n = .ok b ∧ b.length = n ∧ t.IsNew b) ∧
    (n < 4 → t.tryNew n = .err .bufferOverflow) := by
  constructor
  · intro h
    obtain ⟨b, h1, h2, H⟩ := FlexText.init_zeros t h
    refine ⟨b, ?_, ?_, h2, isNew_of_holds H⟩
    · unfold FlexText.newArray; rw [if_neg (by omega)]; exact h1
    · unfold FlexText.tryNew fixedTryResize
      rw [if_neg (by rw [List.length_replicate]; omega)]; exact h1
  · intro h
    unfold FlexText.tryNew fixedTryResize
    rw [if_pos (by rw [List.length_replicate]; omega)]; rfl

example : FlexText.newArray ⟨"CopyrightNotice", 1, 4⟩ 5 = .ok [0xD0100104, 0, 0, 0, 0] ∧
    FlexText.tryNew ⟨"CopyrightNotice", 1, 4⟩ 3 = .err .bufferOverflow := by decide +kernel

/-- C08: `try_new_with_buffer(b)` over a buffer of less than two packets, whatever its content.
Missing: longer buffers, whose words after the first packet are kept and read as text. -/
theorem C08_flex_text_try_new_with_buffer_partial (t : FlexText) (b0 : Buf .ump) :
    (4 ≤ b0.length → b0.length < 8 →
      ∃ b, t.tryNewWithBuffer b0 = .ok b ∧ b.length = b0.length ∧ t.IsNew b) ∧
    (b0.length < 4 → t.tryNewWithBuffer b0 = .err .bufferOverflow) := by
  constructor
  · intro h h8
    have hz : (zeroPrefix b0 4).length = b0.length := by
      unfold zeroPrefix
      rw [List.length_append, List.length_replicate, List.length_drop]; omega
    have hzo : ∀ a, a < 16 → octetAt (zeroPrefix b0 4) a = some 0 := by
      intro a ha
      have hzz := FlexText.zeros_octet (n := 4) (a := a) (by omega)
      unfold octetAt zeroPrefix
      rw [List.getElem?_append_left (by rw [List.length_replicate]; omega)]
      exact hzz
    obtain ⟨b, h1, h2, H⟩ := FlexText.init_holds t (b := zeroPrefix b0 4) (by omega) rfl (by
      intro i hi
      have ha : slotAddr 4 i = 16 * (i / 12) + 4 + i % 12 := rfl
      exact hzo _ (by omega))
    refine ⟨b, ?_, by omega, isNew_of_holds H⟩
    unfold FlexText.tryNewWithBuffer fixedTryResize
    rw [if_neg (by omega)]; exact h1
  · intro h
    unfold FlexText.tryNewWithBuffer fixedTryResize
    rw [if_pos (by omega)]; rfl

example : FlexText.tryNewWithBuffer ⟨"CopyrightNotice", 1, 4⟩ [1, 2, 3, 4, 5] =
    .ok [0xD0100104, 0, 0, 0, 5] := by decide +kernel

/-- C08: over a longer buffer with old content, the new message has a text. -/
theorem C08_flex_text_dirty_buffer_violation :
    ∃ b, (⟨"", 1, 4⟩ : FlexText).tryNewWithBuffer [1, 2, 3, 4, 5, 0x61620000, 0, 0] = .ok b ∧
      FlexText.text b = .ok "ab" :=
  ⟨[0xD0100104, 0, 0, 0, 5, 0x61620000, 0, 0], by decide +kernel, by decide +kernel⟩

end Midi2
