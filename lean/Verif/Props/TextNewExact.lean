import Verif.Props.ConstructExact

/-!
# C08 exactly: new text messages in any fixed buffer
-/

namespace Midi2

theorem text_iff_bytes {b : Buf .ump} {l : List (BitVec 8)} (h : FlexText.textBytes b = .ok l)
    (s : String) : FlexText.text b = .ok s ↔ l = strBytes s :=
  ⟨bytes_of_text h, fun e => text_of_bytes (by rw [h, e])⟩

/-- The text octets behind the first packet of a buffer, without the last one. -/
def FlexText.oldOctets (b : List (BitVec 32)) : List Nat :=
  ((FlexText.slots b).drop 12).dropLast

theorem FlexText.slots_length (b : List (BitVec 32)) :
    (FlexText.slots b).length = 12 * (b.length / 4) := by simp [FlexText.slots]

/-- C08 for flex data text messages, exactly: `try_new_with_buffer(b)` gives in every buffer of
at least one packet a message with group 0, no channel, and `data()` that is the valid encoding
of the empty text.  Its text is what the octets behind the first packet were, passing over zeros
and without the last: so it is a new message exactly if these octets are zero. -/
theorem C08_flex_text_try_new_with_buffer_exactly (t : FlexText) (b0 : Buf .ump)
    (h4 : 4 ≤ b0.length) :
    ∃ b, t.tryNewWithBuffer b0 = .ok b ∧ b.length = b0.length ∧ t.Backs b ∧
      FlexText.group b = .ok 0 ∧ FlexText.channel b = .ok none ∧
      (∃ d, FlexText.data b = .ok d ∧ t.IsEncoding d 0 (fun _ => none) "" ∧ t.tryFrom d = .ok d) ∧
      (∀ s : String, FlexText.text b = .ok s ↔
        utf8 s = (FlexText.oldOctets b0).filter (· ≠ 0)) ∧
      ((¬ ∃ s : String, utf8 s = (FlexText.oldOctets b0).filter (· ≠ 0)) →
        FlexText.text b = .panic) ∧
      (t.IsNew b ↔ ∀ x ∈ FlexText.oldOctets b0, x = 0) := by
  have hz : (zeroPrefix b0 4).length = b0.length := by
    unfold zeroPrefix
    rw [List.length_append, List.length_replicate, List.length_drop]; omega
  obtain ⟨b, e1, e2, e3, e4⟩ := FlexText.init_eq t (b := zeroPrefix b0 4) (by omega) rfl
  obtain ⟨b', f1, f2, f3, f4, f5⟩ := FlexText.init_backs t (b := zeroPrefix b0 4) (by omega) rfl
  rw [e1] at f1
  cases f1
  have hnew : t.tryNewWithBuffer b0 = .ok b := by
    unfold FlexText.tryNewWithBuffer fixedTryResize
    rw [if_neg (by omega)]; exact e1
  have hzlo : ∀ i, i < 4 → (zeroPrefix b0 4)[i]? = some 0 := by
    intro i hi
    unfold zeroPrefix
    rw [List.getElem?_append_left (by rw [List.length_replicate]; omega), List.getElem?_replicate,
      if_pos hi]
  have hzhi : ∀ i, 4 ≤ i → (zeroPrefix b0 4)[i]? = b0[i]? := by
    intro i hi
    unfold zeroPrefix
    rw [List.getElem?_append_right (by rw [List.length_replicate]; omega), List.length_replicate,
      List.getElem?_drop]
    congr 1
    omega
  have hkeep : ∀ i, i % 4 ≠ 0 → b[i]? = (zeroPrefix b0 4)[i]? := by
    intro i hi
    rcases e4 i (by omega) with e | ⟨e, _⟩
    · exact e
    · exact absurd e hi
  -- the text octets
  have hslots : FlexText.slots b = List.replicate 12 0 ++ (FlexText.slots b0).drop 12 := by
    apply List.ext_getElem?
    intro i
    rw [FlexText.slots_eq, FlexText.slots_eq, e2, hz]
    by_cases hi : i < 12 * (b0.length / 4)
    · rw [List.getElem?_map, List.getElem?_range hi, Option.map_some]
      have ha : slotAddr 4 i = 16 * (i / 12) + 4 + i % 12 := rfl
      by_cases h12 : i < 12
      · rw [List.getElem?_append_left (by rw [List.length_replicate]; omega),
          List.getElem?_replicate, if_pos h12]
        unfold octetAt
        rw [hkeep _ (by omega), hzlo _ (by omega), Option.map_some]
        have : ∀ r, r < 4 → U32.octet 0 r = 0 := by decide
        rw [this _ (by omega)]
        rfl
      · rw [List.getElem?_append_right (by rw [List.length_replicate]; omega),
          List.length_replicate, List.getElem?_drop, Nat.add_sub_of_le (by omega),
          List.getElem?_map, List.getElem?_range hi, Option.map_some]
        unfold octetAt
        rw [hkeep _ (by omega), hzhi _ (by omega)]
    · rw [List.getElem?_eq_none (by rw [List.length_map, List.length_range]; omega),
        List.getElem?_eq_none (by
          rw [List.length_append, List.length_replicate, List.length_drop, List.length_map,
            List.length_range]
          omega)]
  have hfil : (FlexText.slots b).dropLast.filter (· ≠ 0) =
      (FlexText.oldOctets b0).filter (· ≠ 0) := by
    rw [hslots]
    unfold FlexText.oldOctets
    cases hX : (FlexText.slots b0).drop 12 with
    | nil => rfl
    | cons x X =>
      rw [List.dropLast_append_of_ne_nil (by simp), List.filter_append]
      rfl
  have hbytes : ∃ l, FlexText.textBytes b = .ok l ∧
      l.map BitVec.toNat = (FlexText.oldOctets b0).filter (· ≠ 0) := by
    refine ⟨_, FlexText.textBytes_eq b (by omega), ?_⟩
    rw [filter_toNat, ← FlexText.dropLast_slots, hfil]
  obtain ⟨l, l1, l2⟩ := hbytes
  have htext : ∀ s : String, FlexText.text b = .ok s ↔
      utf8 s = (FlexText.oldOctets b0).filter (· ≠ 0) := by
    intro s
    rw [text_iff_bytes l1, ← l2, utf8_eq]
    exact ⟨fun h => by rw [h], fun h => (map_toNat_inj h).symm⟩
  -- the first packet
  have H : t.Holds (b.take 4) 0 (fun _ => none) [] := by
    have hp : textPackets 12 (List.length ([] : List (BitVec 8))) = 1 := rfl
    have hl : (b.take 4).length = 4 := by rw [List.length_take]; omega
    refine ⟨by rw [hp, hl]; omega, ?_, ?_⟩
    · intro j hj r hr
      rw [hp] at hj ⊢
      have : j = 0 := by omega
      subst this
      rw [FlexText.octetAt_word0 _ _ _ hr, Nat.mul_zero, List.getElem?_take_of_lt (by omega), e3,
        Option.map_some, FlexText.newWord_octet t hr]
    · intro i hi
      rw [hl] at hi
      have ha : slotAddr 4 i = 16 * (i / 12) + 4 + i % 12 := rfl
      unfold octetAt
      rw [List.getElem?_take_of_lt (by omega), hkeep _ (by omega), hzlo _ (by omega),
        Option.map_some]
      have : ∀ r, r < 4 → U32.octet 0 r = 0 := by decide
      rw [this _ (by omega)]
      rfl
  obtain ⟨_, _, _, _, d, d1, d2, d3⟩ := isNew_of_holds H
  have hd : FlexText.data b = .ok d := by
    have e := H.data_eq
    rw [d1] at e
    have e : d = (b.take 4).take 4 := Res.ok.inj e
    rw [List.take_take] at e
    have e : d = b.take 4 := e
    have hs : FlexText.size b = .ok 4 := by
      obtain ⟨w, w1, _, _, w3, _⟩ := H.word (j := 0) (by decide)
      rw [Nat.mul_zero, List.getElem?_take_of_lt (by omega)] at w1
      unfold FlexText.size
      rw [findIdx_heads (n := 1) (q := fun w => U32.crumb w 4 == 0#2 || U32.crumb w 4 == 3#2)
        (by omega) (by omega)]
      · intro j hj; omega
      · exact ⟨w, w1, by rw [FlexText.stop_test w _ _ (by decide) w3]; rfl⟩
    unfold FlexText.data sliceTo
    rw [hs, Res.ok_bind, if_pos (by omega), e]
  refine ⟨b, hnew, by omega, f3, f4, f5, ⟨d, hd, d2, d3⟩, htext, ?_, ?_⟩
  · intro hno
    unfold FlexText.text
    rw [l1, Res.ok_bind]
    rcases fromUtf8_total l with ⟨s, _, h⟩ | ⟨h, _⟩
    · exact absurd ⟨s, by rw [utf8_eq, h, l2]⟩ hno
    · rw [h]; rfl
  · constructor
    · intro hN x hx
      have := (htext "").mp hN.2.2.2.1
      have h0 : utf8 "" = [] := rfl
      rw [h0] at this
      have := List.filter_eq_nil_iff.mp this.symm x hx
      simpa using this
    · intro h0
      refine ⟨f3, f4, f5, (htext "").mpr ?_, d, hd, d2, d3⟩
      symm
      show _ = []
      exact List.filter_eq_nil_iff.mpr fun x hx => by simp [h0 x hx]

namespace StreamText

/-- Header of the first packet of a new message with `n` packets. -/
def newWord (t : StreamText) (n : Nat) : BitVec 32 :=
  U32.setCrumb (setStreamStatus t.status (U32.setNibble 0 0 0xF)) 2 (FlexText.growFormat n 0)

theorem newWord_block {t : StreamText} (K : t.Known) (n : Nat) : U32.octet (t.newWord n) 2 = 0 := by
  unfold newWord
  rw [U32.octet_setCrumb_ne _ _ _ (by omega) (by omega) (by omega), ← K.code_eq,
    U32.octet_setStatus_ne _ _ (by omega) (by omega)]
  decide

theorem newWord_type {t : StreamText} (K : t.Known) (n : Nat) :
    U32.nibble (t.newWord n) 0 = 0xF#4 := by
  unfold newWord
  rw [U32.nibble_setCrumb_ne _ _ _ (by omega) (by omega) (by omega), nibble_setStreamStatus _ K.status]
  decide

theorem newWord_status {t : StreamText} (K : t.Known) (n : Nat) :
    (t.newWord n).extractLsb' 16 10 = t.code := by
  unfold newWord
  rw [U32.status_octets, U32.octet_setCrumb_ne _ _ 1 (by omega) (by omega) (by omega),
    ← K.code_eq, U32.octet1_setStatus]
  have : ∀ (w : BitVec 32) v, (U32.octet (U32.setCrumb (setStreamStatus (t.code.setWidth 16) w) 2 v) 0).extractLsb' 0 2 =
      t.code.extractLsb' 8 2 := by
    intro w v
    rw [U32.octet0_parts, U32.crumb_setCrumb _ _ _ (by omega) (by omega),
      U32.crumb_setCrumb _ _ _ (by omega) (by omega), if_pos rfl, if_neg (by omega),
      U32.crumb3_setStatus]
    generalize U32.nibble _ 0 = n
    generalize t.code.extractLsb' 8 2 = x
    revert n x v; decide +kernel
  rw [this]
  apply BitVec.eq_of_getLsbD_eq
  intro k hk
  rw [BitVec.getLsbD_append, getLsbD_ext, getLsbD_ext]
  by_cases h : k < 8
  · rw [if_pos h]; simp [h]
  · rw [if_neg h]
    have h1 : k - 8 < 2 := by omega
    simp [h1]
    congr 1; omega

/-- The buffer of a new message, whatever follows. -/
theorem init_any {t : StreamText} (K : t.Known) {b : Buf .ump} (h4 : 4 ≤ b.length)
    (h0 : b[0]? = some 0) :
    ∃ b' n, t.init b = .ok b' ∧ b'.length = b.length ∧ 0 < n ∧ 4 * n ≤ b.length ∧
      (∀ j, 0 < j → j < n → fieldAt b (4 * j) 0 4 = some 15) ∧
      (4 * (n + 1) ≤ b.length → fieldAt b (4 * n) 0 4 ≠ some 15) ∧
      b'[0]? = some (t.newWord n) ∧
      (∀ j, j < n → ∃ w, b'[4 * j]? = some w ∧ U32.crumb w 2 = FlexText.growFormat n j) ∧
      (∀ a, 2 + t.offset ≤ a % 16 → octetAt b' a = octetAt b a) ∧
      (∀ i : Nat, i % 4 ≠ 0 → b'[i]? = b[i]?) := by
  have hb : 0 < b.length := by omega
  have ho := K.off
  have e1 : (Fld.umpType 0xF).write32 b () = .ok (b.set 0 (U32.setNibble 0 0 0xF)) := by
    show modifyAt b 0 _ = _
    unfold modifyAt; rw [h0]
  generalize hb1 : b.set 0 (U32.setNibble 0 0 0xF) = b1 at e1
  have hl1 : b1.length = b.length := by rw [← hb1, List.length_set]
  have hb1g : ∀ i, b1[i]? = if i = 0 then some (U32.setNibble 0 0 0xF) else b[i]? := by
    intro i
    rw [← hb1]
    by_cases hi : i = 0
    · rw [if_pos hi, hi, List.getElem?_set_self hb]
    · rw [if_neg hi, List.getElem?_set_ne (by omega)]
  have e2 : (Fld.streamStatus t.status).write32 b1 () =
      .ok (onChunksExact 4 b1 (List.map (modifyHead0 (setStreamStatus t.status)))) := rfl
  generalize hb2 : onChunksExact 4 b1 (List.map (modifyHead0 (setStreamStatus t.status))) = b2 at e2
  have hg2 : ∀ i : Nat, b2[i]? = if i % 4 = 0 ∧ i / 4 < b1.length / 4 then
      (b1[i]?).map (setStreamStatus t.status) else b1[i]? := by
    intro i
    rw [← hb2]
    exact onChunks_heads (k := 4) (by omega) (fun _ => setStreamStatus t.status) _ b1
      (fun i => by rw [List.getElem?_map]) i
  have hl2 : b2.length = b1.length := by
    apply length_of_getElem?
    intro i
    rw [hg2]
    split
    · rw [Option.isSome_map]
    · rfl
  have h15 : ∀ w : BitVec 32, field w 0 4 = 15 ↔ U32.nibble w 0 = 0xF#4 := by
    intro w
    rw [← nibble_field w (i := 0) (by omega)]
    exact ⟨fun h => BitVec.eq_of_toNat_eq h, fun h => by rw [h]; rfl⟩
  -- the type of a later packet is that of before
  have htype : ∀ j, 0 < j → 4 * (j + 1) ≤ b.length →
      ((∃ w, b2[4 * j]? = some w ∧ (U32.nibble w 0 == 0xF#4) = true) ↔
        fieldAt b (4 * j) 0 4 = some 15) := by
    intro j hj hle
    rw [hg2, if_pos ⟨by omega, by omega⟩, hb1g, if_neg (by omega),
      List.getElem?_eq_getElem (by omega), fieldAt_ok (show 4 * j < b.length by omega)]
    simp only [Option.map_some, Option.some.injEq, exists_eq_left', beq_iff_eq,
      nibble_setStreamStatus _ K.status, h15]
  generalize hn : leading 4 (fun w => U32.nibble w 0 == 0xF#4) b2 = n
  have hw2 : b2[0]? = some (setStreamStatus t.status (U32.setNibble 0 0 0xF)) := by
    rw [hg2, if_pos ⟨by omega, by omega⟩, hb1g, if_pos rfl]; rfl
  have hpos : 0 < n := by
    have : 1 ≤ leading 4 (fun w => U32.nibble w 0 == 0xF#4) b2 := by
      apply le_leading (by omega) _ b2 1 (by omega)
      intro j hj
      have : j = 0 := by omega
      subst this
      refine ⟨_, hw2, ?_⟩
      rw [nibble_setStreamStatus _ K.status]; decide
    omega
  have hspec : ∀ j, j < n → 4 * (j + 1) ≤ b2.length ∧
      ∃ w, b2[4 * j]? = some w ∧ (U32.nibble w 0 == 0xF#4) = true := by
    intro j hj
    exact leading_spec (by omega) _ b2 j (by rw [← hn] at hj; exact hj)
  have hnle : 4 * n ≤ b.length := by
    have := (hspec (n - 1) (by omega)).1
    omega
  obtain ⟨b3, e3, hl3, hg3⟩ := setFormatFields_get hpos hn
  have e3' : Fld.streamFormats.write32 b2 () = .ok b3 := e3
  have hw3 : b3[0]? = some (t.newWord n) := by
    rw [hg3, if_pos ⟨by omega, by omega⟩, hw2]
    rfl
  have hc3 : ∀ j, j < n → ∃ w, b3[4 * j]? = some w ∧ U32.crumb w 2 = FlexText.growFormat n j := by
    intro j hj
    obtain ⟨_, w, w1, _⟩ := hspec j hj
    refine ⟨U32.setCrumb w 2 (FlexText.growFormat n j), ?_, ?_⟩
    · rw [hg3, if_pos ⟨by omega, by omega⟩, w1, Option.map_some,
        show 4 * j / 4 = j by omega]
    · rw [U32.crumb_setCrumb _ _ _ (by omega) (by omega), if_pos rfl]
  have ho3 : ∀ a, 2 ≤ a % 16 → octetAt b3 a = octetAt b a := by
    intro a ha
    unfold octetAt
    by_cases h4 : a / 4 % 4 = 0
    · have hr : 2 ≤ a % 4 := by omega
      have k1 : ∀ w : BitVec 32, U32.octet (setStreamStatus t.status w) (a % 4) =
          U32.octet w (a % 4) := by
        intro w
        rw [← K.code_eq, U32.octet_setStatus_ne _ _ (by omega) (by omega)]
      have k2 : ∀ (w : BitVec 32) v, U32.octet (U32.setCrumb w 2 v) (a % 4) =
          U32.octet w (a % 4) := by
        intro w v
        rw [U32.octet_setCrumb_ne _ _ _ (by omega) (by omega) (by omega)]
      have s1 : (b1[a / 4]?).map (U32.octet · (a % 4)) = (b[a / 4]?).map (U32.octet · (a % 4)) := by
        rw [hb1g]
        split
        · next h =>
          rw [h, h0, Option.map_some, Option.map_some]
          congr 1
          have : a % 4 = 2 ∨ a % 4 = 3 := by omega
          rcases this with e | e <;> rw [e] <;> decide
        · rfl
      have s2 : (b2[a / 4]?).map (U32.octet · (a % 4)) = (b1[a / 4]?).map (U32.octet · (a % 4)) := by
        rw [hg2]
        split
        · rw [Option.map_map]
          congr 1
          funext w
          exact k1 w
        · rfl
      rw [← s1, ← s2, hg3]
      split
      · rw [Option.map_map]
        congr 1
        funext w
        exact k2 w _
      · rfl
    · rw [hg3, if_neg (by omega), hg2, if_neg (by omega), hb1g, if_neg (by omega)]
  have fin : ∀ x : Buf .ump, x.length = b.length → x[0]? = some (t.newWord n) →
      (∀ j, j < n → ∃ w, x[4 * j]? = some w ∧ U32.crumb w 2 = FlexText.growFormat n j) →
      (∀ a, 2 + t.offset ≤ a % 16 → octetAt x a = octetAt b a) →
      (∀ i : Nat, i % 4 ≠ 0 → x[i]? = b[i]?) → t.init b = .ok x →
      ∃ b' n, t.init b = .ok b' ∧ b'.length = b.length ∧ 0 < n ∧ 4 * n ≤ b.length ∧
        (∀ j, 0 < j → j < n → fieldAt b (4 * j) 0 4 = some 15) ∧
        (4 * (n + 1) ≤ b.length → fieldAt b (4 * n) 0 4 ≠ some 15) ∧
        b'[0]? = some (t.newWord n) ∧
        (∀ j, j < n → ∃ w, b'[4 * j]? = some w ∧ U32.crumb w 2 = FlexText.growFormat n j) ∧
        (∀ a, 2 + t.offset ≤ a % 16 → octetAt b' a = octetAt b a) ∧
      (∀ i : Nat, i % 4 ≠ 0 → b'[i]? = b[i]?) := by
    intro x x1 x2 x3 x4 x6 x5
    refine ⟨x, n, x5, x1, hpos, hnle, ?_, ?_, x2, x3, x4, x6⟩
    · intro j hj hjn
      exact (htype j hj (by omega)).mp (hspec j hjn).2
    · intro hle hc
      have : n + 1 ≤ leading 4 (fun w => U32.nibble w 0 == 0xF#4) b2 := by
        apply le_leading (by omega) _ b2 (n + 1) (by omega)
        intro j hj
        by_cases hjn : j < n
        · exact (hspec j hjn).2
        · have : j = n := by omega
          subst this
          exact (htype j hpos hle).mpr hc
      omega
  have hk3 : ∀ i : Nat, i % 4 ≠ 0 → b3[i]? = b[i]? := by
    intro i hi
    rw [hg3, if_neg (fun h => hi h.1), hg2, if_neg (fun h => hi h.1), hb1g, if_neg (by omega)]
  by_cases hoff : t.offset = 1
  · refine fin (setBlock b3 0) ?_ ?_ ?_ ?_ (fun i hi => ?_) ?_
    · rw [setBlock_length]; omega
    · rw [setBlock_word, if_pos ⟨by omega, by omega⟩, hw3, Option.map_some]
      congr 1
      apply U32.eq_of_octets
      intro r hr
      rw [U32.octet_setOctet _ _ _ (by omega) hr]
      split
      · next h => rw [h, newWord_block K]
      · rfl
    · intro j hj
      obtain ⟨w, w1, w2⟩ := hc3 j hj
      refine ⟨U32.setOctet w 2 0, ?_, ?_⟩
      · rw [setBlock_word, if_pos ⟨by omega, by omega⟩, w1, Option.map_some]
      · rw [← w2, U32.crumb_eq, U32.setOctet_eq, ext_ins_disjoint, U32.crumb_eq]; omega
    · intro a ha
      rw [setBlock_octet, if_neg (by omega)]
      exact ho3 a (by omega)
    · rw [setBlock_word, if_neg (fun h => hi h.1), hk3 i hi]
    · unfold init
      rw [e1, Res.ok_bind, e2, Res.ok_bind, e3', Res.ok_bind]
      simp only [hoff, if_true]
      rfl
  · refine fin b3 (by omega) hw3 hc3 (fun a ha => ho3 a (by omega)) hk3 ?_
    unfold init
    rw [e1, Res.ok_bind, e2, Res.ok_bind, e3', Res.ok_bind]
    simp only [hoff, if_false]
    rfl

end StreamText

/-- The text octets behind the first packet of a buffer. -/
def StreamText.oldOctets (t : StreamText) (b : List (BitVec 32)) : List Nat :=
  (t.slots b).drop t.capacity

/-- C08 for stream text messages, exactly: `try_new_with_buffer(b)` gives in every buffer of at
least one packet a message of function block 0.  The packets of UMP stream type that followed the
first without gap are part of it: `data()` has `n` packets.  Its text is what the octets behind
the first packet were, passing over zeros.  So it is a new message exactly if no packet of
stream type followed and these octets are zero. -/
theorem C08_stream_text_try_new_with_buffer_exactly (t : StreamText) (ht : t ∈ StreamText.all)
    (b0 : Buf .ump) (h4 : 4 ≤ b0.length) :
    ∃ b n, t.tryNewWithBuffer b0 = .ok b ∧ b.length = b0.length ∧ t.Backs b ∧
      (t.offset = 1 → StreamText.block b = .ok 0) ∧
      0 < n ∧ 4 * n ≤ b0.length ∧ StreamText.data b = .ok (b.take (4 * n)) ∧
      (∀ j, 0 < j → j < n → fieldAt b0 (4 * j) 0 4 = some 15) ∧
      (4 * (n + 1) ≤ b0.length → fieldAt b0 (4 * n) 0 4 ≠ some 15) ∧
      (∀ s : String, t.text b = .ok s ↔ utf8 s = (t.oldOctets b0).filter (· ≠ 0)) ∧
      ((¬ ∃ s : String, utf8 s = (t.oldOctets b0).filter (· ≠ 0)) → t.text b = .panic) ∧
      (t.IsNew b ↔ n = 1 ∧ ∀ x ∈ t.oldOctets b0, x = 0) := by
  have K := StreamText.known_of_mem ht
  have ho := K.off
  have hz : (zeroPrefix b0 4).length = b0.length := by
    unfold zeroPrefix
    rw [List.length_append, List.length_replicate, List.length_drop]; omega
  have hzlo : ∀ i, i < 4 → (zeroPrefix b0 4)[i]? = some 0 := by
    intro i hi
    unfold zeroPrefix
    rw [List.getElem?_append_left (by rw [List.length_replicate]; omega), List.getElem?_replicate,
      if_pos hi]
  have hzhi : ∀ i, 4 ≤ i → (zeroPrefix b0 4)[i]? = b0[i]? := by
    intro i hi
    unfold zeroPrefix
    rw [List.getElem?_append_right (by rw [List.length_replicate]; omega), List.length_replicate,
      List.getElem?_drop]
    congr 1
    omega
  have hzf : ∀ j, 0 < j → fieldAt (zeroPrefix b0 4) (4 * j) 0 4 = fieldAt b0 (4 * j) 0 4 := by
    intro j hj
    unfold fieldAt
    rw [hzhi _ (by omega)]
  obtain ⟨b, n, e1, e2, e3, e4, e5, e6, e7, e8, e9, e10⟩ :=
    StreamText.init_any K (b := zeroPrefix b0 4) (by omega) (hzlo 0 (by omega))
  rw [hz] at e2 e4 e6
  have hnew : t.tryNewWithBuffer b0 = .ok b := by
    unfold StreamText.tryNewWithBuffer fixedTryResize
    rw [if_neg (by omega)]; exact e1
  have hB : t.Backs b := StreamText.backs_of_word K (by omega) e7 (StreamText.newWord_type K n)
    (StreamText.newWord_status K n)
  have hblock : StreamText.block b = .ok 0 := by
    unfold StreamText.block at'
    rw [e7]
    exact congrArg Res.ok (StreamText.newWord_block K n)
  have hsize : StreamText.size b = .ok (4 * n) := by
    unfold StreamText.size
    rw [findIdx_heads (n := n) (q := fun w => U32.crumb w 2 == 0#2 || U32.crumb w 2 == 3#2) e3
      (by omega)]
    · simp only; congr 1; omega
    · intro j hj
      obtain ⟨w, w1, w2⟩ := e8 j (by omega)
      exact ⟨w, w1, by rw [StreamText.stop_test w _ j (by omega) w2, decide_eq_false (by omega)]⟩
    · obtain ⟨w, w1, w2⟩ := e8 (n - 1) (by omega)
      exact ⟨w, w1, by rw [StreamText.stop_test w _ _ (by omega) w2, decide_eq_true (by omega)]⟩
  have hdata : StreamText.data b = .ok (b.take (4 * n)) := by
    unfold StreamText.data sliceTo
    rw [hsize, Res.ok_bind, if_pos (by omega)]
  -- the text octets
  have hcap : t.capacity = 14 - t.offset := K.capacity_eq
  have hslots : t.slots b = List.replicate t.capacity 0 ++ t.oldOctets b0 := by
    have hpos : 0 < 14 - t.offset := by omega
    unfold StreamText.oldOctets
    rw [hcap]
    apply List.ext_getElem?
    intro i
    rw [StreamText.slots_eq K, StreamText.slots_eq K, e2, List.map_map, List.map_map]
    have hbig : b0.length / 4 ≠ 0 := by omega
    obtain ⟨N, hN⟩ : ∃ N, b0.length / 4 = N + 1 := ⟨b0.length / 4 - 1, by omega⟩
    have hmul : (14 - t.offset) * (b0.length / 4) = (14 - t.offset) + (14 - t.offset) * N := by
      rw [hN, Nat.mul_succ, Nat.add_comm]
    by_cases hi : i < (14 - t.offset) * (b0.length / 4)
    · rw [List.getElem?_map, List.getElem?_range hi, Option.map_some]
      have ha : slotAddr (2 + t.offset) i =
        16 * (i / (16 - (2 + t.offset))) + (2 + t.offset) + i % (16 - (2 + t.offset)) := rfl
      have hm : i % (16 - (2 + t.offset)) < 16 - (2 + t.offset) := Nat.mod_lt _ (by omega)
      have ha16 : 2 + t.offset ≤ slotAddr (2 + t.offset) i % 16 := by omega
      by_cases h12 : i < 14 - t.offset
      · rw [List.getElem?_append_left (by rw [List.length_replicate]; omega),
          List.getElem?_replicate, if_pos h12]
        have hd : i / (16 - (2 + t.offset)) = 0 := Nat.div_eq_of_lt (by omega)
        simp only [Function.comp]
        rw [e9 _ ha16]
        unfold octetAt
        rw [hzlo _ (by omega), Option.map_some]
        have : ∀ r, r < 4 → U32.octet 0 r = 0 := by decide
        rw [this _ (by omega)]
        rfl
      · rw [List.getElem?_append_right (by rw [List.length_replicate]; omega),
          List.length_replicate, List.getElem?_drop, Nat.add_sub_of_le (by omega),
          List.getElem?_map, List.getElem?_range hi, Option.map_some]
        have hd : 1 ≤ i / (16 - (2 + t.offset)) := (Nat.le_div_iff_mul_le (by omega)).mpr (by omega)
        simp only [Function.comp]
        rw [e9 _ ha16]
        unfold octetAt
        rw [hzhi _ (by omega)]
    · rw [List.getElem?_eq_none (by rw [List.length_map, List.length_range]; omega),
        List.getElem?_eq_none (by
          rw [List.length_append, List.length_replicate, List.length_drop, List.length_map,
            List.length_range]
          omega)]
  have hfil : (t.slots b).filter (· ≠ 0) = (t.oldOctets b0).filter (· ≠ 0) := by
    rw [hslots, List.filter_append, List.filter_replicate]
    rfl
  have hbytes : ∃ l, t.textBytes b = .ok l ∧
      l.map BitVec.toNat = (t.oldOctets b0).filter (· ≠ 0) := by
    refine ⟨_, StreamText.textBytes_eq K b, ?_⟩
    rw [filter_toNat, ← StreamText.slots_eq K, hfil]
  obtain ⟨l, l1, l2⟩ := hbytes
  have htext : ∀ s : String, t.text b = .ok s ↔ utf8 s = (t.oldOctets b0).filter (· ≠ 0) := by
    intro s
    rw [← l2, utf8_eq]
    unfold StreamText.text
    rw [l1, Res.ok_bind]
    constructor
    · intro h
      cases hf : fromUtf8 l with
      | ok x => rw [hf] at h; cases h; rw [fromUtf8_ok hf]
      | err e => rw [hf] at h; cases h
      | panic => rw [hf] at h; cases h
    · intro h
      rw [← map_toNat_inj h, fromUtf8_strBytes]
      rfl
  refine ⟨b, n, hnew, e2, hB, fun _ => hblock, e3, e4, hdata,
    fun j h1 h2 => by rw [← hzf j h1]; exact e5 j h1 h2,
    fun h => by rw [← hzf n e3]; exact e6 h, htext, ?_, ?_⟩
  · intro hno
    unfold StreamText.text
    rw [l1, Res.ok_bind]
    rcases fromUtf8_total l with ⟨s, _, h⟩ | ⟨h, _⟩
    · exact absurd ⟨s, by rw [utf8_eq, h, l2]⟩ hno
    · rw [h]; rfl
  · constructor
    · rintro ⟨_, h1, _, d, d1, d2, _⟩
      constructor
      · rw [hdata] at d1
        cases d1
        have := congrArg List.length d2
        have hw : ∀ (h : Nat → List Nat) (cap : Nat), (textWire h cap (utf8 "")).length =
            (h 0).length + cap := by
          intro h cap
          have : textPackets cap (utf8 "").length = 1 := rfl
          unfold textWire
          rw [this]
          simp [List.range_succ, show utf8 "" = [] from rfl]
        rw [hw] at this
        simp only [octets, List.length_map, List.length_range, List.length_take,
          List.length_append, streamHeader, List.length_cons, List.length_nil, hcap] at this
        have h01 : t.offset = 0 ∨ t.offset = 1 := by omega
        rcases h01 with h | h <;> simp [h] at this <;> omega
      · intro x hx
        have := (htext "").mp h1
        have h0 : utf8 "" = [] := rfl
        rw [h0] at this
        have := List.filter_eq_nil_iff.mp this.symm x hx
        simpa using this
    · rintro ⟨rfl, h0⟩
      obtain ⟨z, z1, z2, H⟩ := StreamText.init_zeros K (n := 4) (by omega)
      obtain ⟨z', m, f1, f2, f3, f4, _, _, f7, _, _, f10⟩ :=
        StreamText.init_any K (b := List.replicate 4 0) (by decide) rfl
      rw [z1] at f1
      cases f1
      have hm : m = 1 := by rw [List.length_replicate] at f4; omega
      subst hm
      have hbz : b.take (4 * 1) = z := by
        apply List.ext_getElem?
        intro i
        by_cases hi : i < 4
        · rw [List.getElem?_take_of_lt (by omega)]
          by_cases h0 : i = 0
          · rw [h0, e7, f7]
          · rw [e10 i (by omega), f10 i (by omega), hzlo i hi, List.getElem?_replicate, if_pos hi]
        · rw [List.getElem?_eq_none (by rw [List.length_take]; omega),
            List.getElem?_eq_none (by omega)]
      obtain ⟨_, _, _, d, d1, d2, d3⟩ := stream_isNew_of_holds K H
      have hzz : d = z := by
        have e := H.data_eq K
        rw [d1] at e
        have e : d = z.take 4 := Res.ok.inj e
        rw [e, List.take_of_length_le (by omega)]
      refine ⟨hB, (htext "").mpr ?_, fun _ => hblock, d, by rw [hdata, hbz, hzz], d2, d3⟩
      symm
      show _ = []
      exact List.filter_eq_nil_iff.mpr fun x hx => by simp [h0 x hx]

/-! ## Non-vacuity -/

/-- A dirty buffer of two packets: the text of the new message is `"ab"`. -/
example : ∃ b, (⟨"", 1, 4⟩ : FlexText).tryNewWithBuffer [1, 2, 3, 4, 5, 0x61620000, 0, 0] = .ok b ∧
    FlexText.text b = .ok "ab" ∧ ¬ (⟨"", 1, 4⟩ : FlexText).IsNew b := by
  obtain ⟨b, h1, _, _, _, _, _, h2, _, h3⟩ := C08_flex_text_try_new_with_buffer_exactly ⟨"", 1, 4⟩
    [1, 2, 3, 4, 5, 0x61620000, 0, 0] (by decide)
  exact ⟨b, h1, (h2 "ab").mpr (by decide +kernel),
    fun h => absurd (h3.mp h 0x61 (by decide +kernel)) (by decide)⟩
/-- Old header words do not matter. -/
example : ∃ b, (⟨"", 1, 4⟩ : FlexText).tryNewWithBuffer [1, 2, 3, 4, 0xD1234567, 0, 0, 0] = .ok b ∧
    (⟨"", 1, 4⟩ : FlexText).IsNew b := by
  obtain ⟨b, h1, _, _, _, _, _, _, _, h3⟩ := C08_flex_text_try_new_with_buffer_exactly ⟨"", 1, 4⟩
    [1, 2, 3, 4, 0xD1234567, 0, 0, 0] (by decide)
  exact ⟨b, h1, h3.mpr (by decide +kernel)⟩
example : ∃ b, StreamText.endpointName.tryNewWithBuffer
    [1, 2, 3, 4, 0x40000000, 0, 0, 0] = .ok b ∧ StreamText.endpointName.IsNew b := by
  obtain ⟨b, n, h1, _, _, _, h2, h3, _, h4, _, _, _, h5⟩ :=
    C08_stream_text_try_new_with_buffer_exactly .endpointName (by decide)
    [1, 2, 3, 4, 0x40000000, 0, 0, 0] (by decide)
  refine ⟨b, h1, h5.mpr ⟨?_, by decide +kernel⟩⟩
  have h3 : 4 * n ≤ 8 := h3
  have : n = 1 ∨ n = 2 := by omega
  rcases this with h | h
  · exact h
  · exact absurd (h4 1 (by omega) (by omega)) (by decide)

end Midi2
