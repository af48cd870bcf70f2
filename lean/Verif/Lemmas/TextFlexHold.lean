import Verif.Lemmas.TextFlex

/-! What a flex data text message holds. -/

namespace Midi2

namespace FlexText

theorem channelOf_bits {w : BitVec 32} {f : BitVec 2} {c : Option (BitVec 4)}
    (h : U32.octet w 1 = f ++ chanBits c) : channelOf w = c := by
  have h5 := U32.crumb_octet w 1 1 (by omega) (by omega)
  have h3 := U32.nibble_octet_lo w 1 (by omega)
  rw [h] at h5 h3
  unfold channelOf
  rw [show (5 : Nat) = 4 * 1 + 1 from rfl, show (3 : Nat) = 2 * 1 + 1 from rfl, h5, h3]
  cases c with
  | none => clear h h5 h3; revert f; decide +kernel
  | some c =>
    have : ∀ (f : BitVec 2) (c : BitVec 4), (if ((f ++ (0#2 ++ c) : BitVec 8).extractLsb' (6 - 2 * 1) 2 == 0)
        then some ((f ++ (0#2 ++ c) : BitVec 8).extractLsb' 0 4) else none) = some c := by
      decide +kernel
    exact this f c

/-- The buffer holds the text `l` in `n` packets with a header each; the slots of all
further whole packets are zero. -/
structure Holds (t : FlexText) (b : Buf .ump) (g : BitVec 4) (cs : Nat → Option (BitVec 4))
    (l : List (BitVec 8)) : Prop where
  whole : 4 * textPackets 12 l.length ≤ b.length
  head : ∀ j, j < textPackets 12 l.length → ∀ r, r < 4 → octetAt b (16 * j + r) =
    some (headOctet (textPackets 12 l.length) j g (cs j) t.bank t.status r)
  slot : ∀ i, i < 12 * (b.length / 4) → octetAt b (slotAddr 4 i) = some ((l[i]?).getD 0)

theorem backs_word {t : FlexText} {b : Buf .ump} (B : t.Backs b) :
    ∃ w, b[0]? = some w ∧ U32.nibble w 0 = 0xD#4 ∧ U32.octet w 2 = t.bank ∧ U32.octet w 3 = t.status := by
  have hb : 0 < b.length := by have := B.len; omega
  refine ⟨b[0], List.getElem?_eq_getElem hb, ?_, ?_, ?_⟩
  · have := B.type
    rw [fieldAt_ok hb, ← nibble_field b[0] (i := 0) (by omega)] at this
    exact BitVec.eq_of_toNat_eq (Option.some.inj this)
  · have := B.bank
    rw [fieldAt_ok hb, show (16 : Nat) = 8 * 2 from rfl, ← octet_field b[0] (i := 2) (by omega)] at this
    exact BitVec.eq_of_toNat_eq (Option.some.inj this)
  · have := B.status
    rw [fieldAt_ok hb, show (24 : Nat) = 8 * 3 from rfl, ← octet_field b[0] (i := 3) (by omega)] at this
    exact BitVec.eq_of_toNat_eq (Option.some.inj this)

theorem group_word {b : Buf .ump} {w : BitVec 32} (h : b[0]? = some w) :
    group b = .ok (U32.nibble w 1) := by
  unfold group at'; rw [h]; rfl

theorem channel_word {b : Buf .ump} {w : BitVec 32} (h : b[0]? = some w) :
    channel b = .ok (channelOf w) := by
  unfold channel at'; rw [h]; rfl

theorem backs_of_word {t : FlexText} {b : Buf .ump} (hl : 4 ≤ b.length) {w : BitVec 32}
    (h : b[0]? = some w) (h0 : U32.nibble w 0 = 0xD#4) (h2 : U32.octet w 2 = t.bank)
    (h3 : U32.octet w 3 = t.status) : t.Backs b := by
  refine ⟨hl, ?_, ?_, ?_⟩
  · rw [fieldAt, h, Option.map_some, ← nibble_field w (i := 0) (by omega), h0]; rfl
  · rw [fieldAt, h, Option.map_some, show (16 : Nat) = 8 * 2 from rfl,
      ← octet_field w (i := 2) (by omega), h2]
  · rw [fieldAt, h, Option.map_some, show (24 : Nat) = 8 * 3 from rfl,
      ← octet_field w (i := 3) (by omega), h3]

variable {t : FlexText} {b : Buf .ump} {g : BitVec 4} {cs : Nat → Option (BitVec 4)}
  {l : List (BitVec 8)}

/-- The header word of a packet. -/
theorem Holds.word (H : t.Holds b g cs l) {j : Nat} (hj : j < textPackets 12 l.length) :
    ∃ w, b[4 * j]? = some w ∧ U32.nibble w 0 = 0xD#4 ∧ U32.nibble w 1 = g ∧
      U32.crumb w 4 = growFormat (textPackets 12 l.length) j ∧ channelOf w = cs j ∧
      U32.octet w 2 = t.bank ∧ U32.octet w 3 = t.status := by
  have h4 : 4 * j < b.length := by have := H.whole; omega
  have ho : ∀ r, r < 4 → U32.octet b[4 * j] r =
      headOctet (textPackets 12 l.length) j g (cs j) t.bank t.status r := by
    intro r hr
    have := H.head j hj r hr
    rw [show 16 * j + r = 4 * (4 * j) + r by omega, Sx.octetAt_head _ _ _ hr,
      List.getElem?_eq_getElem h4] at this
    exact Option.some.inj this
  refine ⟨b[4 * j], List.getElem?_eq_getElem h4, ?_, ?_, ?_, ?_, ?_, ?_⟩
  · rw [U32.nibble_octet_hi _ 0 (by omega), ho 0 (by omega)]
    exact Sx.append_hi _ _
  · rw [show (1 : Nat) = 2 * 0 + 1 from rfl, U32.nibble_octet_lo _ 0 (by omega), ho 0 (by omega)]
    exact Sx.append_lo _ _
  · have hc := U32.crumb_octet b[4 * j] 1 0 (by omega) (by omega)
    rw [ho 1 (by omega)] at hc
    refine hc.trans ?_
    show (growFormat _ j ++ chanBits (cs j) : BitVec 8).extractLsb' 6 2 = _
    generalize growFormat _ j = f
    generalize chanBits (cs j) = c
    revert f c; decide +kernel
  · exact channelOf_bits (ho 1 (by omega))
  · exact ho 2 (by omega)
  · exact ho 3 (by omega)

theorem Holds.packets_pos (_ : t.Holds b g cs l) : 0 < textPackets 12 l.length :=
  textPackets_pos (by omega)

theorem Holds.len4 (H : t.Holds b g cs l) : 4 ≤ b.length := by
  have := H.whole
  have := H.packets_pos
  omega

theorem Holds.backs (H : t.Holds b g cs l) : t.Backs b := by
  obtain ⟨w, e1, e2, _, _, _, e5, e6⟩ := H.word H.packets_pos
  exact backs_of_word H.len4 e1 e2 e5 e6

theorem Holds.group_eq (H : t.Holds b g cs l) : group b = .ok g := by
  obtain ⟨w, e1, _, e3, _⟩ := H.word H.packets_pos
  rw [group_word e1, e3]

theorem Holds.channel_eq (H : t.Holds b g cs l) : channel b = .ok (cs 0) := by
  obtain ⟨w, e1, _, _, _, e4, _⟩ := H.word H.packets_pos
  rw [channel_word e1, e4]

/-! ### Reading the text -/

theorem source_holds (b : Buf .ump) (h : 4 ≤ b.length) :
    TextSource.Holds (source b) (12 * (b.length / 4) - 1)
      (fun i => (octetAt b (slotAddr 4 i)).getD 0) := by
  have hc : (source b).cap = 12 := rfl
  refine ⟨by rw [hc]; omega, ?_, ?_⟩
  · intro i hi
    show (if b.length / 4 = 0 then Res.panic else _) = _
    rw [if_neg (by omega)]
    congr 1
    unfold TextSource.pos
    rw [hc]
    rw [Bool.eq_iff_iff, Bool.and_eq_true, beq_iff_eq, beq_iff_eq, decide_eq_true_iff]
    show i / 12 = _ ∧ i % 12 = 11 ↔ _
    omega
  · intro i hi
    unfold TextSource.pos
    rw [hc]
    show (at' b (i / 12 * 4 + 1 + i % 12 / 4) >>= fun w => pure (U32.octet w (i % 12 % 4))) = _
    have ha : slotAddr 4 i = 16 * (i / 12) + 4 + i % 12 := rfl
    have hd : slotAddr 4 i / 4 = i / 12 * 4 + 1 + i % 12 / 4 := by omega
    have hm : slotAddr 4 i % 4 = i % 12 % 4 := by omega
    rw [octetAt_lt (by omega)]
    rw [at'_lt (by omega), Res.ok_bind]
    simp only [hd, hm, Option.getD_some]
    rfl

theorem textBytes_eq (b : Buf .ump) (h : 4 ≤ b.length) :
    textBytes b = .ok (((List.range (12 * (b.length / 4) - 1)).map
      fun i => (octetAt b (slotAddr 4 i)).getD 0).filter (· ≠ 0)) := by
  unfold textBytes textFuel
  exact TextSource.collect_start (source_holds b h) (by omega)

theorem Holds.textBytes_eq (H : t.Holds b g cs l) :
    textBytes b = .ok ((l.take (12 * (b.length / 4) - 1)).filter (· ≠ 0)) := by
  rw [FlexText.textBytes_eq b H.len4, ← filter_slots]
  congr 2
  apply List.map_congr_left
  intro i hi
  rw [H.slot i (by rw [List.mem_range] at hi; omega)]
  rfl

/-! ### The packets -/

theorem stop_test (w : BitVec 32) (n j : Nat) (hj : j < n) (h : U32.crumb w 4 = growFormat n j) :
    (U32.crumb w 4 == 0#2 || U32.crumb w 4 == 3#2) = decide (j + 1 = n) := by
  rw [h]
  unfold growFormat
  by_cases h0 : j = 0
  · subst h0
    by_cases h1 : n = 1
    · subst h1; rfl
    · rw [if_pos (by rfl), if_neg (by simpa using h1)]
      rw [decide_eq_false (by omega)]; rfl
  · rw [if_neg (by simpa using h0)]
    by_cases h1 : j = n - 1
    · rw [if_pos (by simpa using h1), decide_eq_true (by omega)]; rfl
    · rw [if_neg (by simpa using h1), decide_eq_false (by omega)]; rfl

theorem Holds.size_eq (H : t.Holds b g cs l) : size b = .ok (4 * textPackets 12 l.length) := by
  have hp := H.packets_pos
  unfold size
  rw [findIdx_heads (q := fun w => U32.crumb w 4 == 0#2 || U32.crumb w 4 == 3#2) hp H.whole]
  · simp only; congr 1; omega
  · intro j hj
    obtain ⟨w, e1, _, _, e3, _⟩ := H.word (j := j) (by omega)
    exact ⟨w, e1, by rw [stop_test w _ j (by omega) e3, decide_eq_false (by omega)]⟩
  · obtain ⟨w, e1, _, _, e3, _⟩ := H.word (j := textPackets 12 l.length - 1) (by omega)
    exact ⟨w, e1, by rw [stop_test w _ _ (by omega) e3, decide_eq_true (by omega)]⟩

theorem Holds.data_eq (H : t.Holds b g cs l) :
    data b = .ok (b.take (4 * textPackets 12 l.length)) := by
  unfold data
  rw [H.size_eq, Res.ok_bind]
  unfold sliceTo
  rw [if_pos H.whole]

theorem octetAt_take (b : Buf .ump) {m a : Nat} (h : a < 4 * m) :
    octetAt (b.take m) a = octetAt b a := by
  unfold octetAt
  rw [List.getElem?_take_of_lt (by omega)]

theorem Holds.take (H : t.Holds b g cs l) :
    t.Holds (b.take (4 * textPackets 12 l.length)) g cs l := by
  have hlen : (b.take (4 * textPackets 12 l.length)).length = 4 * textPackets 12 l.length := by
    rw [List.length_take]; have := H.whole; omega
  have hw := H.whole
  refine ⟨by rw [hlen]; exact Nat.le_refl _, ?_, ?_⟩
  · intro j hj r hr
    rw [octetAt_take _ (by omega)]
    exact H.head j hj r hr
  · intro i hi
    rw [hlen] at hi
    have := slotAddr_lt (first := 4) (m := textPackets 12 l.length) (i := i) (by omega) (by omega)
    rw [octetAt_take _ (by omega)]
    exact H.slot i (by omega)

/-- The octets of `data()`, header by header. -/
theorem Holds.wire (H : t.Holds b g cs l) :
    octets (b.take (4 * textPackets 12 l.length)) =
      textWire (fun j => flexHeader g.toNat ((cs j).map BitVec.toNat) t.bank.toNat t.status.toNat
        (textPackets 12 l.length) j) 12 (l.map BitVec.toNat) := by
  apply octets_eq_of
  intro a
  rw [show (12 : Nat) = 16 - 4 from rfl, textWire_get (h := 4) (fun j => rfl) (by omega),
    List.length_map]
  have HT := H.take
  have hlen : (b.take (4 * textPackets 12 l.length)).length = 4 * textPackets 12 l.length := by
    rw [List.length_take]; have := H.whole; omega
  show _ = if a / 16 < textPackets 12 l.length then _ else _
  by_cases hj : a / 16 < textPackets 12 l.length
  · rw [if_pos hj]
    by_cases hr : a % 16 < 4
    · rw [if_pos hr]
      have := HT.head (a / 16) hj (a % 16) hr
      rw [show 16 * (a / 16) + a % 16 = a by omega] at this
      rw [this, toNat_headOctet hj _ _ _ _ hr]
      rfl
    · rw [if_neg hr]
      have hx : slotIndex 4 a = 12 * (a / 16) + (a % 16 - 4) := rfl
      have := HT.slot (slotIndex 4 a) (by rw [hlen]; omega)
      rw [slotAddr_index (by omega) (by omega)] at this
      rw [this, List.getElem?_map, Option.map_some]
      cases l[slotIndex 4 a]? <;> rfl
  · rw [if_neg hj, octetAt_none (by rw [hlen]; omega)]
    rfl

/-! ### Setting the text -/

theorem holds_fill (B : t.Backs b) (hg : group b = .ok g) {c : Option (BitVec 4)}
    (hc : channel b = .ok c) (l : List (BitVec 8))
    (hl : 4 * textPackets 12 l.length ≤ b.length) :
    ∃ b', (do
      let b ← growBuffer (clearPayload b) (sizeForStr l.length)
      writeText b l) = .ok b' ∧ b'.length = b.length ∧ t.Holds b' g (fun _ => c) l := by
  obtain ⟨w, e1, e2, e3, e4⟩ := backs_word B
  rw [group_word e1] at hg
  rw [channel_word e1] at hc
  cases hg
  cases hc
  obtain ⟨b', h1, h2, h3⟩ := fill_eq e1 l hl
  refine ⟨b', h1, h2, by omega, ?_, ?_⟩
  · intro j hj r hr
    rw [h3 _ (by omega), if_pos (by omega), if_pos (by omega), e3, e4]
    congr 2 <;> omega
  · intro i hi
    rw [h2] at hi
    have ha : slotAddr 4 i = 16 * (i / 12) + 4 + i % 12 := rfl
    rw [h3 _ (by omega), if_neg (by omega), slotIndex_addr (by omega)]

theorem vecResize_length {w : Nat} (b : List (BitVec w)) (n : Nat) : (vecResize b n).length = n := by
  unfold vecResize
  rw [List.length_append, List.length_take, List.length_replicate]; omega

theorem vecResize_head {w : Nat} {b : List (BitVec w)} {n : Nat} (hn : 0 < n) (hb : b ≠ []) :
    (vecResize b n)[0]? = b[0]? := by
  have : 0 < b.length := List.length_pos_iff.mpr hb
  unfold vecResize
  rw [List.getElem?_append_left (by rw [List.length_take]; omega), List.getElem?_take_of_lt hn]

theorem backs_resize (B : t.Backs b) {n : Nat} (hn : 4 ≤ n) : t.Backs (vecResize b n) := by
  obtain ⟨w, e1, e2, e3, e4⟩ := backs_word B
  refine backs_of_word (by rw [vecResize_length]; exact hn) ?_ e2 e3 e4
  rw [vecResize_head (by omega) (by intro h; subst h; simp at e1), e1]

theorem group_congr {b b' : Buf .ump} (h : b[0]? = b'[0]?) : group b = group b' := by
  unfold group at'; rw [h]

theorem channel_congr {b b' : Buf .ump} (h : b[0]? = b'[0]?) : channel b = channel b' := by
  unfold channel at'; rw [h]

theorem setText_holds (B : t.Backs b) (hg : group b = .ok g) {c : Option (BitVec 4)}
    (hc : channel b = .ok c) (s : String) :
    ∃ b', setText b s = .ok b' ∧ b'.length = 4 * textPackets 12 (strBytes s).length ∧
      t.Holds b' g (fun _ => c) (strBytes s) := by
  have hp := textPackets_pos (cap := 12) (n := (strBytes s).length) (by omega)
  have hne : b ≠ [] := by have := B.len; intro h; subst h; simp at this
  have h0 : (vecResize b (sizeForStr (strBytes s).length))[0]? = b[0]? :=
    vecResize_head (by rw [sizeForStr_eq]; omega) hne
  obtain ⟨b', e1, e2, e3⟩ := holds_fill (t := t) (b := vecResize b (sizeForStr (strBytes s).length))
    (backs_resize B (by rw [sizeForStr_eq]; omega)) (by rw [group_congr h0]; exact hg)
    (by rw [channel_congr h0]; exact hc) (strBytes s) (by rw [vecResize_length, sizeForStr_eq]; omega)
  exact ⟨b', e1, by rw [e2, vecResize_length, sizeForStr_eq], e3⟩

theorem trySetText_holds (B : t.Backs b) (hg : group b = .ok g) {c : Option (BitVec 4)}
    (hc : channel b = .ok c) (s : String) (h : 4 * textPackets 12 (strBytes s).length ≤ b.length) :
    ∃ b', trySetText b s = .ok b' ∧ b'.length = b.length ∧
      t.Holds b' g (fun _ => c) (strBytes s) := by
  obtain ⟨b', e1, e2, e3⟩ := holds_fill B hg hc (strBytes s) h
  refine ⟨b', ?_, e2, e3⟩
  unfold trySetText fixedTryResize
  simp only
  rw [if_neg (by rw [sizeForStr_eq]; omega), Res.ok_bind]
  exact e1

theorem trySetText_overflow (b : Buf .ump) (s : String)
    (h : b.length < 4 * textPackets 12 (strBytes s).length) :
    trySetText b s = .err .bufferOverflow := by
  unfold trySetText fixedTryResize
  simp only
  rw [if_pos (by rw [sizeForStr_eq]; omega)]
  rfl

end FlexText

end Midi2
