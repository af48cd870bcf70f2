import Verif.Lemmas.TextStream

/-! What a stream text message holds. -/

namespace Midi2

theorem vecResize_octet (b : Buf .ump) {n a : Nat} (ha : a < 4 * n) :
    octetAt (vecResize b n) a = some ((octetAt b a).getD 0) := by
  unfold octetAt vecResize
  by_cases h : a / 4 < b.length
  · rw [List.getElem?_append_left (by rw [List.length_take]; omega),
      List.getElem?_take_of_lt (by omega), List.getElem?_eq_getElem h]
    rfl
  · rw [List.getElem?_append_right (by rw [List.length_take]; omega), List.length_take,
      List.getElem?_replicate, if_pos (by omega), List.getElem?_eq_none (by omega),
      Option.map_some, Option.map_none, Option.getD_none]
    have : a % 4 = 0 ∨ a % 4 = 1 ∨ a % 4 = 2 ∨ a % 4 = 3 := by omega
    rcases this with e | e | e | e <;> rw [e] <;> decide

namespace StreamText

/-- The parameters of the three messages. -/
structure Known (t : StreamText) : Prop where
  off : t.offset < 2
  status : t.status.toNat < 1024

theorem known_of_mem {t : StreamText} (h : t ∈ all) : t.Known := by
  unfold all at h
  simp only [List.mem_cons, List.mem_nil_iff, or_false] at h
  rcases h with rfl | rfl | rfl <;> exact ⟨by decide, by decide⟩

theorem Known.first_eq {t : StreamText} (K : t.Known) : t.first = 2 + t.offset := by
  have := K.off
  unfold first
  split <;> omega

theorem Known.capacity_eq {t : StreamText} (K : t.Known) : t.capacity = 14 - t.offset := by
  unfold capacity
  rw [K.first_eq]; omega

/-- The status as a ten bit number. -/
def code (t : StreamText) : BitVec 10 := t.status.setWidth 10

theorem Known.code_eq {t : StreamText} (K : t.Known) : t.code.setWidth 16 = t.status :=
  status10 K.status

theorem Known.toNat_code {t : StreamText} (K : t.Known) : t.code.toNat = t.status.toNat := by
  unfold code
  rw [BitVec.toNat_setWidth]
  have := K.status
  omega

/-- Number in packet `j`. -/
def blockAt (b : Buf .ump) (j : Nat) : BitVec 8 := (octetAt b (16 * j + 2)).getD 0

/-- The buffer holds the text `l` in `n` packets with a header each; the slots of all
further whole packets are zero. -/
structure Holds (t : StreamText) (b : Buf .ump) (bl : Nat → BitVec 8) (l : List (BitVec 8)) :
    Prop where
  whole : 4 * textPackets (14 - t.offset) l.length ≤ b.length
  head : ∀ j, j < textPackets (14 - t.offset) l.length → ∀ r, r < 2 → octetAt b (16 * j + r) =
    some (headOctet (textPackets (14 - t.offset) l.length) j t.code r)
  block : t.offset = 1 → ∀ j, j < textPackets (14 - t.offset) l.length →
    octetAt b (16 * j + 2) = some (bl j)
  slot : ∀ i, i < (14 - t.offset) * (b.length / 4) →
    octetAt b (slotAddr (2 + t.offset) i) = some ((l[i]?).getD 0)

theorem headOctet_parts {w : BitVec 32} {n j : Nat} {s : BitVec 10}
    (h0 : U32.octet w 0 = headOctet n j s 0) (h1 : U32.octet w 1 = headOctet n j s 1) :
    U32.nibble w 0 = 0xF#4 ∧ U32.crumb w 2 = FlexText.growFormat n j ∧ w.extractLsb' 16 10 = s := by
  refine ⟨?_, ?_, ?_⟩
  · rw [U32.nibble_octet_hi _ 0 (by omega), h0]
    exact Sx.append_hi _ _
  · have hc := U32.crumb_octet w 0 2 (by omega) (by omega)
    rw [h0] at hc
    refine hc.trans ?_
    show (0xF#4 ++ (FlexText.growFormat n j ++ s.extractLsb' 8 2) : BitVec 8).extractLsb' 2 2 = _
    generalize FlexText.growFormat n j = f
    generalize s.extractLsb' 8 2 = x
    revert f x; decide +kernel
  · rw [U32.status_octets, h0, h1]
    show (0xF#4 ++ (FlexText.growFormat n j ++ s.extractLsb' 8 2) : BitVec 8).extractLsb' 0 2 ++
      s.extractLsb' 0 8 = _
    have : ∀ (f x : BitVec 2), (0xF#4 ++ (f ++ x) : BitVec 8).extractLsb' 0 2 = x := by
      decide +kernel
    rw [this]
    apply BitVec.eq_of_getLsbD_eq
    intro k hk
    rw [BitVec.getLsbD_append, getLsbD_ext, getLsbD_ext]
    by_cases h : k < 8
    · rw [if_pos h]; simp [h]
    · rw [if_neg h]
      have h1 : k - 8 < 2 := by omega
      simp [h1]
      congr 1; omega

theorem toNat_headOctet {n j : Nat} (hj : j < n) (s : BitVec 10) {r : Nat} (hr : r < 2) :
    some ((headOctet n j s r).toNat) = (streamHeader s.toNat n j)[r]? := by
  have hs := s.isLt
  have : r = 0 ∨ r = 1 := by omega
  rcases this with rfl | rfl
  · show some ((0xF#4 ++ (FlexText.growFormat n j ++ s.extractLsb' 8 2) : BitVec 8).toNat) =
      some (0xF0 + 4 * statusCode n j + s.toNat / 256)
    rw [← FlexText.growFormat_code hj]
    have key : ∀ (f x : BitVec 2), (0xF#4 ++ (f ++ x) : BitVec 8).toNat = 0xF0 + 4 * f.toNat + x.toNat := by
      decide +kernel
    rw [key, BitVec.extractLsb'_toNat, Nat.shiftRight_eq_div_pow]
    congr 2
    omega
  · show some ((s.extractLsb' 0 8).toNat) = some (s.toNat % 256)
    rw [BitVec.extractLsb'_toNat, Nat.shiftRight_zero]

theorem backs_word {t : StreamText} (K : t.Known) {b : Buf .ump} (B : t.Backs b) :
    ∃ w, b[0]? = some w ∧ U32.nibble w 0 = 0xF#4 ∧ w.extractLsb' 16 10 = t.code := by
  have hb : 0 < b.length := by have := B.len; omega
  refine ⟨b[0], List.getElem?_eq_getElem hb, ?_, ?_⟩
  · have := B.type
    rw [fieldAt_ok hb, ← nibble_field b[0] (i := 0) (by omega)] at this
    exact BitVec.eq_of_toNat_eq (Option.some.inj this)
  · have := B.status
    rw [fieldAt_ok hb, ← streamStatus_field, streamStatusOf_eq, BitVec.toNat_setWidth] at this
    have h := Option.some.inj this
    apply BitVec.eq_of_toNat_eq
    rw [K.toNat_code, ← h]
    have := (b[0].extractLsb' 16 10).isLt
    omega

theorem backs_of_word {t : StreamText} (K : t.Known) {b : Buf .ump} (hl : 4 ≤ b.length)
    {w : BitVec 32} (h : b[0]? = some w) (h0 : U32.nibble w 0 = 0xF#4)
    (h1 : w.extractLsb' 16 10 = t.code) : t.Backs b := by
  refine ⟨hl, ?_, ?_⟩
  · rw [fieldAt, h, Option.map_some, ← nibble_field w (i := 0) (by omega), h0]; rfl
  · rw [fieldAt, h, Option.map_some, ← streamStatus_field, streamStatusOf_eq, h1, K.code_eq]

variable {t : StreamText} {b : Buf .ump} {bl : Nat → BitVec 8} {l : List (BitVec 8)}

theorem Holds.word (H : t.Holds b bl l) {j : Nat} (hj : j < textPackets (14 - t.offset) l.length) :
    ∃ w, b[4 * j]? = some w ∧ U32.nibble w 0 = 0xF#4 ∧
      U32.crumb w 2 = FlexText.growFormat (textPackets (14 - t.offset) l.length) j ∧
      w.extractLsb' 16 10 = t.code ∧ (t.offset = 1 → U32.octet w 2 = bl j) := by
  have h4 : 4 * j < b.length := by have := H.whole; omega
  have ho : ∀ r, r < 2 → U32.octet b[4 * j] r =
      headOctet (textPackets (14 - t.offset) l.length) j t.code r := by
    intro r hr
    have := H.head j hj r hr
    rw [FlexText.octetAt_word0 _ _ _ (by omega), List.getElem?_eq_getElem h4] at this
    exact Option.some.inj this
  obtain ⟨e1, e2, e3⟩ := headOctet_parts (ho 0 (by omega)) (ho 1 (by omega))
  refine ⟨b[4 * j], List.getElem?_eq_getElem h4, e1, e2, e3, ?_⟩
  intro h1
  have := H.block h1 j hj
  rw [FlexText.octetAt_word0 _ _ _ (by omega), List.getElem?_eq_getElem h4] at this
  exact Option.some.inj this

theorem Holds.packets_pos (K : t.Known) (_ : t.Holds b bl l) :
    0 < textPackets (14 - t.offset) l.length :=
  textPackets_pos (by have := K.off; omega)

theorem Holds.len4 (K : t.Known) (H : t.Holds b bl l) : 4 ≤ b.length := by
  have := H.whole
  have := H.packets_pos K
  omega

theorem Holds.backs (K : t.Known) (H : t.Holds b bl l) : t.Backs b := by
  obtain ⟨w, e1, e2, _, e4, _⟩ := H.word (H.packets_pos K)
  exact backs_of_word K (H.len4 K) e1 e2 e4

theorem block_word {w : BitVec 32} (h : b[0]? = some w) : block b = .ok (U32.octet w 2) := by
  unfold block at'; rw [h]; rfl

theorem Holds.block_eq (K : t.Known) (H : t.Holds b bl l) (h1 : t.offset = 1) :
    StreamText.block b = .ok (bl 0) := by
  obtain ⟨w, e1, _, _, _, e5⟩ := H.word (H.packets_pos K)
  rw [block_word e1, e5 h1]

/-! ### Reading the text -/

theorem source_holds {off : Nat} (ho : off < 2) (b : Buf .ump) :
    TextSource.Holds (source off b) ((14 - off) * (b.length / 4))
      (fun i => (octetAt b (slotAddr (2 + off) i)).getD 0) := by
  have hc : (source off b).cap = 14 - off := rfl
  refine ⟨by rw [hc]; omega, ?_, ?_⟩
  · intro i hi
    show Res.ok (decide (b.length / 4 ≤ ((source off b).pos i).packet)) = _
    congr 1
    unfold TextSource.pos
    rw [hc, Bool.eq_iff_iff, decide_eq_true_iff, decide_eq_true_iff]
    show b.length / 4 ≤ i / (14 - off) ↔ _
    rw [Nat.le_div_iff_mul_le (by omega), Nat.mul_comm]
    omega
  · intro i hi
    unfold TextSource.pos
    rw [hc]
    show (at' b (i / (14 - off) * 4 + (i % (14 - off) + 2 + off) / 4) >>=
      fun w => pure (U32.octet w ((i % (14 - off) + 2 + off) % 4))) = _
    have h16 : 16 - (2 + off) = 14 - off := by omega
    have hdv := slotAddr_div (first := 2 + off) (by omega) i
    have hmd := slotAddr_mod (first := 2 + off) (by omega) i
    have hlt := slotAddr_lt (first := 2 + off) (m := b.length / 4) (i := i) (by omega) (by rw [h16]; exact hi)
    rw [h16] at hdv hmd
    have hd : slotAddr (2 + off) i / 4 = i / (14 - off) * 4 + (i % (14 - off) + 2 + off) / 4 := by
      rw [← hdv]; omega
    have hm : slotAddr (2 + off) i % 4 = (i % (14 - off) + 2 + off) % 4 := by omega
    rw [octetAt_lt (by omega)]
    rw [at'_lt (by omega), Res.ok_bind]
    simp only [hd, hm, Option.getD_some]
    rfl

theorem textBytes_eq (K : t.Known) (b : Buf .ump) :
    t.textBytes b = .ok (((List.range ((14 - t.offset) * (b.length / 4))).map
      fun i => (octetAt b (slotAddr (2 + t.offset) i)).getD 0).filter (· ≠ 0)) := by
  unfold textBytes textFuel
  refine TextSource.collect_start (source_holds K.off b) ?_
  have h1 : (14 - t.offset) * (b.length / 4) ≤ 14 * (b.length / 4) :=
    Nat.mul_le_mul_right _ (by omega)
  omega

theorem Holds.textBytes_eq (K : t.Known) (H : t.Holds b bl l) :
    t.textBytes b = .ok (l.filter (· ≠ 0)) := by
  have hle := le_textPackets (cap := 14 - t.offset) (n := l.length) (by have := K.off; omega)
  have hw := H.whole
  have hN : l.length ≤ (14 - t.offset) * (b.length / 4) :=
    Nat.le_trans hle (Nat.mul_le_mul_left _ (by omega))
  rw [StreamText.textBytes_eq K, ← List.take_of_length_le hN, ← filter_slots]
  congr 2
  apply List.map_congr_left
  intro i hi
  rw [H.slot i (by rw [List.mem_range] at hi; omega)]
  rfl

/-! ### The packets -/

theorem stop_test (w : BitVec 32) (n j : Nat) (hj : j < n)
    (h : U32.crumb w 2 = FlexText.growFormat n j) :
    (U32.crumb w 2 == 0#2 || U32.crumb w 2 == 3#2) = decide (j + 1 = n) := by
  rw [h]
  unfold FlexText.growFormat
  by_cases h0 : j = 0
  · subst h0
    by_cases h1 : n = 1
    · subst h1; rfl
    · rw [if_pos (by rfl), if_neg (by simpa using h1)]
      rw [decide_eq_false (by omega)]; rfl
  · rw [if_neg (by simpa using h0)]
    by_cases h1 : j = n - 1
    · rw [if_pos (by simpa using h1), decide_eq_true (by omega)]; rfl
    · rw [if_neg (by simpa using h1), decide_eq_false (by omega)]; rfl

theorem Holds.size_eq (K : t.Known) (H : t.Holds b bl l) :
    size b = .ok (4 * textPackets (14 - t.offset) l.length) := by
  have hp := H.packets_pos K
  unfold size
  rw [findIdx_heads (q := fun w => U32.crumb w 2 == 0#2 || U32.crumb w 2 == 3#2) hp H.whole]
  · simp only; congr 1; omega
  · intro j hj
    obtain ⟨w, e1, _, e3, _⟩ := H.word (j := j) (by omega)
    exact ⟨w, e1, by rw [stop_test w _ j (by omega) e3, decide_eq_false (by omega)]⟩
  · obtain ⟨w, e1, _, e3, _⟩ := H.word (j := textPackets (14 - t.offset) l.length - 1) (by omega)
    exact ⟨w, e1, by rw [stop_test w _ _ (by omega) e3, decide_eq_true (by omega)]⟩

theorem Holds.data_eq (K : t.Known) (H : t.Holds b bl l) :
    data b = .ok (b.take (4 * textPackets (14 - t.offset) l.length)) := by
  unfold data
  rw [H.size_eq K, Res.ok_bind]
  unfold sliceTo
  rw [if_pos H.whole]

theorem Holds.take (K : t.Known) (H : t.Holds b bl l) :
    t.Holds (b.take (4 * textPackets (14 - t.offset) l.length)) bl l := by
  have hlen : (b.take (4 * textPackets (14 - t.offset) l.length)).length =
      4 * textPackets (14 - t.offset) l.length := by
    rw [List.length_take]; have := H.whole; omega
  have hw := H.whole
  have ho := K.off
  refine ⟨by rw [hlen]; exact Nat.le_refl _, ?_, ?_, ?_⟩
  · intro j hj r hr
    rw [FlexText.octetAt_take _ (by omega)]
    exact H.head j hj r hr
  · intro h1 j hj
    rw [FlexText.octetAt_take _ (by omega)]
    exact H.block h1 j hj
  · intro i hi
    rw [hlen, Nat.mul_div_cancel_left _ (by omega)] at hi
    have := slotAddr_lt (first := 2 + t.offset) (m := textPackets (14 - t.offset) l.length) (i := i)
      (by omega) (by rw [show 16 - (2 + t.offset) = 14 - t.offset by omega]; exact hi)
    rw [FlexText.octetAt_take _ (by omega)]
    exact H.slot i (Nat.lt_of_lt_of_le hi (Nat.mul_le_mul_left _ (by omega)))

theorem Holds.wire (K : t.Known) (H : t.Holds b bl l) :
    octets (b.take (4 * textPackets (14 - t.offset) l.length)) =
      textWire (fun j =>
        streamHeader t.status.toNat (textPackets t.capacity l.length) j ++
          if t.offset = 0 then [] else [(bl j).toNat]) t.capacity (l.map BitVec.toNat) := by
  have ho := K.off
  rw [K.capacity_eq]
  apply octets_eq_of
  intro a
  have h16 : 16 - (2 + t.offset) = 14 - t.offset := by omega
  have hget := textWire_get (h := 2 + t.offset) (header := fun j =>
        streamHeader t.status.toNat (textPackets (14 - t.offset) l.length) j ++
          if t.offset = 0 then [] else [(bl j).toNat])
    (fun j => by
      have : t.offset = 0 ∨ t.offset = 1 := by omega
      rcases this with e | e <;> rw [e] <;> rfl) (by omega) (l.map BitVec.toNat) a
  rw [h16] at hget
  rw [hget, List.length_map]
  have HT := H.take K
  have hlen : (b.take (4 * textPackets (14 - t.offset) l.length)).length =
      4 * textPackets (14 - t.offset) l.length := by
    rw [List.length_take]; have := H.whole; omega
  by_cases hj : a / 16 < textPackets (14 - t.offset) l.length
  · rw [if_pos hj]
    by_cases hr : a % 16 < 2 + t.offset
    · rw [if_pos hr]
      by_cases h2 : a % 16 < 2
      · have := HT.head (a / 16) hj (a % 16) h2
        rw [show 16 * (a / 16) + a % 16 = a by omega] at this
        rw [this, Option.map_some, toNat_headOctet hj _ h2, K.toNat_code,
          List.getElem?_append_left (by exact h2)]
      · have h1 : t.offset = 1 := by omega
        have := HT.block h1 (a / 16) hj
        rw [show 16 * (a / 16) + 2 = a by omega] at this
        rw [this, show a % 16 = 2 by omega, h1]
        rfl
    · rw [if_neg hr]
      have hidx : slotIndex (2 + t.offset) a < (14 - t.offset) * textPackets (14 - t.offset) l.length := by
        unfold slotIndex
        rw [h16]
        have h1 : (14 - t.offset) * (a / 16) + (14 - t.offset) ≤
            (14 - t.offset) * textPackets (14 - t.offset) l.length := by
          rw [← Nat.mul_succ]; exact Nat.mul_le_mul_left _ hj
        omega
      have := HT.slot (slotIndex (2 + t.offset) a)
        (by rw [hlen, Nat.mul_div_cancel_left _ (by omega)]; exact hidx)
      rw [slotAddr_index (by omega) (by omega)] at this
      rw [this, List.getElem?_map, Option.map_some]
      cases l[slotIndex (2 + t.offset) a]? <;> rfl
  · rw [if_neg hj, octetAt_none (by rw [hlen]; omega)]
    rfl

/-! ### Setting the text -/

theorem holds_fill (K : t.Known) (B : t.Backs b) (l : List (BitVec 8))
    (hl : 4 * textPackets (14 - t.offset) l.length ≤ b.length) :
    ∃ b', (do
      let b ← clearPayload t.offset b
      let b ← writeHeader b (sizeForStr t.offset l.length)
      let b ← setFormatFields b
      writeText t.offset b l) = .ok b' ∧ b'.length = b.length ∧ t.Holds b' (blockAt b) l := by
  have ho := K.off
  obtain ⟨w, e1, _, e3⟩ := backs_word K B
  obtain ⟨b', h1, h2, h3⟩ := fill_eq ho e1 l hl
  rw [e3] at h3
  refine ⟨b', h1, h2, by omega, ?_, ?_, ?_⟩
  · intro j hj r hr
    rw [h3 _ (by omega), if_pos (by omega), if_pos (by omega)]
    congr 2 <;> omega
  · intro h1 j hj
    rw [h3 _ (by omega), if_neg (by omega), if_pos (by omega), if_pos (by omega)]
    rfl
  · intro i hi
    rw [h2] at hi
    have h16 : 16 - (2 + t.offset) = 14 - t.offset := by omega
    have hdv := slotAddr_div (first := 2 + t.offset) (by omega) i
    have hmd := slotAddr_mod (first := 2 + t.offset) (by omega) i
    have hlt := slotAddr_lt (first := 2 + t.offset) (m := b.length / 4) (i := i) (by omega)
      (by rw [h16]; exact hi)
    rw [h3 _ (by omega), if_neg (by omega), if_neg (by omega), slotIndex_addr (by omega)]

theorem backs_resize (K : t.Known) (B : t.Backs b) {n : Nat} (hn : 4 ≤ n) :
    t.Backs (vecResize b n) := by
  obtain ⟨w, e1, e2, e3⟩ := backs_word K B
  refine backs_of_word K (by rw [FlexText.vecResize_length]; exact hn) ?_ e2 e3
  rw [FlexText.vecResize_head (by omega) (by intro h; subst h; simp at e1), e1]

theorem Holds.congr_block (H : t.Holds b bl l) {bl' : Nat → BitVec 8}
    (h : ∀ j, j < textPackets (14 - t.offset) l.length → bl j = bl' j) : t.Holds b bl' l :=
  ⟨H.whole, H.head, fun h1 j hj => by rw [← h j hj]; exact H.block h1 j hj, H.slot⟩

theorem setText_holds (K : t.Known) (B : t.Backs b) (s : String) :
    ∃ b', t.setText b s = .ok b' ∧
      b'.length = 4 * textPackets (14 - t.offset) (strBytes s).length ∧
      t.Holds b' (blockAt b) (strBytes s) := by
  have ho := K.off
  have hp := textPackets_pos (cap := 14 - t.offset) (n := (strBytes s).length) (by omega)
  obtain ⟨b', e1, e2, e3⟩ := holds_fill K
    (backs_resize K B (n := sizeForStr t.offset (strBytes s).length) (by rw [sizeForStr_eq ho]; omega))
    (strBytes s) (by rw [FlexText.vecResize_length, sizeForStr_eq ho]; omega)
  refine ⟨b', e1, by rw [e2, FlexText.vecResize_length, sizeForStr_eq ho], e3.congr_block ?_⟩
  intro j hj
  unfold blockAt
  rw [vecResize_octet _ (by rw [sizeForStr_eq ho]; omega), Option.getD_some]

theorem trySetText_holds (K : t.Known) (B : t.Backs b) (s : String)
    (h : 4 * textPackets (14 - t.offset) (strBytes s).length ≤ b.length) :
    ∃ b', t.trySetText b s = .ok b' ∧ b'.length = b.length ∧
      t.Holds b' (blockAt b) (strBytes s) := by
  obtain ⟨b', e1, e2, e3⟩ := holds_fill K B (strBytes s) h
  refine ⟨b', ?_, e2, e3⟩
  unfold trySetText fixedTryResize
  simp only
  rw [if_neg (by rw [sizeForStr_eq K.off]; omega), Res.ok_bind]
  exact e1

theorem trySetText_overflow (K : t.Known) (b : Buf .ump) (s : String)
    (h : b.length < 4 * textPackets (14 - t.offset) (strBytes s).length) :
    t.trySetText b s = .err .bufferOverflow := by
  unfold trySetText fixedTryResize
  simp only
  rw [if_pos (by rw [sizeForStr_eq K.off]; omega)]
  rfl

/-! ### `set_function_block` -/

theorem setBlock_word (b : Buf .ump) (n : BitVec 8) (i : Nat) :
    (setBlock b n)[i]? = if i % 4 = 0 ∧ i / 4 < b.length / 4 then
      (b[i]?).map (U32.setOctet · 2 n) else b[i]? :=
  onChunks_heads (k := 4) (by omega) (fun _ w => U32.setOctet w 2 n) _ b
    (fun i => by rw [List.getElem?_map]) i

theorem setBlock_length (b : Buf .ump) (n : BitVec 8) : (setBlock b n).length = b.length := by
  apply length_of_getElem?
  intro i
  rw [setBlock_word]
  split
  · rw [Option.isSome_map]
  · rfl

theorem setBlock_octet (b : Buf .ump) (n : BitVec 8) (a : Nat) :
    octetAt (setBlock b n) a =
      if a % 16 = 2 ∧ a / 16 < b.length / 4 then some n else octetAt b a := by
  unfold octetAt
  rw [setBlock_word]
  by_cases h : a / 4 % 4 = 0 ∧ a / 4 / 4 < b.length / 4
  · rw [if_pos h, List.getElem?_eq_getElem (by omega)]
    simp only [Option.map_some]
    rw [U32.octet_setOctet _ _ _ (by omega) (by omega)]
    by_cases h2 : a % 4 = 2
    · rw [if_pos h2, if_pos (by omega)]
    · rw [if_neg h2, if_neg (by omega)]
  · rw [if_neg h, if_neg (by omega)]

theorem Holds.setBlock (H : t.Holds b bl l) (h1 : t.offset = 1) (n : BitVec 8) :
    t.Holds (StreamText.setBlock b n) (fun _ => n) l := by
  have hw := H.whole
  refine ⟨by rw [setBlock_length]; exact H.whole, ?_, ?_, ?_⟩
  · intro j hj r hr
    rw [setBlock_octet, if_neg (by omega)]
    exact H.head j hj r hr
  · intro _ j hj
    rw [setBlock_octet, if_pos (by omega)]
  · intro i hi
    rw [setBlock_length] at hi
    have hmd := slotAddr_mod (first := 2 + t.offset) (by omega) i
    rw [setBlock_octet, if_neg (by omega)]
    exact H.slot i hi

/-! ### Construction -/

/-- Header of a new message. -/
theorem init_holds (K : t.Known) {b : Buf .ump} (h4 : 4 ≤ b.length) (h0 : b[0]? = some 0)
    (hlead : ∀ w, b[4]? = some w → U32.nibble w 0 ≠ 0xF#4) :
    ∃ b', t.init b = .ok b' ∧ b'.length = b.length ∧
      b'[0]? = some (U32.setCrumb (setStreamStatus t.status (U32.setNibble 0 0 0xF)) 2 0) ∧
      ∀ a, 4 ≤ a → octetAt b' a = 
        if t.offset = 1 ∧ a % 16 = 2 ∧ a / 16 < b.length / 4 then some 0
        else if a % 16 < 2 ∧ a / 16 < b.length / 4 then
          (b[a / 4]?).map fun w => U32.octet (setStreamStatus t.status w) (a % 4)
        else octetAt b a := by
  have hb : 0 < b.length := by omega
  have ho := K.off
  have e1 : (Fld.umpType 0xF).write32 b () = .ok (b.set 0 (U32.setNibble 0 0 0xF)) := by
    show modifyAt b 0 _ = _
    unfold modifyAt; rw [h0]
  generalize hb1 : b.set 0 (U32.setNibble 0 0 0xF) = b1 at e1
  have hl1 : b1.length = b.length := by rw [← hb1, List.length_set]
  have hb1g : ∀ i, b1[i]? = if i = 0 then some (U32.setNibble 0 0 0xF) else b[i]? := by
    intro i
    rw [← hb1]
    by_cases hi : i = 0
    · rw [if_pos hi, hi, List.getElem?_set_self hb]
    · rw [if_neg hi, List.getElem?_set_ne (by omega)]
  have e2 : (Fld.streamStatus t.status).write32 b1 () =
      .ok (onChunksExact 4 b1 (List.map (modifyHead0 (setStreamStatus t.status)))) := rfl
  generalize hb2 : onChunksExact 4 b1 (List.map (modifyHead0 (setStreamStatus t.status))) = b2 at e2
  have hg2 : ∀ i : Nat, b2[i]? = if i % 4 = 0 ∧ i / 4 < b1.length / 4 then
      (b1[i]?).map (setStreamStatus t.status) else b1[i]? := by
    intro i
    rw [← hb2]
    exact onChunks_heads (k := 4) (by omega) (fun _ => setStreamStatus t.status) _ b1
      (fun i => by rw [List.getElem?_map]) i
  have hl2 : b2.length = b1.length := by
    apply length_of_getElem?
    intro i
    rw [hg2]
    split
    · rw [Option.isSome_map]
    · rfl
  have hlead2 : leading 4 (fun w => U32.nibble w 0 == 0xF#4) b2 = 1 := by
    apply Nat.le_antisymm
    · apply Nat.le_of_not_lt
      intro hc
      obtain ⟨f1, x, f2, f3⟩ := leading_spec (by omega) _ b2 1 hc
      rw [hg2, if_pos ⟨by omega, by omega⟩, hb1g, if_neg (by omega)] at f2
      cases hx : b[4]? with
      | none => rw [hx] at f2; cases f2
      | some w =>
        rw [hx, Option.map_some] at f2
        cases f2
        rw [nibble_setStreamStatus _ K.status, beq_iff_eq] at f3
        exact hlead w hx f3
    · apply le_leading (by omega) _ b2 1 (by omega)
      intro j hj
      have : j = 0 := by omega
      subst this
      refine ⟨setStreamStatus t.status (U32.setNibble 0 0 0xF), ?_, ?_⟩
      · rw [hg2, if_pos ⟨by omega, by omega⟩, hb1g, if_pos rfl]; rfl
      · rw [nibble_setStreamStatus _ K.status]; decide
  obtain ⟨b3, e3, hl3, hg3⟩ := setFormatFields_get (by omega) hlead2
  have hw3 : b3[0]? = some (U32.setCrumb (setStreamStatus t.status (U32.setNibble 0 0 0xF)) 2 0) := by
    rw [hg3, if_pos ⟨by omega, by omega⟩, hg2, if_pos ⟨by omega, by omega⟩, hb1g, if_pos rfl]
    rfl
  have ho3 : ∀ a, 4 ≤ a → octetAt b3 a = if a % 16 < 2 ∧ a / 16 < b.length / 4 then
          (b[a / 4]?).map fun w => U32.octet (setStreamStatus t.status w) (a % 4)
        else octetAt b a := by
    intro a ha
    have : octetAt b3 a = (b3[a / 4]?).map (U32.octet · (a % 4)) := rfl
    rw [this, hg3, if_neg (by omega), hg2, hb1g (a / 4), if_neg (show ¬ a / 4 = 0 by omega)]
    by_cases h : a / 4 % 4 = 0 ∧ a / 4 / 4 < b1.length / 4
    · rw [if_pos h, Option.map_map]
      by_cases h2 : a % 16 < 2
      · rw [if_pos ⟨h2, by omega⟩]; rfl
      · rw [if_neg (fun c => h2 c.1)]
        unfold octetAt
        congr 1
        funext w
        show U32.octet (setStreamStatus t.status w) (a % 4) = _
        rw [← K.code_eq, U32.octet_setStatus_ne _ _ (by omega) (by omega)]
    · rw [if_neg h, if_neg (by omega)]; rfl
  have e3' : Fld.streamFormats.write32 b2 () = .ok b3 := e3
  unfold init
  rw [e1, Res.ok_bind, e2, Res.ok_bind, e3', Res.ok_bind]
  simp only
  refine ⟨_, rfl, ?_, ?_, ?_⟩
  · split
    · rw [setBlock_length]; omega
    · omega
  · split
    · next h1 =>
      rw [setBlock_word, if_pos ⟨by omega, by omega⟩, hw3, Option.map_some]
      congr 1
      have key : ∀ w : BitVec 32, U32.octet w 2 = 0 → U32.setOctet w 2 0 = w := by
        intro w hw
        apply U32.eq_of_octets
        intro r hr
        rw [U32.octet_setOctet _ _ _ (by omega) hr]
        split
        · next h => rw [h, hw]
        · rfl
      apply key
      rw [U32.octet_setCrumb_ne _ _ _ (by omega) (by omega) (by omega), ← K.code_eq,
        U32.octet_setStatus_ne _ _ (by omega) (by omega)]
      decide
    · exact hw3
  · intro a ha
    split
    · next h1 =>
      rw [setBlock_octet, hl3, hl2, hl1]
      by_cases h : a % 16 = 2 ∧ a / 16 < b.length / 4
      · rw [if_pos h, if_pos ⟨h1, h⟩]
      · rw [if_neg h, if_neg (fun c => h c.2)]
        exact ho3 a ha
    · next h1 =>
      rw [if_neg (fun c => h1 c.1)]
      exact ho3 a ha

theorem init_backs (K : t.Known) {b : Buf .ump} (h4 : 4 ≤ b.length) (h0 : b[0]? = some 0)
    (hlead : ∀ w, b[4]? = some w → U32.nibble w 0 ≠ 0xF#4) :
    ∃ b', t.init b = .ok b' ∧ b'.length = b.length ∧ t.Backs b' := by
  obtain ⟨b', e1, e2, e3, _⟩ := init_holds K h4 h0 hlead
  refine ⟨b', e1, e2, ?_⟩
  refine backs_of_word K (by omega) e3 ?_ ?_
  · rw [U32.nibble_setCrumb_ne _ _ _ (by omega) (by omega) (by omega), nibble_setStreamStatus _ K.status]
    decide
  · rw [U32.status_octets, U32.octet_setCrumb_ne _ _ 1 (by omega) (by omega) (by omega),
      ← K.code_eq, U32.octet1_setStatus]
    have : ∀ w : BitVec 32, (U32.octet (U32.setCrumb (setStreamStatus (t.code.setWidth 16) w) 2 0) 0).extractLsb' 0 2 =
        t.code.extractLsb' 8 2 := by
      intro w
      rw [U32.octet0_parts, U32.crumb_setCrumb _ _ _ (by omega) (by omega),
        U32.crumb_setCrumb _ _ _ (by omega) (by omega), if_pos rfl, if_neg (by omega),
        U32.crumb3_setStatus]
      generalize U32.nibble _ 0 = n
      generalize t.code.extractLsb' 8 2 = x
      revert n x; decide +kernel
    rw [this]
    apply BitVec.eq_of_getLsbD_eq
    intro k hk
    rw [BitVec.getLsbD_append, getLsbD_ext, getLsbD_ext]
    by_cases h : k < 8
    · rw [if_pos h]; simp [h]
    · rw [if_neg h]
      have h1 : k - 8 < 2 := by omega
      simp [h1]
      congr 1; omega

theorem init_zeros (K : t.Known) {n : Nat} (h4 : 4 ≤ n) :
    ∃ b', t.init (List.replicate n 0) = .ok b' ∧ b'.length = n ∧ t.Holds b' (fun _ => 0) [] := by
  have ho := K.off
  obtain ⟨b', e1, e2, e3, e4⟩ := init_holds K (b := List.replicate n 0)
    (by rw [List.length_replicate]; omega) (by rw [List.getElem?_replicate, if_pos (by omega)])
    (by
      intro w hw
      rw [List.getElem?_replicate] at hw
      split at hw
      · cases hw; decide
      · cases hw)
  rw [List.length_replicate] at e2
  have hp : textPackets (14 - t.offset) (List.length ([] : List (BitVec 8))) = 1 := rfl
  refine ⟨b', e1, e2, by rw [hp]; omega, ?_, ?_, ?_⟩
  · intro j hj r hr
    rw [hp] at hj ⊢
    have : j = 0 := by omega
    subst this
    rw [FlexText.octetAt_word0 _ _ _ (by omega), Nat.mul_zero, e3, Option.map_some]
    congr 1
    have : r = 0 ∨ r = 1 := by omega
    rcases this with rfl | rfl
    · rw [U32.octet0_parts, U32.crumb_setCrumb _ _ _ (by omega) (by omega),
        U32.crumb_setCrumb _ _ _ (by omega) (by omega), if_pos rfl, if_neg (by omega), ← K.code_eq,
        U32.crumb3_setStatus, U32.nibble_setCrumb_ne _ _ _ (by omega) (by omega) (by omega),
        U32.nibble0_setStatus]
      rfl
    · rw [U32.octet_setCrumb_ne _ _ _ (by omega) (by omega) (by omega), ← K.code_eq, U32.octet1_setStatus]
      rfl
  · intro h1 j hj
    rw [hp] at hj
    have : j = 0 := by omega
    subst this
    rw [FlexText.octetAt_word0 _ _ _ (by omega), Nat.mul_zero, e3, Option.map_some,
      U32.octet_setCrumb_ne _ _ _ (by omega) (by omega) (by omega), ← K.code_eq,
      U32.octet_setStatus_ne _ _ (by omega) (by omega)]
    congr 1
  · intro i hi
    rw [e2] at hi
    have h16 : 16 - (2 + t.offset) = 14 - t.offset := by omega
    have hdv := slotAddr_div (first := 2 + t.offset) (by omega) i
    have hmd := slotAddr_mod (first := 2 + t.offset) (by omega) i
    have hlt := slotAddr_lt (first := 2 + t.offset) (m := n / 4) (i := i) (by omega)
      (by rw [h16]; exact hi)
    show _ = some 0
    by_cases ha : slotAddr (2 + t.offset) i < 4
    · have hx := FlexText.octetAt_word0 b' 0 (slotAddr (2 + t.offset) i) ha
      rw [Nat.mul_zero, Nat.zero_add] at hx
      rw [hx, e3, Option.map_some,
        U32.octet_setCrumb_ne _ _ _ (by omega) ha (by omega), ← K.code_eq,
        U32.octet_setStatus_ne _ _ (by omega) ha]
      have : slotAddr (2 + t.offset) i = 2 ∨ slotAddr (2 + t.offset) i = 3 := by omega
      rcases this with e | e <;> rw [e] <;> decide
    · rw [e4 _ (by omega), if_neg (by omega), if_neg (by omega)]
      exact FlexText.zeros_octet (by omega)

/-! ### Parsing -/

theorem slots_eq (K : t.Known) (b : Buf .ump) :
    t.slots b = ((List.range ((14 - t.offset) * (b.length / 4))).map fun i =>
      (octetAt b (slotAddr (2 + t.offset) i)).getD 0).map BitVec.toNat := by
  unfold slots
  rw [List.map_map, K.capacity_eq, K.first_eq]
  apply List.map_congr_left
  intro i _
  rw [Sx.octetVal_eq]
  have : 16 * (i / (14 - t.offset)) + (2 + t.offset) + i % (14 - t.offset) = slotAddr (2 + t.offset) i := by
    unfold slotAddr
    have := K.off
    rw [show 16 - (2 + t.offset) = 14 - t.offset by omega]
  rw [this]
  show ((octetAt b (slotAddr (2 + t.offset) i)).map BitVec.toNat).getD 0 =
    ((octetAt b (slotAddr (2 + t.offset) i)).getD 0).toNat
  cases octetAt b (slotAddr (2 + t.offset) i) <;> rfl

theorem validateText_iff (K : t.Known) (b : Buf .ump) :
    t.validateText b = .ok () ↔ ∃ s : String, utf8 s = (t.slots b).filter (· ≠ 0) := by
  unfold validateText
  rw [textBytes_eq K, Res.ok_bind, slots_eq K, ← filter_toNat, ← fromUtf8_iff]
  generalize fromUtf8 _ = r
  cases r <;> simp

theorem validateText_ne_panic (K : t.Known) (b : Buf .ump) : t.validateText b ≠ .panic := by
  unfold validateText
  rw [textBytes_eq K, Res.ok_bind]
  have := fromUtf8_ne_panic (((List.range ((14 - t.offset) * (b.length / 4))).map
      fun i => (octetAt b (slotAddr (2 + t.offset) i)).getD 0).filter (· ≠ 0))
  generalize fromUtf8 _ = r at *
  cases r <;> simp_all

theorem status_iff (t : StreamText) (b : Buf .ump) :
    (Fld.streamStatus t.status).validate32 b = .ok () ↔
      ∀ j, 4 * (j + 1) ≤ b.length → fieldAt b (4 * j) 6 10 = some t.status.toNat := by
  have := ranging_iff (p := 6) (n := 10) t.status.toNat (fun w => streamStatusOf w == t.status)
    (fun w => by rw [beq_toNat, streamStatus_field]) b
  exact this

theorem validateBlock_iff {b : Buf .ump} (hb : 0 < b.length) :
    validateBlock b = .ok () ↔
      ∀ j, 4 * (j + 1) ≤ b.length → fieldAt b (4 * j) 16 8 = fieldAt b 0 16 8 := by
  unfold validateBlock
  rw [at'_lt hb, Res.ok_bind, fieldAt_ok hb]
  have := ranging_iff (p := 16) (n := 8) (field b[0] 16 8) (fun w => U32.octet w 2 == U32.octet b[0] 2)
    (fun w => by
      rw [beq_toNat, octet_field w (i := 2) (by omega), octet_field b[0] (i := 2) (by omega)]) b
  exact this

theorem run_pos (A : t.Accepts b) : 0 < (run b).length :=
  typedRun_pos (k := 4) (ty := 0xF) (c := 4) A.formats

theorem tryFrom_iff (K : t.Known) (b : Buf .ump) : t.tryFrom b = .ok b ↔ t.Accepts b := by
  unfold tryFrom
  by_cases hl : b.length < 4
  · rw [if_pos hl]
    constructor
    · intro h; cases h
    · intro A
      have := A.len
      omega
  · rw [if_neg hl]
    have hb : 0 < b.length := by omega
    have hbl : t.checkBlock b = .ok () ↔
        (t.offset = 1 → ∀ j, 4 * (j + 1) ≤ b.length → fieldAt b (4 * j) 16 8 = fieldAt b 0 16 8) := by
      unfold checkBlock
      by_cases h1 : t.offset = 1
      · rw [if_pos h1, validateBlock_iff hb]
        exact ⟨fun h _ => h, fun h => h h1⟩
      · rw [if_neg h1]
        exact ⟨fun _ h => absurd h h1, fun _ => rfl⟩
    rw [Sx.seq_ok, Sx.seq_ok, Sx.seq_ok, Sx.seq_ok, Sx.seq_ok,
      FlexText.validate_type_iff hb, status_iff, hbl, validateText_iff K]
    have hf : Fld.streamFormats.validate32 b = .ok () ↔ _ :=
      formats_iff (k := 4) (by omega) 0xF 2 (by omega) b
    rw [hf]
    constructor
    · rintro ⟨_, h2, h3, h4, h5, _⟩
      exact ⟨by omega, h3, h2, h4, h5⟩
    · intro A
      refine ⟨?_, A.statuses, A.formats, A.blocks, A.text, rfl⟩
      obtain ⟨w, e1, _, e3⟩ := typedRun_get (k := 4) (ty := 0xF) (by omega) (run_pos A)
      rw [Nat.mul_zero] at e1
      rw [fieldAt, e1, Option.map_some, e3]

theorem tryFrom_ne_panic (K : t.Known) (b : Buf .ump) : t.tryFrom b ≠ .panic := by
  unfold tryFrom
  by_cases hl : b.length < 4
  · rw [if_pos hl]; simp
  · rw [if_neg hl]
    have hb : 0 < b.length := by omega
    refine seq_ne_panic (at_check_ne_panic hb _) (seq_ne_panic (check_ne_panic _)
      (seq_ne_panic ?_ (seq_ne_panic ?_ (seq_ne_panic (validateText_ne_panic K b) (by simp)))))
    · exact formats_no_panic 4 0xF (fun w => U32.crumb w 2 == 0#2) (fun w => U32.crumb w 2 == 1#2)
        (fun w => U32.crumb w 2 == 2#2) (fun w => U32.crumb w 2 == 3#2) b
    · unfold checkBlock
      split
      · exact at_check_ne_panic hb _
      · simp

theorem tryFrom_self {b' : Buf .ump} (h : t.tryFrom b = .ok b') : b' = b := by
  unfold tryFrom at h
  split at h
  · cases h
  · rw [Sx.seq_ok, Sx.seq_ok, Sx.seq_ok, Sx.seq_ok, Sx.seq_ok] at h
    have := h.2.2.2.2.2
    cases this; rfl

/-- `data()` of a message is accepted when its text is readable and its number is the same in
all packets. -/
theorem Holds.accepts (K : t.Known) (H : t.Holds b bl l)
    (hl : b.length = 4 * textPackets (14 - t.offset) l.length)
    (hbl : t.offset = 1 → ∀ j, j < textPackets (14 - t.offset) l.length → bl j = bl 0)
    (hs : ∃ s, strBytes s = l.filter (· ≠ 0)) : t.Accepts b := by
  have hp := H.packets_pos K
  have hword : ∀ j, j < textPackets (14 - t.offset) l.length → ∃ w, b[4 * j]? = some w ∧
      field w 0 4 = 15 ∧ field w 4 2 = statusCode (textPackets (14 - t.offset) l.length) j ∧
      field w 6 10 = t.status.toNat ∧ (t.offset = 1 → field w 16 8 = (bl j).toNat) := by
    intro j hj
    obtain ⟨w, e1, e2, e3, e4, e5⟩ := H.word hj
    refine ⟨w, e1, ?_, ?_, ?_, ?_⟩
    · have := nibble_field w (i := 0) (by omega)
      rw [e2] at this; exact this.symm
    · have := crumb_field w (i := 2) (by omega)
      rw [e3, FlexText.growFormat_code hj] at this; exact this.symm
    · rw [← streamStatus_field, streamStatusOf_eq, e4, K.code_eq]
    · intro h1
      have := octet_field w (i := 2) (by omega)
      rw [e5 h1] at this; exact this.symm
  have hrun : run b = (List.range (textPackets (14 - t.offset) l.length)).map fun i => (b[4 * i]?).getD 0 :=
    typedRun_full (k := 4) (ty := 0xF) (by omega) hl fun j hj => by
      obtain ⟨w, e1, e2, _⟩ := hword j hj
      exact ⟨w, e1, e2⟩
  have hlen : (run b).length = textPackets (14 - t.offset) l.length := by rw [hrun]; simp
  refine ⟨H.len4 K, ?_, ?_, ?_, ?_⟩
  · rw [seqOk_iff]
    refine ⟨?_, ?_⟩
    · intro e
      have := congrArg List.length e
      rw [List.length_map, hlen] at this
      simp at this; omega
    · intro j x hx
      rw [List.length_map, hlen]
      have hj : j < textPackets (14 - t.offset) l.length := by
        rcases Nat.lt_or_ge j (textPackets (14 - t.offset) l.length) with h | h
        · exact h
        · rw [List.getElem?_eq_none (by rw [List.length_map, hlen]; exact h)] at hx; cases hx
      obtain ⟨w, e1, _, e3, _⟩ := hword j hj
      rw [List.getElem?_map, hrun, List.getElem?_map, List.getElem?_range hj] at hx
      simp only [Option.map_some, e1, Option.getD_some, Option.some.injEq] at hx
      rw [← hx, e3]
  · intro j hj
    obtain ⟨w, e1, _, _, e4, _⟩ := hword j (by omega)
    rw [fieldAt, e1, Option.map_some, e4]
  · intro h1 j hj
    obtain ⟨w, e1, _, _, _, e5⟩ := hword j (by omega)
    obtain ⟨w0, f1, _, _, _, f5⟩ := hword 0 hp
    rw [Nat.mul_zero] at f1
    rw [fieldAt, fieldAt, e1, f1, Option.map_some, Option.map_some, e5 h1, f5 h1,
      hbl h1 j (by omega)]
  · rw [← validateText_iff K]
    unfold validateText
    rw [H.textBytes_eq K, Res.ok_bind]
    obtain ⟨s, hs⟩ := hs
    rw [← hs, fromUtf8_strBytes]
    rfl

/-! ### Reading accepted messages -/

theorem size_of_formats (hf : SeqOk ((run b).map fun w => field w 4 2))
    (h : 4 * (run b).length ≤ b.length) : size b = .ok (4 * (run b).length) := by
  have hp : 0 < (run b).length := typedRun_pos (k := 4) (ty := 0xF) (c := 4) hf
  have hseq := ((seqOk_iff _).mp hf).2
  have hw : ∀ j, j < (run b).length → ∃ w, b[4 * j]? = some w ∧
      (U32.crumb w 2).toNat = statusCode (run b).length j := by
    intro j hj
    obtain ⟨w, e1, e2, _⟩ := typedRun_get (k := 4) (ty := 0xF) (by omega) hj
    have e2 : (run b)[j]? = some w := e2
    have := hseq j (field w 4 2) (by rw [List.getElem?_map, e2]; rfl)
    rw [List.length_map] at this
    exact ⟨w, e1, by rw [crumb_field w (i := 2) (by omega)]; exact this⟩
  have htest : ∀ w : BitVec 32, (U32.crumb w 2 == 0#2 || U32.crumb w 2 == 3#2) =
      decide ((U32.crumb w 2).toNat = 0 ∨ (U32.crumb w 2).toNat = 3) := by
    intro w
    generalize U32.crumb w 2 = c
    revert c; decide
  unfold size
  rw [findIdx_heads (q := fun w => U32.crumb w 2 == 0#2 || U32.crumb w 2 == 3#2) hp h]
  · simp only; congr 1; omega
  · intro j hj
    obtain ⟨w, e1, e2⟩ := hw j (by omega)
    refine ⟨w, e1, ?_⟩
    rw [htest, decide_eq_false_iff_not, e2]
    unfold statusCode
    split <;> (try split) <;> (try split) <;> omega
  · obtain ⟨w, e1, e2⟩ := hw ((run b).length - 1) (by omega)
    refine ⟨w, e1, ?_⟩
    rw [htest, decide_eq_true_iff, e2]
    unfold statusCode
    split <;> (try split) <;> (try split) <;> omega

theorem Accepts.backs (A : t.Accepts b) : t.Backs b := by
  have hl := A.len
  refine ⟨A.len, ?_, A.statuses 0 (by omega)⟩
  obtain ⟨w, e1, _, e3⟩ := typedRun_get (k := 4) (ty := 0xF) (by omega) (run_pos A)
  rw [Nat.mul_zero] at e1
  rw [fieldAt, e1, Option.map_some, e3]; rfl

theorem Accepts.text_eq (K : t.Known) (A : t.Accepts b) :
    ∃ s, StreamText.text t b = .ok s ∧ StreamText.textBytes t b = .ok (strBytes s) ∧
      utf8 s = (t.slots b).filter (· ≠ 0) := by
  obtain ⟨s, hs⟩ := A.text
  have hb : StreamText.textBytes t b = .ok (strBytes s) := by
    rw [textBytes_eq K]
    congr 1
    apply map_toNat_inj
    rw [filter_toNat, ← slots_eq K, ← hs, utf8_eq]
  refine ⟨s, ?_, hb, hs⟩
  unfold StreamText.text
  rw [hb, Res.ok_bind, fromUtf8_strBytes]
  rfl

end StreamText

end Midi2
