import Verif.Lemmas.TextWire

/-! Flex data text messages. -/

namespace Midi2

namespace U32

theorem crumb_setCrumb (w : BitVec 32) (i j : Nat) (hi : i < 16) (hj : j < 16) (v : BitVec 2) :
    crumb (setCrumb w i v) j = if j = i then v else crumb w j := by
  rw [crumb_eq, setCrumb_eq]
  split
  · next h => subst h; exact ext_ins_same _ _ _ (by omega)
  · rw [ext_ins_disjoint, crumb_eq]; omega

theorem crumb_setNibble_ne (w : BitVec 32) (i j : Nat) (hi : i < 8) (hj : j < 16)
    (h : j / 2 ≠ i) (v : BitVec 4) : crumb (setNibble w i v) j = crumb w j := by
  rw [crumb_eq, setNibble_eq, ext_ins_disjoint, crumb_eq]; omega

theorem nibble_setCrumb_ne (w : BitVec 32) (i j : Nat) (hi : i < 16) (hj : j < 8)
    (h : i / 2 ≠ j) (v : BitVec 2) : nibble (setCrumb w i v) j = nibble w j := by
  rw [nibble_eq, setCrumb_eq, ext_ins_disjoint, nibble_eq]; omega

theorem octet_setCrumb_ne (w : BitVec 32) (i j : Nat) (hi : i < 16) (hj : j < 4)
    (h : i / 4 ≠ j) (v : BitVec 2) : octet (setCrumb w i v) j = octet w j := by
  rw [octet_eq, setCrumb_eq, ext_ins_disjoint, octet_eq]; omega

theorem nibble_setOctet_ne (w : BitVec 32) (i j : Nat) (hi : i < 4) (hj : j < 8)
    (h : j / 2 ≠ i) (v : BitVec 8) : nibble (setOctet w i v) j = nibble w j := by
  rw [nibble_eq, setOctet_eq, ext_ins_disjoint, nibble_eq]; omega

theorem crumb_setOctet_ne (w : BitVec 32) (i j : Nat) (hi : i < 4) (hj : j < 16)
    (h : j / 4 ≠ i) (v : BitVec 8) : crumb (setOctet w i v) j = crumb w j := by
  rw [crumb_eq, setOctet_eq, ext_ins_disjoint, crumb_eq]; omega

theorem crumb_octet (w : BitVec 32) (i r : Nat) (hi : i < 4) (hr : r < 4) :
    crumb w (4 * i + r) = (octet w i).extractLsb' (6 - 2 * r) 2 := by
  rw [crumb_eq, octet_eq]
  apply BitVec.eq_of_getLsbD_eq
  intro k hk
  simp only [BitVec.getLsbD_extractLsb', hk, show 6 - 2 * r + k < 8 by omega, decide_true,
    Bool.true_and]
  congr 1; omega

/-- An octet is two crumbs and a nibble. -/
theorem octet_crumbs (w : BitVec 32) (i : Nat) (hi : i < 4) :
    octet w i = crumb w (4 * i) ++ (crumb w (4 * i + 1) ++ nibble w (2 * i + 1)) := by
  rw [nibble_octet_lo _ _ hi]
  rw [show 4 * i = 4 * i + 0 from rfl, crumb_octet w i 0 hi (by omega), crumb_octet w i 1 hi (by omega)]
  generalize octet w i = x
  revert x; decide +kernel

end U32

/-! ### Characters -/

theorem byte_or_ne_zero (x m : UInt8) (hm : m ≠ 0) : x ||| m ≠ 0 := by
  intro h
  apply hm
  have := congrArg UInt8.toBitVec h
  rw [UInt8.toBitVec_or] at this
  apply UInt8.toBitVec_inj.mp
  exact (BitVec.or_eq_zero_iff.mp this).2

theorem encodeChar_ne_zero {c : Char} (hc : c ≠ '\x00') : ∀ x ∈ String.utf8EncodeChar c, x ≠ 0 := by
  have hs : c.utf8Size = 1 ∨ c.utf8Size = 2 ∨ c.utf8Size = 3 ∨ c.utf8Size = 4 := by
    unfold Char.utf8Size
    simp only
    split
    · exact .inl rfl
    · split
      · exact .inr (.inl rfl)
      · split
        · exact .inr (.inr (.inl rfl))
        · exact .inr (.inr (.inr rfl))
  rcases hs with h | h | h | h
  · rw [String.utf8EncodeChar_eq_singleton h]
    intro x hx
    simp only [List.mem_singleton] at hx
    subst hx
    intro h0
    apply hc
    have h1 : c.val.toNat ≤ 127 := by
      have h' := h
      unfold Char.utf8Size at h'
      simp only at h'
      split at h'
      · next h2 => exact h2
      · split at h'
        · cases h'
        · split at h' <;> cases h'
    have h2 : c.val.toUInt8.toNat = 0 := by rw [h0]; rfl
    rw [UInt32.toNat_toUInt8] at h2
    apply Char.ext
    apply UInt32.toNat_inj.mp
    show c.val.toNat = 0
    omega
  · rw [String.utf8EncodeChar_eq_cons_cons h]
    intro x hx
    simp only [List.mem_cons, List.not_mem_nil, or_false] at hx
    rcases hx with rfl | rfl <;> exact byte_or_ne_zero _ _ (by decide)
  · rw [String.utf8EncodeChar_eq_cons_cons_cons h]
    intro x hx
    simp only [List.mem_cons, List.not_mem_nil, or_false] at hx
    rcases hx with rfl | rfl | rfl <;> exact byte_or_ne_zero _ _ (by decide)
  · rw [String.utf8EncodeChar_eq_cons_cons_cons_cons h]
    intro x hx
    simp only [List.mem_cons, List.not_mem_nil, or_false] at hx
    rcases hx with rfl | rfl | rfl | rfl <;> exact byte_or_ne_zero _ _ (by decide)

theorem nulFree_bytes {s : String} (h : NulFree s) : ∀ x ∈ strBytes s, x ≠ 0 := by
  intro x hx
  unfold strBytes at hx
  obtain ⟨y, hy, rfl⟩ := List.mem_map.mp hx
  rw [← String.utf8Encode_toList] at hy
  unfold List.utf8Encode at hy
  rw [List.data_toByteArray] at hy
  obtain ⟨c, hc, hy⟩ := List.mem_flatMap.mp (by simpa using hy)
  have := encodeChar_ne_zero (c := c) (by intro e; exact h (e ▸ hc)) y hy
  intro e
  exact this (UInt8.toBitVec_inj.mp e)

namespace FlexText

theorem sizeForStr_eq (n : Nat) : sizeForStr n = 4 * textPackets 12 n := by
  unfold sizeForStr textPackets
  by_cases h1 : n % 12 = 0
  · rw [if_pos (by simpa using h1)]
    by_cases h2 : n = 0
    · rw [if_pos (by simpa using h2), if_pos h2]
    · rw [if_neg (by simpa using h2), if_neg h2]; omega
  · rw [if_neg (by simpa using h1), if_neg (by omega)]; omega

/-! ### The header -/

/-- Address and channel bits of a header. -/
def chanBits : Option (BitVec 4) → BitVec 6
  | some c => (0#2 ++ c : BitVec 6)
  | none => (1#2 ++ 0#4 : BitVec 6)

theorem octet1_putChannel (c : Option (BitVec 4)) (w : BitVec 32) :
    U32.octet (putChannel c w) 1 = U32.crumb w 4 ++ chanBits c := by
  cases c with
  | some c =>
    rw [putChannel, U32.octet_crumbs _ _ (by omega), U32.nibble_setNibble _ _ _ (by omega) (by omega),
      U32.crumb_setNibble_ne _ _ _ (by omega) (by omega) (by omega),
      U32.crumb_setNibble_ne _ _ _ (by omega) (by omega) (by omega),
      U32.crumb_setCrumb _ _ _ (by omega) (by omega), U32.crumb_setCrumb _ _ _ (by omega) (by omega)]
    rfl
  | none =>
    rw [putChannel, U32.octet_crumbs _ _ (by omega), U32.nibble_setNibble _ _ _ (by omega) (by omega),
      U32.crumb_setNibble_ne _ _ _ (by omega) (by omega) (by omega),
      U32.crumb_setNibble_ne _ _ _ (by omega) (by omega) (by omega),
      U32.crumb_setCrumb _ _ _ (by omega) (by omega), U32.crumb_setCrumb _ _ _ (by omega) (by omega)]
    rfl

theorem octet_putChannel_ne (c : Option (BitVec 4)) (w : BitVec 32) {i : Nat} (hi : i < 4)
    (h : i ≠ 1) : U32.octet (putChannel c w) i = U32.octet w i := by
  cases c <;>
    rw [putChannel, U32.octet_setNibble_ne _ _ _ (by omega) hi (by omega),
      U32.octet_setCrumb_ne _ _ _ (by omega) hi (by omega)]

theorem growWord_octets (n i : Nat) (g : BitVec 4) (c : Option (BitVec 4)) (bk st : BitVec 8)
    (w : BitVec 32) :
    U32.octet (growWord n i g c bk st w) 0 = 0xD#4 ++ g ∧
    U32.octet (growWord n i g c bk st w) 1 = growFormat n i ++ chanBits c ∧
    U32.octet (growWord n i g c bk st w) 2 = bk ∧
    U32.octet (growWord n i g c bk st w) 3 = st := by
  unfold growWord
  refine ⟨?_, ?_, ?_, ?_⟩
  · rw [U32.octet_setOctet _ _ _ (by omega) (by omega), if_neg (by omega),
      U32.octet_setOctet _ _ _ (by omega) (by omega), if_neg (by omega),
      octet_putChannel_ne _ _ (by omega) (by omega), U32.octet_nibbles _ _ (by omega),
      U32.nibble_setNibble _ _ _ (by omega) (by omega), if_neg (by omega),
      U32.nibble_setNibble _ _ _ (by omega) (by omega), if_pos rfl,
      U32.nibble_setNibble _ _ _ (by omega) (by omega), if_pos rfl]
    rfl
  · rw [U32.octet_setOctet _ _ _ (by omega) (by omega), if_neg (by omega),
      U32.octet_setOctet _ _ _ (by omega) (by omega), if_neg (by omega),
      octet1_putChannel, U32.crumb_setNibble_ne _ _ _ (by omega) (by omega) (by omega),
      U32.crumb_setNibble_ne _ _ _ (by omega) (by omega) (by omega),
      U32.crumb_setCrumb _ _ _ (by omega) (by omega), if_pos rfl]
  · rw [U32.octet_setOctet _ _ _ (by omega) (by omega), if_pos rfl]
  · rw [U32.octet_setOctet _ _ _ (by omega) (by omega), if_neg (by omega),
      U32.octet_setOctet _ _ _ (by omega) (by omega), if_pos rfl]

/-- Octet `r` of the header of packet `i` of `n`. -/
def headOctet (n i : Nat) (g : BitVec 4) (c : Option (BitVec 4)) (bk st : BitVec 8) (r : Nat) :
    BitVec 8 :=
  if r = 0 then 0xD#4 ++ g else if r = 1 then growFormat n i ++ chanBits c
  else if r = 2 then bk else st

theorem growWord_octet (n i : Nat) (g : BitVec 4) (c : Option (BitVec 4)) (bk st : BitVec 8)
    (w : BitVec 32) {r : Nat} (hr : r < 4) :
    U32.octet (growWord n i g c bk st w) r = headOctet n i g c bk st r := by
  obtain ⟨h0, h1, h2, h3⟩ := growWord_octets n i g c bk st w
  unfold headOctet
  have : r = 0 ∨ r = 1 ∨ r = 2 ∨ r = 3 := by omega
  rcases this with rfl | rfl | rfl | rfl
  · exact h0
  · exact h1
  · exact h2
  · exact h3

theorem growFormat_code {n i : Nat} (h : i < n) : (growFormat n i).toNat = statusCode n i := by
  unfold growFormat statusCode
  by_cases h1 : n = 1
  · subst h1
    have : i = 0 := by omega
    subst this; rfl
  · rw [if_neg h1]
    by_cases h0 : i = 0
    · subst h0
      simp [h1]
    · rw [if_neg (by simpa using h0), if_neg h0]
      by_cases hl : i = n - 1
      · rw [if_pos (by simpa using hl), if_pos (by omega)]; rfl
      · rw [if_neg (by simpa using hl), if_neg (by omega)]; rfl

theorem toNat_octet1 (f : BitVec 2) (c : Option (BitVec 4)) :
    (f ++ chanBits c : BitVec 8).toNat = 64 * f.toNat + (c.map BitVec.toNat).getD 16 := by
  cases c with
  | none => revert f; decide +kernel
  | some c =>
    show (f ++ (0#2 ++ c) : BitVec 8).toNat = 64 * f.toNat + c.toNat
    revert f c; decide +kernel

theorem toNat_headOctet {n i : Nat} (h : i < n) (g : BitVec 4) (c : Option (BitVec 4))
    (bk st : BitVec 8) {r : Nat} (hr : r < 4) :
    (flexHeader g.toNat (c.map BitVec.toNat) bk.toNat st.toNat n i)[r]? =
      some (headOctet n i g c bk st r).toNat := by
  have : r = 0 ∨ r = 1 ∨ r = 2 ∨ r = 3 := by omega
  rcases this with rfl | rfl | rfl | rfl
  · show some (0xD0 + g.toNat) = some (0xD#4 ++ g : BitVec 8).toNat
    rw [Sx.toNat_append4]; rfl
  · show some (64 * statusCode n i + (c.map BitVec.toNat).getD 16) =
      some (growFormat n i ++ chanBits c : BitVec 8).toNat
    rw [toNat_octet1, growFormat_code h]
  · rfl
  · rfl

/-! ### Setting the text -/

theorem clearPacket_length (p : Buf .ump) (h : p.length = 4) : (clearPacket p).length = 4 := by
  unfold clearPacket
  rw [List.length_append, List.length_take, h]; rfl

theorem clearPayload_get (b : Buf .ump) (i : Nat) :
    (clearPayload b)[i]? = if i / 4 < b.length / 4 then (if i % 4 = 0 then b[i]? else some 0)
      else b[i]? := by
  unfold clearPayload
  rw [onChunks_map (by omega) _ clearPacket_length]
  by_cases h : i / 4 < b.length / 4
  · rw [if_pos h, if_pos h]
    have hl : ((b.drop (4 * (i / 4))).take 4).length = 4 := by
      rw [List.length_take, List.length_drop]; omega
    unfold clearPacket
    have ht : ((b.drop (4 * (i / 4))).take 4).take 1 = (b.drop (4 * (i / 4))).take 1 := by
      rw [List.take_take]; congr 1
    rw [ht]
    have hl1 : ((b.drop (4 * (i / 4))).take 1).length = 1 := by
      rw [List.length_take, List.length_drop]; omega
    by_cases h0 : i % 4 = 0
    · rw [if_pos h0, h0, List.getElem?_append_left (by omega), List.getElem?_take_of_lt (by omega),
        List.getElem?_drop]
      congr 1; omega
    · rw [if_neg h0, List.getElem?_append_right (by omega), hl1]
      have : i % 4 - 1 = 0 ∨ i % 4 - 1 = 1 ∨ i % 4 - 1 = 2 := by omega
      rcases this with e | e | e <;> rw [e] <;> rfl
  · rw [if_neg h, if_neg h]

theorem clearPayload_length (b : Buf .ump) : (clearPayload b).length = b.length := by
  apply length_of_getElem?
  intro i
  rw [clearPayload_get]
  split
  · split
    · rfl
    · rw [List.getElem?_eq_getElem (by omega)]; rfl
  · rfl

/-- What `set_text` leaves in a buffer: a header in every packet of the text, text bytes
and zeros behind them. -/
theorem fill_full {b : Buf .ump} {w : BitVec 32} (hw : b[0]? = some w) (l : List (BitVec 8))
    (hl : 4 * textPackets 12 l.length ≤ b.length) :
    ∃ b', (do
      let b ← growBuffer (clearPayload b) (sizeForStr l.length)
      writeText b l) = .ok b' ∧ b'.length = b.length ∧
      (∀ a, a / 16 < b.length / 4 → octetAt b' a = some
        (if a % 16 < 4 then
          (if a / 16 < textPackets 12 l.length then
            headOctet (textPackets 12 l.length) (a / 16) (U32.nibble w 1) (channelOf w)
              (U32.octet w 2) (U32.octet w 3) (a % 16)
           else (octetAt b a).getD 0)
         else (l[slotIndex 4 a]?).getD 0)) ∧
      ∀ a, b.length / 4 ≤ a / 16 → octetAt b' a = octetAt b a := by
  have hpos := textPackets_pos (cap := 12) (n := l.length) (by omega)
  have hle := le_textPackets (cap := 12) (n := l.length) (by omega)
  generalize hn : textPackets 12 l.length = n at *
  have hb : b.length ≠ 0 := by omega
  -- the header loop
  have hgrow : ∃ b1, growBuffer (clearPayload b) (sizeForStr l.length) = .ok b1 ∧
      b1.length = b.length ∧ (∀ i, i / 4 < b.length / 4 → b1[i]? =
        if i % 4 = 0 then (if i / 4 < n then (b[i]?).map (growWord n (i / 4) (U32.nibble w 1)
          (channelOf w) (U32.octet w 2) (U32.octet w 3)) else b[i]?) else some 0) ∧
      ∀ i, b.length / 4 ≤ i / 4 → b1[i]? = b[i]? := by
    have hc0 : (clearPayload b)[0]? = some w := by
      rw [clearPayload_get, if_pos (by omega), if_pos rfl, hw]
    unfold growBuffer
    rw [sizeForStr_eq, hn]
    have a1 : Res.assert (4 * n % 4 == 0) = .ok () := by
      rw [Nat.mul_mod_right]; rfl
    have a2 : Res.assert (4 * n != 0) = .ok () := by
      have : (4 * n != 0) = true := by simp; omega
      rw [this]; rfl
    have a3 : at' (clearPayload b) 0 = .ok w := by unfold at'; rw [hc0]
    rw [a1, Res.ok_bind, a2, Res.ok_bind, a3, Res.ok_bind]
    have hq : 4 * n / 4 = n := by omega
    have hget := onChunks_heads (k := 4) (by omega) (fun i => if i < n then
        growWord n i (U32.nibble w 1) (channelOf w) (U32.octet w 2) (U32.octet w 3) else id)
      (fun cs => cs.zipIdx.map fun (p, i) => if i < n then modifyHead0
        (growWord n i (U32.nibble w 1) (channelOf w) (U32.octet w 2) (U32.octet w 3)) p else p)
      (clearPayload b) (by
        intro i
        rw [List.getElem?_map, List.getElem?_zipIdx, Option.map_map]
        cases (chunksExact 4 (clearPayload b))[i]? with
        | none => rfl
        | some p =>
          simp only [Option.map_some, Function.comp, Nat.zero_add]
          by_cases h : i < n
          · rw [if_pos h, if_pos h]
          · rw [if_neg h, if_neg h]
            cases p <;> rfl)
    rw [hq]
    refine ⟨_, rfl, ?_, ?_, fun i hi => by
      rw [hget, clearPayload_length, if_neg (by omega), clearPayload_get, if_neg (by omega)]⟩
    · apply (length_of_getElem? _).trans (clearPayload_length b)
      intro i
      rw [hget]
      split
      · cases (clearPayload b)[i]? <;> rfl
      · rfl
    · intro i hi
      rw [hget, clearPayload_length, clearPayload_get, if_pos hi]
      by_cases h0 : i % 4 = 0
      · rw [if_pos ⟨h0, hi⟩, if_pos h0, if_pos h0]
        by_cases h : i / 4 < n
        · rw [if_pos h, if_pos h]
        · rw [if_neg h, if_neg h, Option.map_id]; rfl
      · rw [if_neg (fun c => h0 c.1), if_neg h0, if_neg h0]
  obtain ⟨b1, g1, g2, g3, g4⟩ := hgrow
  obtain ⟨b2, w1, w2, w3⟩ := wloop_eq (first := 4) (by omega) (m := n) l 0 b1 (by omega) (by omega)
  refine ⟨b2, ?_, by omega, ?_, fun a ha => by
    have hs : slotIndex 4 a = 12 * (a / 16) + (a % 16 - 4) := rfl
    rw [w3, if_neg (by omega)]
    unfold octetAt
    rw [g4 _ (by omega)]⟩
  · rw [g1, Res.ok_bind]
    unfold writeText
    rw [flex_writeLoop]
    exact w1
  · intro a ha
    have hword := g3 (a / 4) (by omega)
    have ho : octetAt b1 a = (b1[a / 4]?).map (U32.octet · (a % 4)) := rfl
    rw [w3]
    by_cases h4 : a % 16 < 4
    · rw [if_neg (by omega), if_pos h4, ho, hword, if_pos (by omega)]
      rw [show a / 4 / 4 = a / 16 by omega]
      have hr : a % 16 = a % 4 := by omega
      by_cases hj : a / 16 < n
      · rw [if_pos hj, if_pos hj, List.getElem?_eq_getElem (by omega)]
        simp only [Option.map_some]
        rw [growWord_octet _ _ _ _ _ _ _ (by omega), hr]
      · rw [if_neg hj, if_neg hj]
        unfold octetAt
        rw [List.getElem?_eq_getElem (by omega)]
        rfl
    · rw [if_neg h4]
      by_cases hs : slotIndex 4 a < l.length
      · rw [if_pos ⟨by omega, by omega, by omega⟩, Nat.sub_zero, List.getElem?_eq_getElem hs]; rfl
      · rw [if_neg (by omega), ho, hword, if_neg (by omega), List.getElem?_eq_none (by omega)]
        simp only [Option.map_some, Option.getD_none, Option.some.injEq]
        unfold U32.octet
        have : a % 4 = 0 ∨ a % 4 = 1 ∨ a % 4 = 2 ∨ a % 4 = 3 := by omega
        rcases this with e | e | e | e <;> rw [e] <;> decide

theorem fill_eq {b : Buf .ump} {w : BitVec 32} (hw : b[0]? = some w) (l : List (BitVec 8))
    (hl : 4 * textPackets 12 l.length ≤ b.length) :
    ∃ b', (do
      let b ← growBuffer (clearPayload b) (sizeForStr l.length)
      writeText b l) = .ok b' ∧ b'.length = b.length ∧
      ∀ a, a / 16 < b.length / 4 → octetAt b' a = some
        (if a % 16 < 4 then
          (if a / 16 < textPackets 12 l.length then
            headOctet (textPackets 12 l.length) (a / 16) (U32.nibble w 1) (channelOf w)
              (U32.octet w 2) (U32.octet w 3) (a % 16)
           else (octetAt b a).getD 0)
         else (l[slotIndex 4 a]?).getD 0) := by
  obtain ⟨b', h1, h2, h3, -⟩ := fill_full hw l hl
  exact ⟨b', h1, h2, h3⟩

end FlexText

end Midi2
