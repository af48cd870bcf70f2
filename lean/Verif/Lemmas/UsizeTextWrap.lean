import Verif.Lemmas.UsizeText
import Verif.Lemmas.TextStreamHold
import Verif.Lemmas.TextFlexHold

/-! # Text messages whose size wraps around -/

namespace Midi2

theorem modifyAt_past {α : Type} {b : List α} {i : Nat} (h : b.length ≤ i) (f : α → α) :
    modifyAt b i f = .panic := by
  unfold modifyAt
  rw [List.getElem?_eq_none h]

/-- A text whose last byte is behind the buffer. -/
theorem wloop_panic {first : Nat} (hf : first < 16) : ∀ (vs : List (BitVec 8)) (i : Nat)
    (b : Buf .ump), vs ≠ [] → 4 * b.length ≤ slotAddr first (i + vs.length - 1) →
    wloop first vs (i / (16 - first)) (i % (16 - first)) b = .panic
  | [], _, _, h, _ => absurd rfl h
  | [v], i, b, _, hi => by
    rw [wloop]
    have : 4 * b.length ≤ 16 * (i / (16 - first)) + first + i % (16 - first) := hi
    rw [modifyAt_past (by omega)]
    rfl
  | v :: v' :: vs, i, b, _, hi => by
    rw [wloop]
    by_cases hb : (16 * (i / (16 - first)) + first + i % (16 - first)) / 4 < b.length
    · have hr := Nat.mod_lt i (show 0 < 16 - first by omega)
      rw [modifyAt_lt hb, Res.ok_bind]
      have ih := fun b' (hl : b'.length = b.length) =>
        wloop_panic hf (v' :: vs) (i + 1) b' (by simp) (by
          rw [hl]
          rw [List.length_cons] at hi
          rwa [show i + 1 + (v' :: vs).length - 1 = i + ((v' :: vs).length + 1) - 1 by omega])
      by_cases h : i % (16 - first) + 1 = 16 - first
      · rw [if_pos h]
        rw [(div_mod_step (by omega) h).1, (div_mod_step (by omega) h).2] at ih
        exact ih _ (by rw [List.length_set])
      · rw [if_neg h]
        rw [(div_mod_stay hr h).1, (div_mod_stay hr h).2] at ih
        exact ih _ (by rw [List.length_set])
    · rw [modifyAt_past (by omega)]
      rfl

variable {w : Nat}

theorem Arith.wrapping_mul {a b : Nat} (h : 2 ^ w ≤ a * b) :
    (wrapping w).mul a b = .ok (a * b % 2 ^ w) := by
  show Res.ok (if a * b < 2 ^ w then a * b else (a * b) % 2 ^ w) = _
  rw [if_neg (by omega)]

namespace FlexText

theorem sizeForStrU_wrapping {n : Nat} (h12 : n % 12 = 0) (hv : 2 ^ w ≤ 4 * n) :
    sizeForStrU (.wrapping w) n = .ok (4 * n % 2 ^ w / 12) := by
  have hp : 0 < 2 ^ w := Nat.pow_pos (by decide)
  rw [sizeForStrU, if_pos (by simpa using h12), if_neg (by simp; omega),
    Arith.wrapping_mul (by omega), Nat.mul_comm n 4]
  rfl

theorem sizeForStrU_checked {n : Nat} (h12 : n % 12 = 0) (hv : 2 ^ w ≤ 4 * n) :
    sizeForStrU (.checked w) n = .panic := by
  have hp : 0 < 2 ^ w := Nat.pow_pos (by decide)
  have : (Arith.checked w).mul n 4 = .panic := if_neg (by omega)
  rw [sizeForStrU, if_pos (by simpa using h12), if_neg (by simp; omega), this]
  rfl

theorem growBufferU_length (b : Buf .ump) (size : Nat) :
    growBufferU false b size = .panic ∨
      ∃ b', growBufferU false b size = .ok b' ∧ b'.length = b.length := by
  rw [growBufferU]
  cases h0 : b[0]? with
  | none =>
    left
    have : at' b 0 = .panic := by unfold at'; rw [h0]
    rw [this]; rfl
  | some x =>
    right
    have : at' b 0 = .ok x := by unfold at'; rw [h0]
    rw [this]
    refine ⟨_, rfl, ?_⟩
    rw [onChunksExact, List.length_append, List.length_drop]
    have : ∀ (L : List (Buf .ump)) (f : Buf .ump × Nat → Buf .ump) (k : Nat),
        (∀ p, (f p).length = p.1.length) →
        ((L.zipIdx k).map f).flatten.length = L.flatten.length := by
      intro L f k hf
      induction L generalizing k with
      | nil => rfl
      | cons p L ih =>
        rw [List.zipIdx_cons, List.map_cons, List.flatten_cons, List.flatten_cons,
          List.length_append, List.length_append, hf, ih]
    rw [this _ _ 0]
    · rw [chunksExact_flatten (by decide), List.length_take]
      omega
    · rintro ⟨p, i⟩
      dsimp only
      split
      · cases p <;> rfl
      · rfl

theorem writeLoopU_panic (h5 : 5 ≤ w) {l : List (BitVec 8)} (hl : l.length < 2 ^ w) (h0 : l ≠ [])
    (h12 : l.length % 12 = 0) (b : Buf .ump) (hb : 3 * b.length < l.length) :
    writeLoopU (.wrapping w) l 0 0 b = .panic := by
  have hpos := List.length_pos_iff.mpr h0
  rw [writeLoopU_eq (Arith.wrapping_exact w) h5 l 0 0 b (by decide) (by omega), flex_writeLoop]
  exact wloop_panic (first := 4) (by decide) l 0 b h0 (by
    have : slotAddr 4 (0 + l.length - 1) = 16 * ((0 + l.length - 1) / 12) + 4 + (0 + l.length - 1) % 12 := rfl
    omega)

theorem setTextU_wrapping (h5 : 5 ≤ w) (b : Buf .ump) (s : String)
    (hn : (strBytes s).length < 2 ^ w) (h12 : (strBytes s).length % 12 = 0)
    (hv : 2 ^ w ≤ 4 * (strBytes s).length) : setTextU (.wrapping w) false b s = .panic := by
  have hp : 0 < 2 ^ w := Nat.pow_pos (by decide)
  have hm := Nat.mod_lt (4 * (strBytes s).length) hp
  rw [setTextU, sizeForStrU_wrapping h12 hv]
  simp only [Res.ok_bind]
  rcases growBufferU_length (clearPayload (vecResize b (4 * (strBytes s).length % 2 ^ w / 12)))
    (4 * (strBytes s).length % 2 ^ w / 12) with h | ⟨b', h, hl⟩
  · rw [h]; rfl
  · rw [h, Res.ok_bind]
    rw [clearPayload_length, vecResize_length] at hl
    exact writeLoopU_panic h5 hn (by intro h; rw [h] at hv; simp at hv) h12 b' (by omega)

theorem trySetTextU_wrapping_small (h5 : 5 ≤ w) (b : Buf .ump) (s : String)
    (hn : (strBytes s).length < 2 ^ w) (h12 : (strBytes s).length % 12 = 0)
    (hv : 2 ^ w ≤ 4 * (strBytes s).length) (hb : 3 * b.length < (strBytes s).length) :
    trySetTextU (.wrapping w) false b s =
      if b.length < 4 * (strBytes s).length % 2 ^ w / 12 then .err .bufferOverflow else .panic := by
  have hp : 0 < 2 ^ w := Nat.pow_pos (by decide)
  rw [trySetTextU, sizeForStrU_wrapping h12 hv]
  simp only [Res.ok_bind, fixedTryResize]
  by_cases hc : b.length < 4 * (strBytes s).length % 2 ^ w / 12
  · rw [if_pos hc, if_pos hc]; rfl
  · rw [if_neg hc, if_neg hc, Res.ok_bind]
    rcases growBufferU_length (clearPayload b) (4 * (strBytes s).length % 2 ^ w / 12) with
      h | ⟨b', h, hl⟩
    · rw [h]; rfl
    · rw [h, Res.ok_bind]
      rw [clearPayload_length] at hl
      exact writeLoopU_panic h5 hn (by intro h; rw [h] at hv; simp at hv) h12 b' (by omega)

theorem growBufferU_floor (b : Buf .ump) (size : Nat) (h : 4 ≤ size) :
    growBufferU false b size = growBuffer b (4 * (size / 4)) := by
  rw [← growBufferU_eq false b (size := 4 * (size / 4)) (by omega) (by omega), growBufferU, growBufferU,
    show 4 * (size / 4) / 4 = size / 4 by omega]
  rfl

/-- The text is written behind the packets that count as the message. -/
theorem trySetTextU_wrapping_large (h5 : 5 ≤ w) {t : FlexText} {b : Buf .ump} (B : t.Backs b)
    {g : BitVec 4} (hg : group b = .ok g) {c : Option (BitVec 4)} (hc : channel b = .ok c)
    (s : String) (hn : (strBytes s).length < 2 ^ w) (h12 : (strBytes s).length % 12 = 0)
    (hv : 2 ^ w ≤ 4 * (strBytes s).length) (hb : (strBytes s).length ≤ 3 * b.length)
    {m : Nat} (hm : 4 * (strBytes s).length % 2 ^ w / 48 = m) (hm0 : 0 < m) :
    ∃ b', trySetTextU (.wrapping w) false b s = .ok b' ∧ b'.length = b.length ∧
      ∃ d, data b' = .ok d ∧ d.length = 4 * m ∧
        octets d = textWire (fun j => flexHeader g.toNat (c.map BitVec.toNat) t.bank.toNat
          t.status.toNat m j) 12 (((strBytes s).take (12 * m)).map BitVec.toNat) := by
  have hp : 0 < 2 ^ w := Nat.pow_pos (by decide)
  have hlt := Nat.mod_lt (4 * (strBytes s).length) hp
  have hml : 12 * m < (strBytes s).length := by omega
  have hl : ((strBytes s).take (12 * m)).length = 12 * m := by rw [List.length_take]; omega
  have htp : textPackets 12 ((strBytes s).take (12 * m)).length = m := by
    rw [hl]; unfold textPackets; rw [if_neg (by omega)]; omega
  obtain ⟨b2, e1, e2, H⟩ := holds_fill B hg hc ((strBytes s).take (12 * m)) (by rw [htp]; omega)
  rw [sizeForStr_eq, htp] at e1
  -- the same headers
  cases hgr : growBuffer (clearPayload b) (4 * m) with
  | panic => rw [hgr] at e1; cases e1
  | err e => rw [hgr] at e1; cases e1
  | ok b1 =>
    rw [hgr, Res.ok_bind] at e1
    have hsize : 4 * (strBytes s).length % 2 ^ w / 12 / 4 = m := by omega
    have hb1 : b1.length = b.length := by
      rcases growBufferU_length (clearPayload b) (4 * m) with h | ⟨b', h, hl'⟩
      · rw [growBufferU_eq false _ (by omega) (by omega), hgr] at h; cases h
      · rw [growBufferU_eq false _ (by omega) (by omega), hgr] at h
        cases h; rw [hl', clearPayload_length]
    obtain ⟨b', w1, w2, w3⟩ := wloop_eq (first := 4) (by omega) (m := (strBytes s).length / 12)
      (strBytes s) 0 b1 (by omega) (by omega)
    obtain ⟨b2', v1, v2, v3⟩ := wloop_eq (first := 4) (by omega) (m := m)
      ((strBytes s).take (12 * m)) 0 b1 (by omega) (by omega)
    have : b2' = b2 := by
      unfold writeText at e1
      rw [flex_writeLoop] at e1
      exact Res.ok.inj (v1.symm.trans e1)
    subst this
    refine ⟨b', ?_, by omega, ?_⟩
    · rw [trySetTextU, sizeForStrU_wrapping h12 hv]
      simp only [Res.ok_bind, fixedTryResize]
      rw [if_neg (by omega), Res.ok_bind, growBufferU_floor _ _ (by omega), hsize, hgr, Res.ok_bind,
        writeLoopU_eq (Arith.wrapping_exact w) h5 _ 0 0 _ (by decide) (by omega), flex_writeLoop]
      exact w1
    · have hto : b'.take (4 * m) = b2'.take (4 * m) := by
        refine eq_of_octetAt (by rw [List.length_take, List.length_take]; omega) fun a ha => ?_
        rw [List.length_take] at ha
        rw [octetAt_take _ (by omega), octetAt_take _ (by omega), w3, v3]
        by_cases h4 : 4 ≤ a % 16
        · have hx : slotIndex 4 a = 12 * (a / 16) + (a % 16 - 4) := rfl
          rw [if_pos ⟨h4, by omega, by omega⟩, if_pos ⟨h4, by omega, by omega⟩,
            List.getElem?_take_of_lt (by omega)]
        · rw [if_neg (by omega), if_neg (by omega)]
      have hw : ∀ i, i < 4 * m → b'[i]? = b2'[i]? := by
        intro i hi
        rw [← List.getElem?_take_of_lt hi, hto, List.getElem?_take_of_lt hi]
      have hsz : size b' = size b2' := by
        rw [H.size_eq, htp]
        unfold size
        rw [findIdx_heads (q := fun w => U32.crumb w 4 == 0#2 || U32.crumb w 4 == 3#2) hm0 (by omega)]
        · simp only; congr 1; omega
        · intro j hj
          obtain ⟨x, e1, _, _, e3, _⟩ := H.word (j := j) (by omega)
          refine ⟨x, by rw [hw _ (by omega)]; exact e1, ?_⟩
          show (U32.crumb x 4 == 0#2 || U32.crumb x 4 == 3#2) = false
          rw [stop_test x _ j (by omega) e3, decide_eq_false (by omega)]
        · obtain ⟨x, e1, _, _, e3, _⟩ := H.word (j := m - 1) (by omega)
          refine ⟨x, by rw [hw _ (by omega)]; exact e1, ?_⟩
          show (U32.crumb x 4 == 0#2 || U32.crumb x 4 == 3#2) = true
          rw [stop_test x _ _ (by omega) e3, decide_eq_true (by omega)]
      refine ⟨b'.take (4 * m), ?_, by rw [List.length_take]; omega, ?_⟩
      · unfold data
        rw [hsz, H.size_eq, htp, Res.ok_bind, sliceTo, if_pos (by omega)]
      · have := H.wire
        rw [htp] at this
        rw [hto, this]

end FlexText

namespace StreamText

theorem sizeForStrU_wrapping {off n : Nat} (hc : n % (14 - off) = 0) (hv : 2 ^ w ≤ 4 * n) :
    sizeForStrU (.wrapping w) off n = .ok (4 * n % 2 ^ w / (14 - off)) := by
  have hp : 0 < 2 ^ w := Nat.pow_pos (by decide)
  simp only [sizeForStrU]
  rw [if_pos (by simpa using hc), if_neg (by simp; omega),
    Arith.wrapping_mul (by omega), Nat.mul_comm n 4]
  rfl

theorem sizeForStrU_checked {off n : Nat} (hc : n % (14 - off) = 0) (hv : 2 ^ w ≤ 4 * n) :
    sizeForStrU (.checked w) off n = .panic := by
  have hp : 0 < 2 ^ w := Nat.pow_pos (by decide)
  have : (Arith.checked w).mul n 4 = .panic := if_neg (by omega)
  simp only [sizeForStrU]
  rw [if_pos (by simpa using hc), if_neg (by simp; omega), this]
  rfl

theorem setFormatFields_length (b : Buf .ump) :
    setFormatFields b = .panic ∨ ∃ b', setFormatFields b = .ok b' ∧ b'.length = b.length := by
  cases h : leading 4 (fun w => U32.nibble w 0 == 0xF#4) b with
  | zero =>
    left
    have hL : ((chunksExact 4 b).takeWhile (fun p => U32.nibble (head0 p) 0 == 0xF#4)).length = 0 := h
    unfold setFormatFields
    simp only
    rw [List.eq_nil_of_length_eq_zero hL]
    rfl
  | succ n =>
    right
    obtain ⟨b', e1, e2, _⟩ := setFormatFields_get (by omega) h
    exact ⟨b', e1, e2⟩

theorem writeHeader_length (b : Buf .ump) (size : Nat) :
    writeHeader b size = .panic ∨ ∃ b', writeHeader b size = .ok b' ∧ b'.length = b.length := by
  unfold writeHeader
  cases h0 : b[0]? with
  | none =>
    left
    have : at' b 0 = .panic := by unfold at'; rw [h0]
    rw [this]; rfl
  | some x =>
    have : at' b 0 = .ok x := by unfold at'; rw [h0]
    rw [this]
    simp only [Res.ok_bind, sliceTo]
    by_cases hs : size ≤ b.length
    · right
      rw [if_pos hs]
      refine ⟨_, rfl, ?_⟩
      rw [List.length_append, onChunks_map_length (by decide) _ (by intro p; cases p <;> rfl),
        onChunks_map_length (by decide) _ (by intro p; cases p <;> rfl), List.length_take,
        List.length_drop]
      omega
    · left
      rw [if_neg hs]; rfl

theorem writeLoopU_panic {off : Nat} (ho : off < 2) (h5 : 5 ≤ w) {l : List (BitVec 8)}
    (hl : l.length < 2 ^ w) (h0 : l ≠ []) (hc : l.length % (14 - off) = 0) (b : Buf .ump)
    (hb : (14 - off) * b.length < 4 * l.length) :
    writeLoopU (.wrapping w) off l 0 0 b = .panic := by
  have hpos := List.length_pos_iff.mpr h0
  rw [writeLoopU_eq (Arith.wrapping_exact w) h5 ho l 0 0 b (by omega) (by omega),
    stream_writeLoop ho]
  have e14 : 16 - (2 + off) = 14 - off := by omega
  have := wloop_panic (first := 2 + off) (by omega) l 0 b h0 (by
    unfold slotAddr
    rw [e14]
    have : off = 0 ∨ off = 1 := by omega
    rcases this with rfl | rfl
    · simp only [Nat.sub_zero] at hc hb ⊢; omega
    · simp only [show (14 : Nat) - 1 = 13 from rfl] at hc hb ⊢; omega)
  simpa using this

theorem rest_panic (h5 : 5 ≤ w) (t : StreamText) (ht : t.offset < 2) (b : Buf .ump) (s : String)
    (hn : (strBytes s).length < 2 ^ w) (hc : (strBytes s).length % (14 - t.offset) = 0)
    (h0 : strBytes s ≠ []) (hb : (14 - t.offset) * b.length < 4 * (strBytes s).length) (size : Nat) :
    (clearPayloadU false t.offset b >>= fun b => writeHeader b size >>= fun b =>
      setFormatFields b >>= fun b => writeLoopU (.wrapping w) t.offset (strBytes s) 0 0 b) = .panic := by
  obtain ⟨b1, e1, e2, _⟩ := clearPayload_get ht b
  rw [clearPayloadU_eq false ht, e1, Res.ok_bind]
  rcases writeHeader_length b1 size with h | ⟨b2, h, hl2⟩
  · rw [h]; rfl
  · rw [h, Res.ok_bind]
    rcases setFormatFields_length b2 with h | ⟨b3, h, hl3⟩
    · rw [h]; rfl
    · rw [h, Res.ok_bind]
      exact writeLoopU_panic ht h5 hn h0 hc b3 (by rw [hl3, hl2, e2]; exact hb)

theorem setTextU_wrapping (h5 : 5 ≤ w) (t : StreamText) (ht : t.offset < 2) (b : Buf .ump)
    (s : String) (hn : (strBytes s).length < 2 ^ w)
    (hc : (strBytes s).length % (14 - t.offset) = 0) (hv : 2 ^ w ≤ 4 * (strBytes s).length) :
    setTextU (.wrapping w) false t b s = .panic := by
  have hp : 0 < 2 ^ w := Nat.pow_pos (by decide)
  have hm := Nat.mod_lt (4 * (strBytes s).length) hp
  rw [setTextU, sizeForStrU_wrapping hc hv]
  simp only [Res.ok_bind]
  refine rest_panic h5 t ht _ s hn hc (by intro h; rw [h] at hv; simp at hv) ?_ _
  rw [FlexText.vecResize_length]
  have := Nat.mul_div_le (4 * (strBytes s).length % 2 ^ w) (14 - t.offset)
  omega

theorem trySetTextU_wrapping_small (h5 : 5 ≤ w) (t : StreamText) (ht : t.offset < 2) (b : Buf .ump)
    (s : String) (hn : (strBytes s).length < 2 ^ w)
    (hc : (strBytes s).length % (14 - t.offset) = 0) (hv : 2 ^ w ≤ 4 * (strBytes s).length)
    (hb : (14 - t.offset) * b.length < 4 * (strBytes s).length) :
    trySetTextU (.wrapping w) false t b s =
      if b.length < 4 * (strBytes s).length % 2 ^ w / (14 - t.offset) then .err .bufferOverflow
      else .panic := by
  have hp : 0 < 2 ^ w := Nat.pow_pos (by decide)
  rw [trySetTextU, sizeForStrU_wrapping hc hv]
  simp only [Res.ok_bind, fixedTryResize]
  by_cases hs : b.length < 4 * (strBytes s).length % 2 ^ w / (14 - t.offset)
  · rw [if_pos hs, if_pos hs]; rfl
  · rw [if_neg hs, if_neg hs, Res.ok_bind]
    exact rest_panic h5 t ht _ s hn hc (by intro h; rw [h] at hv; simp at hv) hb _

/-- The text is written behind the packets that count as the message. -/
theorem trySetTextU_wrapping_large (h5 : 5 ≤ w) {t : StreamText} (K : t.Known) {b : Buf .ump}
    (B : t.Backs b) (s : String) (hn : (strBytes s).length < 2 ^ w)
    (hc : (strBytes s).length % (14 - t.offset) = 0) (hv : 2 ^ w ≤ 4 * (strBytes s).length)
    (hb : 4 * (strBytes s).length ≤ (14 - t.offset) * b.length)
    {m : Nat} (hm : 4 * (strBytes s).length % 2 ^ w / (14 - t.offset) = 4 * m) (hm0 : 0 < m) :
    ∃ b', trySetTextU (.wrapping w) false t b s = .ok b' ∧ b'.length = b.length ∧
      ∃ d, data b' = .ok d ∧ d.length = 4 * m ∧
        octets d = textWire (fun j => streamHeader t.status.toNat m j ++
          if t.offset = 0 then [] else [(blockAt b j).toNat]) t.capacity
          (((strBytes s).take ((14 - t.offset) * m)).map BitVec.toNat) := by
  have ho := K.off
  have hp : 0 < 2 ^ w := Nat.pow_pos (by decide)
  have hlt := Nat.mod_lt (4 * (strBytes s).length) hp
  have hx := Nat.div_add_mod (strBytes s).length (14 - t.offset)
  rw [hc, Nat.add_zero] at hx
  generalize hq : (strBytes s).length / (14 - t.offset) = q at hx
  have hmul := Nat.mul_div_le (4 * (strBytes s).length % 2 ^ w) (14 - t.offset)
  rw [hm] at hmul
  have hml : (14 - t.offset) * m < (strBytes s).length := by
    have : (14 - t.offset) * (4 * m) = 4 * ((14 - t.offset) * m) := by ac_rfl
    omega
  have hmq : m < q := by
    rw [← hx] at hml
    exact Nat.lt_of_mul_lt_mul_left hml
  have hqb : 4 * q ≤ b.length := by
    rw [← hx, show 4 * ((14 - t.offset) * q) = (14 - t.offset) * (4 * q) by ac_rfl] at hb
    exact Nat.le_of_mul_le_mul_left hb (by omega)
  have hl : ((strBytes s).take ((14 - t.offset) * m)).length = (14 - t.offset) * m := by
    rw [List.length_take]; omega
  have hmpos : 0 < (14 - t.offset) * m := Nat.mul_pos (by omega) hm0
  have htp : textPackets (14 - t.offset) ((strBytes s).take ((14 - t.offset) * m)).length = m := by
    rw [hl]; unfold textPackets; rw [if_neg (by omega)]
    rw [show (14 - t.offset) * m + (14 - t.offset) - 1 =
      (14 - t.offset) * m + (14 - t.offset - 1) by omega, Nat.mul_add_div (by omega),
      Nat.div_eq_of_lt (by omega), Nat.add_zero]
  have htp' : textPackets t.capacity ((strBytes s).take ((14 - t.offset) * m)).length = m := by
    rw [K.capacity_eq]; exact htp
  obtain ⟨b2, e1, e2, H⟩ := holds_fill K B ((strBytes s).take ((14 - t.offset) * m))
    (by rw [htp]; omega)
  rw [sizeForStr_eq ho, htp] at e1
  obtain ⟨b1, c1, c2, _⟩ := clearPayload_get ho b
  rw [c1, Res.ok_bind] at e1
  rcases writeHeader_length b1 (4 * m) with h | ⟨b3, h, hl3⟩
  · rw [h] at e1; cases e1
  rw [h, Res.ok_bind] at e1
  rcases setFormatFields_length b3 with h' | ⟨b4, h', hl4⟩
  · rw [h'] at e1; cases e1
  rw [h', Res.ok_bind] at e1
  have h16 : 16 - (2 + t.offset) = 14 - t.offset := by omega
  obtain ⟨b', w1, w2, w3⟩ := wloop_eq (first := 2 + t.offset) (by omega) (m := q)
    (strBytes s) 0 b4 (by omega) (by rw [h16]; omega)
  obtain ⟨b2', v1, v2, v3⟩ := wloop_eq (first := 2 + t.offset) (by omega) (m := m)
    ((strBytes s).take ((14 - t.offset) * m)) 0 b4 (by omega) (by rw [h16]; omega)
  rw [Nat.zero_div, Nat.zero_mod] at w1 v1
  have : b2' = b2 := by
    unfold writeText at e1
    rw [stream_writeLoop ho] at e1
    exact Res.ok.inj (v1.symm.trans e1)
  subst this
  refine ⟨b', ?_, by omega, ?_⟩
  · rw [trySetTextU, sizeForStrU_wrapping hc hv, hm]
    simp only [Res.ok_bind, fixedTryResize]
    rw [if_neg (by omega), Res.ok_bind, clearPayloadU_eq false ho, c1, Res.ok_bind, h, Res.ok_bind,
      h', Res.ok_bind,
      writeLoopU_eq (Arith.wrapping_exact w) h5 ho _ 0 0 _ (by omega) (by omega),
      stream_writeLoop ho]
    exact w1
  · have hto : b'.take (4 * m) = b2'.take (4 * m) := by
      refine eq_of_octetAt (by rw [List.length_take, List.length_take]; omega) fun a ha => ?_
      rw [List.length_take] at ha
      rw [FlexText.octetAt_take _ (by omega), FlexText.octetAt_take _ (by omega), w3, v3]
      by_cases h4 : 2 + t.offset ≤ a % 16
      · have hx : slotIndex (2 + t.offset) a < (14 - t.offset) * m := by
          unfold slotIndex
          rw [h16]
          have : (14 - t.offset) * (a / 16) + (14 - t.offset) ≤ (14 - t.offset) * m := by
            rw [← Nat.mul_succ]; exact Nat.mul_le_mul_left _ (by omega)
          omega
        rw [if_pos ⟨h4, by omega, by omega⟩, if_pos ⟨h4, by omega, by omega⟩,
          List.getElem?_take_of_lt (by omega)]
      · rw [if_neg (by omega), if_neg (by omega)]
    have hw : ∀ i, i < 4 * m → b'[i]? = b2'[i]? := by
      intro i hi
      rw [← List.getElem?_take_of_lt hi, hto, List.getElem?_take_of_lt hi]
    have hsz : size b' = size b2' := by
      rw [H.size_eq K, htp]
      unfold size
      rw [findIdx_heads (q := fun w => U32.crumb w 2 == 0#2 || U32.crumb w 2 == 3#2) hm0 (by omega)]
      · simp only; congr 1; omega
      · intro j hj
        obtain ⟨x, e1, _, e3, _⟩ := H.word (j := j) (by omega)
        rw [htp] at e3
        refine ⟨x, by rw [hw _ (by omega)]; exact e1, ?_⟩
        show (U32.crumb x 2 == 0#2 || U32.crumb x 2 == 3#2) = false
        rw [stop_test x _ j (by omega) e3, decide_eq_false (by omega)]
      · obtain ⟨x, e1, _, e3, _⟩ := H.word (j := m - 1) (by omega)
        rw [htp] at e3
        refine ⟨x, by rw [hw _ (by omega)]; exact e1, ?_⟩
        show (U32.crumb x 2 == 0#2 || U32.crumb x 2 == 3#2) = true
        rw [stop_test x _ _ (by omega) e3, decide_eq_true (by omega)]
    refine ⟨b'.take (4 * m), ?_, by rw [List.length_take]; omega, ?_⟩
    · unfold data
      rw [hsz, H.size_eq K, htp, Res.ok_bind, sliceTo, if_pos (by omega)]
    · have := H.wire K
      rw [htp, htp'] at this
      rw [hto, this]

end StreamText

end Midi2
