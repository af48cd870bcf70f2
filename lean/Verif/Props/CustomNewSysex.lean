import Verif.Lemmas.BehindSysex
import Verif.Lemmas.SysexFrame
import Verif.Model.CustomAny
import Verif.Props.CustomNew

/-!
# C62: `new()` of system exclusive messages over buffers that put anything into new words
-/

namespace Midi2

open Sx

theorem field_nibble_zero (w : BitVec 32) {i : Nat} (hi : i < 8) :
    field w (4 * i) 4 = 0 ↔ U32.nibble w i = 0 := by
  rw [← nibble_field w hi]
  exact ⟨fun h => BitVec.eq_of_toNat_eq h, fun h => by rw [h]; rfl⟩

theorem s7_alone {w v : BitVec 32} (h0 : U32.nibble w 0 = 3) :
    (s7.tryFrom [w, v] = .ok [w, v] ∧ s7.payloadList [w, v] = .ok []) ↔
      U32.nibble w 2 = 0 ∧ U32.nibble w 3 = 0 := by
  have hc : chunksExact 2 [w, v] = [[w, v]] := by simp [chunksExact, chunksExactAux]
  have hc' : chunks 2 [w, v] = [[w, v]] := by simp [chunks, chunksAux]
  have key : s7.tryFrom [w, v] = .ok [w, v] ↔
      U32.nibble w 2 = 0 ∧ (U32.nibble w 3).toNat ≤ 6 := by
    simp only [Sx.tryFrom, validateStatuses, validSizes, consistentGroups, Sx.stride, hc, hc', head0,
      Sx.typ, at', List.takeWhile]
    by_cases h2 : U32.nibble w 2 = 0#4 <;> by_cases h3 : 6 < (U32.nibble w 3).toNat
    · simp [h0, h2, h3, Res.check, Res.err_bind]
    · simp [h0, h2, h3, Res.check, Nat.le_of_not_lt h3]
    · simp [h0, h2, h3, Res.check, Res.err_bind]
    · simp [h0, h2, h3, Res.check, Res.err_bind]
  have frame : ∀ n, U32.nibble w 2 = 0 → (U32.nibble w 3).toNat = n → n ≤ 6 →
      Frame s7 [w, v] 1 (fun _ => n) := fun n h2 h3 hn => by
    refine ⟨by decide, Nat.le_refl _, fun j hj => ?_, fun _ _ => hn⟩
    obtain rfl : j = 0 := by omega
    refine ⟨w, rfl, by simp [isLast, h2], ?_⟩
    simp [packetSize, usub, Sx.bias, h3]
  constructor
  · rintro ⟨h1, h2⟩
    obtain ⟨k1, k2⟩ := key.mp h1
    refine ⟨k1, ?_⟩
    rw [(frame _ k1 rfl k2).payloadList_eq, restFrom_lt _ _ _ (by decide)] at h2
    injection h2 with h2
    have := congrArg List.length h2
    rw [List.length_append, length_packetBytes] at this
    apply BitVec.eq_of_toNat_eq
    simp at this ⊢
    omega
  · rintro ⟨h2, h3⟩
    refine ⟨key.mpr ⟨h2, by rw [h3]; decide⟩, ?_⟩
    rw [(frame 0 h2 (by rw [h3]; rfl) (by decide)).payloadList_eq]
    rfl

/-- C62: what `new()` of `Sysex7` makes over a buffer that grows to two words: the type and the group are
written, and the message is valid and empty exactly if the buffer holds zeros in the status and the
size, the second octet of the first word. -/
theorem C62_new_sysex7_exactly (f : Buf .ump → Nat → Buf .ump) (b : Buf .ump) {w v : BitVec 32}
    (hf : f b 2 = [w, v]) :
    ∃ x, s7.newOn f b = .ok [x, v] ∧ field x 0 4 = 3 ∧ field x 4 4 = 0 ∧
      field x 8 24 = field w 8 24 ∧
      ((s7.tryFrom [x, v] = .ok [x, v] ∧ s7.payloadList [x, v] = .ok []) ↔
        field w 8 4 = 0 ∧ field w 12 4 = 0) := by
  have e0 : U32.nibble (U32.setNibble w 0 3#4) 0 = 3#4 :=
    (U32.nibble_setNibble _ 0 0 (by omega) (by omega) _).trans (if_pos rfl)
  have hc : ∀ a : BitVec 32, chunksExact 2 [a, v] = [[a, v]] := fun a => by
    simp [chunksExact, chunksExactAux]
  refine ⟨U32.setNibble (U32.setNibble w 0 3#4) 1 0#4, ?_, ?_, ?_, ?_, ?_⟩
  · simp only [Sx.newOn, Sx.stride, hf, Sx.init, modifyAt, Sx.typ]
    simp [Sx.writeSizes, Sx.setGroup, Sx.onTyped, onChunksExact, Sx.stride, hc, head0, e0, Sx.typ,
      modifyHead0]
  · rw [field_nibble_ne _ _ _ (by omega) (by omega) (by omega)]
    exact field_nibble_same w 0 3 (by omega)
  · exact field_nibble_same _ 1 0 (by omega)
  · rw [field_nibble_ne _ _ _ (by omega) (by omega) (by omega),
      field_nibble_ne _ _ _ (by omega) (by omega) (by omega)]
  · rw [s7_alone ((U32.nibble_setNibble _ 1 0 (by omega) (by omega) _).trans
        ((if_neg (by omega)).trans e0)), ← field_nibble_zero _ (i := 2) (by omega),
      ← field_nibble_zero _ (i := 3) (by omega), field_nibble_ne _ _ _ (by omega) (by omega) (by omega),
      field_nibble_ne _ _ _ (by omega) (by omega) (by omega),
      field_nibble_ne _ _ _ (by omega) (by omega) (by omega),
      field_nibble_ne _ _ _ (by omega) (by omega) (by omega)]

theorem s8_alone {w a b c : BitVec 32} (h0 : U32.nibble w 0 = 5) :
    (s8.tryFrom [w, a, b, c] = .ok [w, a, b, c] ∧ s8.payloadList [w, a, b, c] = .ok []) ↔
      U32.nibble w 2 = 0 ∧ U32.nibble w 3 = 1 := by
  have hc : chunksExact 4 [w, a, b, c] = [[w, a, b, c]] := by simp [chunksExact, chunksExactAux]
  have hc' : chunks 4 [w, a, b, c] = [[w, a, b, c]] := by simp [chunks, chunksAux]
  have key : s8.tryFrom [w, a, b, c] = .ok [w, a, b, c] ↔
      U32.nibble w 2 = 0 ∧ 1 ≤ (U32.nibble w 3).toNat ∧ (U32.nibble w 3).toNat ≤ 14 := by
    simp only [Sx.tryFrom, validateStatuses, validSizes, consistentGroups, validStreamId, Sx.stride, hc,
      hc', head0, Sx.typ, at', List.takeWhile]
    by_cases h2 : U32.nibble w 2 = 0#4 <;> by_cases h3 : 1 ≤ (U32.nibble w 3).toNat <;>
      by_cases h4 : (U32.nibble w 3).toNat ≤ 14 <;>
      simp [h0, h2, h3, h4, Res.check, Res.err_bind]
  have frame : ∀ n, U32.nibble w 2 = 0 → (U32.nibble w 3).toNat = n + 1 → n ≤ 13 →
      Frame s8 [w, a, b, c] 1 (fun _ => n) := fun n h2 h3 hn => by
    refine ⟨by decide, Nat.le_refl _, fun j hj => ?_, fun _ _ => hn⟩
    obtain rfl : j = 0 := by omega
    refine ⟨w, rfl, by simp [isLast, h2], ?_⟩
    simp [packetSize, usub, Sx.bias, h3]
  constructor
  · rintro ⟨h1, h2⟩
    obtain ⟨k1, k2, k3⟩ := key.mp h1
    refine ⟨k1, ?_⟩
    rw [(frame ((U32.nibble w 3).toNat - 1) k1 (by omega) (by omega)).payloadList_eq,
      restFrom_lt _ _ _ (by decide)] at h2
    injection h2 with h2
    have := congrArg List.length h2
    rw [List.length_append, length_packetBytes] at this
    apply BitVec.eq_of_toNat_eq
    simp at this ⊢
    omega
  · rintro ⟨h2, h3⟩
    refine ⟨key.mpr ⟨h2, by rw [h3]; decide⟩, ?_⟩
    rw [(frame 0 h2 (by rw [h3]; rfl) (by decide)).payloadList_eq]
    rfl

/-- C62: what `new()` of `Sysex8` makes over a buffer that grows to four words: the type, the group and
the octet of the first payload byte are written (C26), a size of 0 becomes 1, and the message is
valid and empty exactly if the buffer holds a zero in the status and at most 1 in the size. -/
theorem C62_new_sysex8_exactly (f : Buf .ump → Nat → Buf .ump) (b : Buf .ump) {w w1 w2 w3 : BitVec 32}
    (hf : f b 4 = [w, w1, w2, w3]) :
    ∃ x, s8.newOn f b = .ok [x, w1, w2, w3] ∧ field x 0 4 = 5 ∧ field x 4 4 = 0 ∧
      field x 16 8 = field w 16 8 ∧ field x 24 8 = 0 ∧
      ((s8.tryFrom [x, w1, w2, w3] = .ok [x, w1, w2, w3] ∧
          s8.payloadList [x, w1, w2, w3] = .ok []) ↔
        field w 8 4 = 0 ∧ field w 12 4 ≤ 1) := by
  have e0 : U32.nibble (U32.setNibble w 0 5#4) 0 = 5#4 :=
    (U32.nibble_setNibble _ 0 0 (by omega) (by omega) _).trans (if_pos rfl)
  have hc : ∀ a : BitVec 32, chunksExact 4 [a, w1, w2, w3] = [[a, w1, w2, w3]] := fun a => by
    simp [chunksExact, chunksExactAux]
  generalize hy : U32.setNibble w 0 5#4 = y at e0
  generalize hm : (if U32.nibble y 3 = 0#4 then 1#4 else U32.nibble y 3) = m
  have e1 : U32.nibble (U32.setNibble y 3 m) 0 = 5#4 :=
    (U32.nibble_setNibble _ 3 0 (by omega) (by omega) _).trans ((if_neg (by omega)).trans e0)
  have e2 : U32.nibble (U32.setNibble (U32.setNibble y 3 m) 1 0#4) 0 = 5#4 :=
    (U32.nibble_setNibble _ 1 0 (by omega) (by omega) _).trans ((if_neg (by omega)).trans e1)
  refine ⟨U32.setOctet (U32.setNibble (U32.setNibble y 3 m) 1 0#4) 3 0#8, ?_, ?_, ?_, ?_, ?_, ?_⟩
  · simp only [Sx.newOn, Sx.stride, hf, Sx.init, modifyAt, Sx.typ]
    simp [Sx.writeSizes, Sx.setGroup, Sx.setStreamId, Sx.onTyped, onChunksExact, Sx.stride, hc, head0,
      hy, hm, e0, e1, e2, Sx.typ, modifyHead0]
  · rw [field_octet_ne _ _ _ (by omega) (by omega) (by omega),
      field_nibble_ne _ _ _ (by omega) (by omega) (by omega),
      field_nibble_ne _ _ _ (by omega) (by omega) (by omega), ← hy]
    exact field_nibble_same w 0 5#4 (by omega)
  · rw [field_octet_ne _ _ _ (by omega) (by omega) (by omega)]
    exact field_nibble_same _ 1 0#4 (by omega)
  · rw [field_octet_ne _ _ _ (by omega) (by omega) (by omega),
      field_nibble_ne _ _ _ (by omega) (by omega) (by omega),
      field_nibble_ne _ _ _ (by omega) (by omega) (by omega), ← hy,
      field_nibble_ne _ _ _ (by omega) (by omega) (by omega)]
  · exact field_octet_same _ 3 0#8 (by omega)
  · have n2 : U32.nibble (U32.setOctet (U32.setNibble (U32.setNibble y 3 m) 1 0#4) 3 0#8) 2 =
        U32.nibble w 2 := by
      rw [U32.nibble_setOctet_ne _ _ _ (by omega) (by omega) (by omega),
        U32.nibble_setNibble _ _ _ (by omega) (by omega),
        if_neg (by omega), U32.nibble_setNibble _ _ _ (by omega) (by omega), if_neg (by omega), ← hy,
        U32.nibble_setNibble _ _ _ (by omega) (by omega), if_neg (by omega)]
    have n3 : U32.nibble (U32.setOctet (U32.setNibble (U32.setNibble y 3 m) 1 0#4) 3 0#8) 3 = m := by
      rw [U32.nibble_setOctet_ne _ _ _ (by omega) (by omega) (by omega),
        U32.nibble_setNibble _ _ _ (by omega) (by omega),
        if_neg (by omega), U32.nibble_setNibble _ _ _ (by omega) (by omega), if_pos rfl]
    have hz : ∀ z : BitVec 4, (if z = 0#4 then 1#4 else z) = 1 ↔ z.toNat ≤ 1 := by decide +kernel
    have y3 : U32.nibble y 3 = U32.nibble w 3 := by
      rw [← hy, U32.nibble_setNibble _ _ _ (by omega) (by omega), if_neg (by omega)]
    rw [s8_alone ((U32.nibble_setOctet_ne _ _ _ (by omega) (by omega) (by omega) _).trans e2), n2, n3,
      ← field_nibble_zero _ (i := 2) (by omega), ← hm, y3,
      show field w 12 4 = (U32.nibble w 3).toNat from (nibble_field w (i := 3) (by omega)).symm]
    refine and_congr_right fun _ => ?_
    exact hz _

example : s7.newOn (growAll 0 32) [] = .ok [0x30000000, 0] ∧
    growAll 0 32 [] 2 = [0, 0] ∧ field (0 : BitVec 32) 8 4 = 0 := by
  decide +kernel

theorem field_putNone (w : BitVec 32) {pos width : Nat} (h : pos + width ≤ 10) :
    field (FlexText.putChannel none w) pos width = field w pos width := by
  show field (U32.setNibble (U32.setCrumb w 5 1#2) 3 0#4) pos width = _
  rw [field_nibble_ne _ _ _ (by omega) (by omega) (by omega), U32.setCrumb_eq,
    field_ins_ne _ _ _ (by omega)]

/-- C62: what `new()` of a flex data text message makes over a buffer that grows to four words: the type,
the group and the address are written; the format and the twelve octets of text are what the buffer
held. -/
theorem C62_new_flex_text_exactly (t : FlexText) (f : Buf .ump → Nat → Buf .ump) (b : Buf .ump)
    {w w1 w2 w3 : BitVec 32} (hf : f b 4 = [w, w1, w2, w3]) :
    ∃ x, t.newOn f b = .ok [x, w1, w2, w3] ∧ field x 0 4 = 0xD ∧ field x 4 4 = 0 ∧
      field x 8 2 = field w 8 2 ∧ field x 10 2 = 1 ∧ field x 12 4 = 0 ∧ field x 16 8 = t.bank.toNat ∧
      field x 24 8 = t.status.toNat := by
  have e0 : U32.nibble (U32.setNibble w 0 0xD#4) 0 = 0xD#4 :=
    (U32.nibble_setNibble _ 0 0 (by omega) (by omega) _).trans (if_pos rfl)
  have hc : ∀ a : BitVec 32, chunksExact 4 [a, w1, w2, w3] = [[a, w1, w2, w3]] := fun a => by
    simp [chunksExact, chunksExactAux]
  refine ⟨U32.setOctet (U32.setOctet (FlexText.putChannel none
    (U32.setNibble (U32.setNibble w 0 0xD#4) 1 0#4)) 2 t.bank) 3 t.status, ?_, ?_, ?_, ?_, ?_, ?_, ?_, ?_⟩
  · simp only [FlexText.newOn, hf, FlexText.init, Fld.write32, modifyAt]
    simp [FlexText.setGroup, onChunksExact, hc, head0, e0, modifyHead0, FlexText.setChannel, modifyAt,
      FlexText.writeText, FlexText.writeLoop]
  · rw [field_octet_ne _ _ _ (by omega) (by omega) (by omega),
      field_octet_ne _ _ _ (by omega) (by omega) (by omega),
      field_putNone _ (by omega), field_nibble_ne _ _ _ (by omega) (by omega) (by omega)]
    exact field_nibble_same w 0 0xD#4 (by omega)
  · rw [field_octet_ne _ _ _ (by omega) (by omega) (by omega),
      field_octet_ne _ _ _ (by omega) (by omega) (by omega),
      field_putNone _ (by omega), field_nibble_same _ 1 0#4 (by omega)]
    rfl
  · rw [field_octet_ne _ _ _ (by omega) (by omega) (by omega),
      field_octet_ne _ _ _ (by omega) (by omega) (by omega),
      field_putNone _ (by omega), field_nibble_ne _ _ _ (by omega) (by omega) (by omega),
      field_nibble_ne _ _ _ (by omega) (by omega) (by omega)]
  · rw [field_octet_ne _ _ _ (by omega) (by omega) (by omega),
      field_octet_ne _ _ _ (by omega) (by omega) (by omega)]
    show field (U32.setNibble (U32.setCrumb _ 5 1#2) 3 0#4) 10 2 = 1
    rw [field_nibble_ne _ _ _ (by omega) (by omega) (by omega), U32.setCrumb_eq]
    exact field_ins_same _ 1#2 (pos := 10) (by omega)
  · rw [field_octet_ne _ _ _ (by omega) (by omega) (by omega),
      field_octet_ne _ _ _ (by omega) (by omega) (by omega)]
    exact field_nibble_same _ 3 0#4 (by omega)
  · rw [field_octet_ne _ _ _ (by omega) (by omega) (by omega)]
    exact field_octet_same _ 2 t.bank (by omega)
  · exact field_octet_same _ 3 t.status (by omega)

/-- C62: what `new()` of a stream text message makes over a buffer that grows to four words: the type, the
format and the status are written, and the number of a function block; the octets of the text are
what the buffer held. -/
theorem C62_new_stream_text_exactly {t : StreamText} (ht : t ∈ StreamText.all)
    (f : Buf .ump → Nat → Buf .ump) (b : Buf .ump) {w w1 w2 w3 : BitVec 32}
    (hf : f b 4 = [w, w1, w2, w3]) :
    ∃ x, t.newOn f b = .ok [x, w1, w2, w3] ∧ field x 0 4 = 0xF ∧ field x 4 2 = 0 ∧
      field x 6 10 = t.status.toNat ∧
      field x 16 8 = (if t.offset = 1 then 0 else field w 16 8) ∧ field x 24 8 = field w 24 8 := by
  have hs : ∀ t ∈ StreamText.all, t.status.toNat < 1024 := by decide
  have hs := hs t ht
  have hc : ∀ a : BitVec 32, chunksExact 4 [a, w1, w2, w3] = [[a, w1, w2, w3]] := fun a => by
    simp [chunksExact, chunksExactAux]
  have e1 : U32.nibble (ins (U32.setNibble w 0 0xF#4) 16 (t.status.setWidth 10)) 0 = 0xF#4 := by
    rw [← setStreamStatus_ins hs, nibble_setStreamStatus _ hs,
      U32.nibble_setNibble _ 0 0 (by omega) (by omega), if_pos rfl]
  generalize hy : U32.setCrumb (ins (U32.setNibble w 0 0xF#4) 16 (t.status.setWidth 10)) 2 0#2 = y
  have f1 : ∀ p q, 16 ≤ p → p + q ≤ 32 → field y p q = field w p q := fun p q h1 h2 => by
    rw [← hy, U32.setCrumb_eq, field_ins_ne _ _ _ (by omega), field_ins_ne _ _ _ (by omega),
      field_nibble_ne _ _ _ (by omega) (by omega) (by omega)]
  have f2 : field y 0 4 = 0xF := by
    rw [← hy, U32.setCrumb_eq, field_ins_ne _ _ _ (by omega), field_ins_ne _ _ _ (by omega)]
    exact field_nibble_same w 0 0xF#4 (by omega)
  have f3 : field y 4 2 = 0 := by
    rw [← hy, U32.setCrumb_eq]
    exact field_ins_same _ 0#2 (pos := 4) (by omega)
  have f4 : field y 6 10 = t.status.toNat := by
    rw [← hy, U32.setCrumb_eq, field_ins_ne _ _ _ (by omega)]
    refine (field_ins_same _ (t.status.setWidth 10) (pos := 6) (by omega)).trans ?_
    rw [BitVec.toNat_setWidth]; omega
  refine ⟨if t.offset = 1 then U32.setOctet y 2 0 else y, ?_, ?_⟩
  · simp only [StreamText.newOn, hf, StreamText.init, Fld.write32, modifyAt]
    simp [onChunksExact, hc, head0, modifyHead0, setStreamStatus_ins hs, setFormatFields,
      StreamText.writeText, StreamText.writeLoop, e1, setFormatPackets, hy]
    split <;> simp [StreamText.setBlock, onChunksExact, hc, modifyHead0]
  · split
    · exact ⟨by rw [field_octet_ne _ _ _ (by omega) (by omega) (by omega), f2],
        by rw [field_octet_ne _ _ _ (by omega) (by omega) (by omega), f3],
        by rw [field_octet_ne _ _ _ (by omega) (by omega) (by omega), f4],
        field_octet_same _ 2 0#8 (by omega),
        by rw [field_octet_ne _ _ _ (by omega) (by omega) (by omega), f1 _ _ (by omega) (by omega)]⟩
    · exact ⟨f2, f3, f4, f1 _ _ (by omega) (by omega), f1 _ _ (by omega) (by omega)⟩

example : ∃ x, StreamText.functionBlockName.newOn (growAll 0x41414141 32) [] =
    .ok [x, 0x41414141, 0x41414141, 0x41414141] ∧ field x 16 8 = 0 ∧ field x 24 8 = 0x41 := by
  obtain ⟨x, h1, _, _, _, h2, h3⟩ := C62_new_stream_text_exactly (t := .functionBlockName)
    (by decide) (growAll 0x41414141 32) [] rfl
  exact ⟨x, h1, h2, h3⟩

example : ∃ x, s8.newOn (growAll 0x00010000 32) [] = .ok x ∧ s8.tryFrom x = .ok x ∧
    s8.payloadList x = .ok [] := by
  obtain ⟨x, h1, _, _, _, _, h2⟩ := C62_new_sysex8_exactly (growAll 0x00010000 32) [] rfl
  exact ⟨_, h1, h2.mpr (by decide +kernel)⟩

/-- C62: over a buffer that fills what it adds, `new()` makes messages with contents: a payload of one byte
in a `Sysex7`, of twelve in a `Sysex8`. -/
theorem C62_new_filled_violation :
    Grows (growAll 0x0D014141 32) ∧
    s7.newOn (growAll 0x0D014141 32) [] = .ok [0x30014141, 0x0D014141] ∧
    s7.tryFrom [0x30014141, 0x0D014141] = .ok [0x30014141, 0x0D014141] ∧
    s7.payloadList [0x30014141, 0x0D014141] = .ok [0x41] ∧
    s8.newOn (growAll 0x0D0D4141 32) [] = .ok [0x500D4100, 0x0D0D4141, 0x0D0D4141, 0x0D0D4141] ∧
    s8.payloadList [0x500D4100, 0x0D0D4141, 0x0D0D4141, 0x0D0D4141] =
      .ok [0, 0xD, 0xD, 0x41, 0x41, 0xD, 0xD, 0x41, 0x41, 0xD, 0xD, 0x41] := by
  refine ⟨growFilled_grows _, ?_, ?_, ?_, ?_, ?_⟩ <;> decide +kernel

/-- C62: a text message made by `new()` over a buffer that fills what it adds has a text, and its words are
refused by the parser. -/
theorem C62_new_text_violation :
    Grows (growAll 0x41414141 32) ∧ ∃ t ∈ FlexText.all,
      t.newOn (growAll 0x41414141 32) [] = .ok [0xD0500100, 0x41414141, 0x41414141, 0x41414141] ∧
      FlexText.text [0xD0500100, 0x41414141, 0x41414141, 0x41414141] = .ok "AAAAAAAAAAA" ∧
      t.tryFrom [0xD0500100, 0x41414141, 0x41414141, 0x41414141] = .err .invalidData := by
  refine ⟨growFilled_grows _, FlexText.all[0], by decide, ?_, ?_, ?_⟩ <;> decide +kernel

/-! ## Arrays below the minimum size -/

theorem fixedTryResize_small {w n sz : Nat} (h : n < sz) :
    fixedTryResize (List.replicate n (0 : BitVec w)) sz = .err .bufferOverflow :=
  if_pos (by rw [List.length_replicate]; exact h)

/-- C08: below the minimum size of a message no constructor makes one in an array: `new()` is refused (at
compile time, which the model calls a panic) and `try_new()` returns the overflow error. -/
theorem C08_array_too_small (n : Nat) :
    (∀ k : Sx, n < k.stride → k.newArray n = .panic ∧ k.tryNew n = .err .bufferOverflow) ∧
    (n < 2 → Sxb.newArray n = .panic ∧ Sxb.tryNew n = .err .bufferOverflow) ∧
    (∀ t : FlexText, n < 4 → t.newArray n = .panic ∧ t.tryNew n = .err .bufferOverflow) ∧
    (∀ t : StreamText, n < 4 → t.newArray n = .panic ∧ t.tryNew n = .err .bufferOverflow) ∧
    (∀ (d : MsgDesc) (m : Fmt), n < d.minSize m →
      d.newArray m n = .panic ∧ d.tryNew m n = .err .bufferOverflow) := by
  refine ⟨fun k h => ⟨if_pos h, ?_⟩, fun h => ⟨if_pos h, ?_⟩, fun t h => ⟨if_pos h, ?_⟩,
    fun t h => ⟨if_pos h, ?_⟩, fun d m h => ⟨if_pos h, ?_⟩⟩
  · unfold Sx.tryNew; rw [fixedTryResize_small h]; rfl
  · unfold Sxb.tryNew; rw [fixedTryResize_small h]; rfl
  · unfold FlexText.tryNew; rw [fixedTryResize_small h]; rfl
  · unfold StreamText.tryNew; rw [fixedTryResize_small h]; rfl
  · unfold MsgDesc.tryNew; rw [fixedTryResize_small h]; rfl

example : Sxb.newArray 1 = .panic ∧ Sxb.tryNew 1 = .err .bufferOverflow :=
  (C08_array_too_small 1).2.1 (by decide)

end Midi2
