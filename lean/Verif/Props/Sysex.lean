import Verif.Lemmas.SysexHold
import Verif.Lemmas.SysexAny
import Verif.Lemmas.SysexStream
import Verif.Lemmas.SysexPast

/-!
# C15, C17–C24, C26–C28, C45, C47: system exclusive messages over UMP words

`k : Sx` is `Sysex7` (`.s7`) or `Sysex8` (`.s8`).  `dbg` says whether `debug_assert!` is
compiled in.  `Mem.vec` is a resizable buffer (`Vec`), `Mem.fixed` an array or slice.
-/

namespace Midi2

open Sx

/-! ## C15, C17, C18, C19: `set_payload` on resizable buffers -/

theorem setPayload_holds (k : Sx) (dbg : Bool) {b : Buf .ump} {g : BitVec 4}
    (hg : Sx.group b = .ok g) (d : Src k.Byte) :
    ∃ b', (k.ops dbg .vec).setPayload b d = .ok b' ∧ k.Holds b' g d.items ∧ k.data b' = .ok b' := by
  obtain ⟨b', e, S⟩ := setPayload_vec k dbg (inv_true k) (group_word hg) trivial d
  exact ⟨b', e, S.holds, S.data_self⟩

/-- C15: `set_payload(bytes)` then `payload()` gives the bytes back, whatever the message
held before, whatever the iterator's size hint says, and with or without debug
assertions. -/
theorem C15_sysex7_set_payload (dbg : Bool) (b : Buf .ump) (hb : b ≠ []) (d : Src (BitVec 7)) :
    ∃ b', (Sx.s7.ops dbg .vec).setPayload b d = .ok b' ∧ Sx.s7.payloadList b' = .ok d.items ∧
      Sx.s7.payloadSize b' = .ok d.items.length := by
  obtain ⟨g, hg⟩ := group_total hb
  obtain ⟨b', e, H, _⟩ := setPayload_holds .s7 dbg hg d
  exact ⟨b', e, H.payload, H.size⟩

example : ∃ b', (Sx.s7.ops true .vec).setPayload [0x35160001, 0x02030405, 0x35330607, 0x08000000]
      ⟨[9, 8, 7], 0, none⟩ = .ok b' ∧ Sx.s7.payloadList b' = .ok [9, 8, 7] ∧
    Sx.s7.payloadSize b' = .ok 3 :=
  C15_sysex7_set_payload true _ (List.cons_ne_nil _ _) _

/-- C17: the same for `Sysex8`. -/
theorem C17_sysex8_set_payload (dbg : Bool) (b : Buf .ump) (hb : b ≠ []) (d : Src (BitVec 8)) :
    ∃ b', (Sx.s8.ops dbg .vec).setPayload b d = .ok b' ∧ Sx.s8.payloadList b' = .ok d.items ∧
      Sx.s8.payloadSize b' = .ok d.items.length := by
  obtain ⟨g, hg⟩ := group_total hb
  obtain ⟨b', e, H, _⟩ := setPayload_holds .s8 dbg hg d
  exact ⟨b', e, H.payload, H.size⟩

example : ∃ b', (Sx.s8.ops true .vec).setPayload [0x52010000, 0, 0, 0] ⟨[9, 8, 7], 1, some 40⟩ = .ok b' ∧
    Sx.s8.payloadList b' = .ok [9, 8, 7] ∧ Sx.s8.payloadSize b' = .ok 3 :=
  C17_sysex8_set_payload true _ (List.cons_ne_nil _ _) _

/-- C18: after `set_payload` the whole buffer is the message: the packets of
`sysex7Layout.fill n`, each with type 3, the group, its status and size, and the bytes in
order. -/
theorem C18_sysex7_wire_format (dbg : Bool) (b : Buf .ump) (g : BitVec 4)
    (hg : Sx.group b = .ok g) (d : Src (BitVec 7)) :
    ∃ b', (Sx.s7.ops dbg .vec).setPayload b d = .ok b' ∧ Sx.s7.data b' = .ok b' ∧
      b'.length = 2 * (sysex7Layout.fill d.items.length).length ∧
      sysex7Layout.IsMessage b' g.toNat (sysex7Layout.fill d.items.length) ∧
      sysex7Layout.payload b' (sysex7Layout.fill d.items.length) = d.items.map BitVec.toNat := by
  obtain ⟨b', e, H, hd⟩ := setPayload_holds .s7 dbg hg d
  obtain ⟨x, h1, h2, h3, h4⟩ := H.wire
  rw [hd] at h1
  cases h1
  exact ⟨b', e, hd, h2, h3, h4⟩

example : ∃ b', (Sx.s7.ops true .vec).setPayload [0x35160001, 0x02030405, 0x35330607, 0x08000000]
      ⟨[1, 2, 3, 4, 5, 6, 7], 0, none⟩ = .ok b' ∧ Sx.s7.data b' = .ok b' ∧
    sysex7Layout.payload b' (sysex7Layout.fill 7) = [1, 2, 3, 4, 5, 6, 7] :=
  have ⟨b', h1, h2, _, _, h3⟩ := C18_sysex7_wire_format true
    [0x35160001, 0x02030405, 0x35330607, 0x08000000] 5 (by decide +kernel)
    ⟨[1, 2, 3, 4, 5, 6, 7], 0, none⟩
  ⟨b', h1, h2, h3⟩

/-- C19: the same for `Sysex8` with four-word packets of up to 13 bytes.  The stream id of
the first packet is kept.  What is missing is that the other packets carry it too: see
`C19_stream_id_violation`. -/
theorem C19_sysex8_wire_format_partial (dbg : Bool) (b : Buf .ump) (g : BitVec 4)
    (hg : Sx.group b = .ok g) (d : Src (BitVec 8)) :
    ∃ b', (Sx.s8.ops dbg .vec).setPayload b d = .ok b' ∧ Sx.s8.data b' = .ok b' ∧
      b'.length = 4 * (sysex8Layout.fill d.items.length).length ∧
      sysex8Layout.IsMessage b' g.toNat (sysex8Layout.fill d.items.length) ∧
      sysex8Layout.payload b' (sysex8Layout.fill d.items.length) = d.items.map BitVec.toNat ∧
      fieldAt b' 0 16 8 = fieldAt b 0 16 8 := by
  obtain ⟨w, hw, hwg⟩ := group_word hg
  obtain ⟨b', e, S⟩ := setPayload_vec .s8 dbg (inv_streamId (some (U32.octet w 2))) ⟨w, hw, hwg⟩ (by
    have hb : 0 < b.length := by
      rcases Nat.eq_zero_or_pos b.length with h | h
      · rw [List.getElem?_eq_none (by omega)] at hw; cases hw
      · exact h
    rw [octetAt_vecResize_lt _ _ _ (by omega) (by decide)]
    show (b[0]?).map _ = _
    rw [hw]; rfl) d
  obtain ⟨x, h1, h2, h3, h4⟩ := S.holds.wire
  rw [S.data_self] at h1
  cases h1
  refine ⟨b', e, S.data_self, h2, h3, h4, ?_⟩
  obtain ⟨w', e1, e2⟩ := octetAt_word (i := 0) (r := 2) (by omega) S.whole.inv
  unfold fieldAt
  rw [hw, e1, Option.map_some, Option.map_some, ← octet_field (i := 2) w (by omega),
    ← octet_field (i := 2) w' (by omega), e2]

-- C15/C18: a 14 byte payload into a message holding other packets.
example : (Sx.s7.ops true .vec).setPayload [0x35160001, 0x02030405, 0x35330607, 0x08000000]
      ⟨[1, 2, 3, 4, 5, 6, 7, 8, 9, 10, 11, 12, 13, 14], 0, none⟩ =
    .ok [0x35160102, 0x03040506, 0x35260708, 0x090A0B0C, 0x35320D0E, 0x00000000] := by
  decide +kernel

-- C17/C19: 15 bytes.
example : (Sx.s8.ops true .vec).setPayload [0x52010000, 0, 0, 0]
      ⟨[1, 2, 3, 4, 5, 6, 7, 8, 9, 10, 11, 12, 13, 14, 15], 20, some 20⟩ =
    .ok [0x521E0001, 0x02030405, 0x06070809, 0x0A0B0C0D, 0x5233000E, 0x0F000000, 0, 0] := by
  decide +kernel

/-- C19 fails for stream ids: a message with stream id 5 that grows by `set_payload` gets
packets with stream id 0, and its `data()` is no longer accepted. -/
theorem C19_stream_id_violation :
    ∃ b b' : Buf .ump, ∃ d : Src (BitVec 8), Sx.s8.tryFrom b = .ok b ∧
      fieldAt b 0 16 8 = some 5 ∧ (Sx.s8.ops false .vec).setPayload b d = .ok b' ∧
      fieldAt b' 0 16 8 = some 5 ∧ fieldAt b' 4 16 8 = some 0 ∧
      Sx.s8.data b' = .ok b' ∧ Sx.s8.tryFrom b' = .err .invalidData :=
  ⟨[0x50010500, 0, 0, 0],
    [0x501E0501, 0x02030405, 0x06070809, 0x0A0B0C0D, 0x5032000E, 0, 0, 0],
    ⟨[1, 2, 3, 4, 5, 6, 7, 8, 9, 10, 11, 12, 13, 14], 14, some 14⟩, by decide +kernel⟩

/-! ## C20: `try_set_payload` on fixed-size buffers -/

/-- C20: `try_set_payload` succeeds exactly when the packets fit and then the payload is
the data; otherwise it reports `BufferOverflow` and leaves a valid message with an empty
payload and the same group.  With debug assertions no partly filled packet may lie behind the
first packet (`Tidy`; `C20_debug_exactly` says that this is exactly what is needed). -/
theorem C20_try_set_payload (k : Sx) (dbg : Bool) (b : Buf .ump) (g : BitVec 4)
    (hb : k.layout.words ≤ b.length) (hg : Sx.group b = .ok g)
    (ht : dbg = true → k.layout.Tidy k.layout.words b) (d : Src k.Byte) :
    ∃ b', b'.length = b.length ∧
      ((k.layout.wireLength d.items.length ≤ 4 * b.length ∧
          (k.ops dbg .fixed).trySetPayload b d = .ok (b', none) ∧ k.Holds b' g d.items) ∨
       (4 * b.length < k.layout.wireLength d.items.length ∧
          (k.ops dbg .fixed).trySetPayload b d = .ok (b', some .bufferOverflow) ∧
          k.Holds b' g [])) := by
  rw [words_eq] at hb
  have key := trySetPayload_fixed k (inv_true k) hb (group_word hg) trivial
    (fun e => by have := ht e; rw [words_eq] at this; exact tidyFrom_iff.mpr this) d
  rw [wireLength_eq]
  by_cases hf : k.stride * k.count d.items.length ≤ b.length
  · obtain ⟨b', e, S⟩ := key.1 hf
    exact ⟨b', S.whole.fixed _ rfl, .inl ⟨by omega, e, S.holds⟩⟩
  · obtain ⟨b', e, S⟩ := key.2 (by omega)
    exact ⟨b', S.whole.fixed _ rfl, .inr ⟨by omega, e, S.holds⟩⟩

-- C20: eight bytes fit in four words, 13 do not.
example : (Sx.s7.ops true .fixed).trySetPayload [0x34000000, 0, 0, 0]
      ⟨[1, 2, 3, 4, 5, 6, 7, 8], 8, some 8⟩ =
    .ok ([0x34160102, 0x03040506, 0x34320708, 0], none) := by decide +kernel
example : ((Sx.s7.ops true .fixed).trySetPayload [0x34000000, 0, 0, 0]
      ⟨List.replicate 13 1, 0, none⟩).bind (fun x => .ok (x.2, Sx.s7.payloadList x.1)) =
    .ok (some .bufferOverflow, .ok []) := by decide +kernel

/-- C20 fails in builds with debug assertions when stale packets lie behind the message:
this accepted message panics when its payload is set. -/
theorem C20_debug_assertion_violation :
    ∃ b : Buf .ump, Sx.s7.tryFrom b = .ok b ∧
      (Sx.s7.ops true .fixed).trySetPayload b ⟨[1], 1, some 1⟩ = .panic ∧
      ((Sx.s7.ops false .fixed).trySetPayload b ⟨[1], 1, some 1⟩).isOk = true :=
  ⟨[0x30000000, 0, 0, 0, 0x30110000, 0, 0, 0], by decide +kernel⟩

/-! ## C21: splice, insert and append on resizable buffers -/

/-- C21: `splice_payload(data, range)` is `Vec::splice`, for any size hint, on every
message that can be spliced (`Spliceable`; missing for the others, see the violations
below). -/
theorem C21_splice_partial (k : Sx) (dbg : Bool) (b : Buf .ump) (g : BitVec 4) (sizes : List Nat)
    (M : k.layout.IsMessage b g.toNat sizes) (hs : k.layout.Spliceable dbg false b sizes)
    (l : List k.Byte) (hl : k.payloadList b = .ok l) (d : Src k.Byte) (rb re : Bound)
    (h1 : rb.first ≤ re.last l.length) (h2 : re.last l.length ≤ l.length) :
    ∃ b', (k.ops dbg .vec).splice b d rb re = .ok b' ∧
      k.Holds b' g (spliced l rb.first (re.last l.length) d.items) ∧ k.data b' = .ok b' := by
  obtain ⟨b0, e0, L⟩ := Spliceable.start (inv_true k) (N := none) M hs trivial (by simp) hl
  obtain ⟨b', e, S⟩ := splice_vec k (inv_true k) e0 L d rb re h1 h2
  exact ⟨b', e, S.holds, S.data_self⟩

theorem spliced_insert {α : Type} (l new : List α) (i : Nat) :
    spliced l (Bound.included i).first ((Bound.excluded i).last l.length) new =
      l.take i ++ new ++ l.drop i := rfl

theorem spliced_append {α : Type} (l new : List α) :
    spliced l (Bound.included l.length).first ((Bound.excluded l.length).last l.length) new =
      l ++ new := by
  rw [spliced_insert]; simp

/-- C21: `insert_payload(data, i)`. -/
theorem C21_insert_partial (k : Sx) (dbg : Bool) (b : Buf .ump) (g : BitVec 4) (sizes : List Nat)
    (M : k.layout.IsMessage b g.toNat sizes) (hs : k.layout.Spliceable dbg false b sizes)
    (l : List k.Byte) (hl : k.payloadList b = .ok l) (d : Src k.Byte) (i : Nat)
    (hi : i ≤ l.length) :
    ∃ b', (k.ops dbg .vec).insert b d i = .ok b' ∧
      k.Holds b' g (l.take i ++ d.items ++ l.drop i) ∧ k.data b' = .ok b' :=
  C21_splice_partial k dbg b g sizes M hs l hl d (.included i) (.excluded i)
    (Nat.le_refl i) hi

/-- C21: `append_payload(data)` and `append_byte(v)`. -/
theorem C21_append_partial (k : Sx) (dbg : Bool) (b : Buf .ump) (g : BitVec 4) (sizes : List Nat)
    (M : k.layout.IsMessage b g.toNat sizes) (hs : k.layout.Spliceable dbg false b sizes)
    (l : List k.Byte) (hl : k.payloadList b = .ok l) :
    (∀ d : Src k.Byte, ∃ b', (k.ops dbg .vec).append b d = .ok b' ∧
      k.Holds b' g (l ++ d.items) ∧ k.data b' = .ok b') ∧
    (∀ v : k.Byte, ∃ b', (k.ops dbg .vec).appendByte b v = .ok b' ∧
      k.Holds b' g (l ++ [v]) ∧ k.data b' = .ok b') := by
  have key : ∀ d : Src k.Byte, ∃ b', (k.ops dbg .vec).append b d = .ok b' ∧
      k.Holds b' g (l ++ d.items) ∧ k.data b' = .ok b' := by
    intro d
    obtain ⟨b', e, H, h⟩ := C21_insert_partial k dbg b g sizes M hs l hl d l.length (Nat.le_refl _)
    refine ⟨b', ?_, by simpa using H, h⟩
    have hsz : (k.ops dbg .vec).payloadSize b = .ok l.length := by
      obtain ⟨g', hg, V⟩ := isMessage_valid M
      show k.payloadSize b = _
      rw [V.frame.payloadSize_eq]
      rw [V.frame.payloadList_eq] at hl
      injection hl with hl
      rw [hl]
    unfold SxOps.append
    rw [hsz]
    exact e
  exact ⟨key, fun v => key ⟨[v], 1, some 1⟩⟩

/-- C21: every message whose packets are full but the last and which fills its buffer can
be spliced, with and without debug assertions.  All messages built by the library over
resizable buffers are of this kind. -/
theorem C21_full_messages (k : Sx) (dbg fixed : Bool) (b : Buf .ump) (g : Nat) (sizes : List Nat)
    (M : k.layout.IsMessage b g sizes) (hl : b.length = k.layout.words * sizes.length)
    (hf : ∀ j, j + 1 < sizes.length → sizes[j]? = some k.layout.capacity) :
    k.layout.Spliceable dbg fixed b sizes :=
  ⟨.inl hf, fun _ => behind_of_tidy (tidy_exact M hl hf)⟩

/-- The message of the examples below: eight bytes in two packets of group 0. -/
theorem sampleSysex7 : sysex7Layout.IsMessage [0x30160001, 0x02030405, 0x30320607, 0] 0 [6, 2] := by
  refine ⟨by decide, by decide, by decide, ?_, ?_, ?_, ?_⟩
  · intro j hj; have : j = 0 ∨ j = 1 := by simp at hj; omega
    rcases this with rfl | rfl <;> decide
  · intro j hj; have : j = 0 ∨ j = 1 := by simp at hj; omega
    rcases this with rfl | rfl <;> decide
  · intro j hj; have : j = 0 ∨ j = 1 := by simp at hj; omega
    rcases this with rfl | rfl <;> decide
  · intro j s hj
    match j, hj with
    | 0, hj => cases hj; decide
    | 1, hj => cases hj; decide

theorem sampleSysex7_spliceable (dbg fixed : Bool) :
    sysex7Layout.Spliceable dbg fixed [0x30160001, 0x02030405, 0x30320607, 0] [6, 2] :=
  C21_full_messages .s7 dbg fixed _ 0 [6, 2] sampleSysex7 rfl (fun j hj => by
    have : j = 0 := by simp at hj; omega
    subst this; rfl)

example : ∃ b', (Sx.s7.ops true .vec).splice [0x30160001, 0x02030405, 0x30320607, 0]
      ⟨[0x11, 0x12, 0x13], 0, some 40⟩ (.included 4) (.included 5) = .ok b' ∧
    Sx.s7.Holds b' 0 [0, 1, 2, 3, 0x11, 0x12, 0x13, 6, 7] ∧ Sx.s7.data b' = .ok b' :=
  C21_splice_partial .s7 true _ 0 [6, 2] sampleSysex7 (sampleSysex7_spliceable _ _)
    [0, 1, 2, 3, 4, 5, 6, 7] (by decide +kernel) ⟨[0x11, 0x12, 0x13], 0, some 40⟩ (.included 4)
    (.included 5) (by decide) (by decide)

example : ∃ b', (Sx.s7.ops true .vec).insert [0x30160001, 0x02030405, 0x30320607, 0]
      ⟨[0x11], 0, none⟩ 2 = .ok b' ∧
    Sx.s7.Holds b' 0 [0, 1, 0x11, 2, 3, 4, 5, 6, 7] ∧ Sx.s7.data b' = .ok b' :=
  C21_insert_partial .s7 true _ 0 [6, 2] sampleSysex7 (sampleSysex7_spliceable _ _)
    [0, 1, 2, 3, 4, 5, 6, 7] (by decide +kernel) ⟨[0x11], 0, none⟩ 2 (by decide)

example : ∃ b', (Sx.s7.ops false .vec).appendByte [0x30160001, 0x02030405, 0x30320607, 0] 0x11 = .ok b' ∧
    Sx.s7.Holds b' 0 [0, 1, 2, 3, 4, 5, 6, 7, 0x11] ∧ Sx.s7.data b' = .ok b' :=
  (C21_append_partial .s7 false _ 0 [6, 2] sampleSysex7 (sampleSysex7_spliceable _ _)
    [0, 1, 2, 3, 4, 5, 6, 7] (by decide +kernel)).2 0x11

/-- C21: without debug assertions every `Sysex8` message can be spliced. -/
theorem C21_sysex8_release (fixed : Bool) (b : Buf .ump) (sizes : List Nat) :
    sysex8Layout.Spliceable false fixed b sizes := by
  refine ⟨?_, fun h => by cases h⟩
  by_cases h : ∀ j, j + 1 < sizes.length → sizes[j]? = some sysex8Layout.capacity
  · exact .inl h
  · right
    have : ∃ j, ¬ (j + 1 < sizes.length → sizes[j]? = some sysex8Layout.capacity) :=
      Classical.not_forall.mp h
    obtain ⟨j, hj⟩ := this
    rw [Classical.not_imp] at hj
    obtain ⟨h1, h2⟩ := hj
    have hlt : j < sizes.length := by omega
    refine ⟨j, sizes[j], h1, ?_, List.getElem?_eq_getElem hlt, ?_⟩
    · show 4 * j % 4 = 0
      omega
    · intro e
      exact h2 (by rw [List.getElem?_eq_getElem hlt, e])

-- C21: replace two bytes by three in the middle of a two-packet message.
example : (Sx.s7.ops true .vec).splice [0x30160001, 0x02030405, 0x30320607, 0]
      ⟨[0x11, 0x12, 0x13], 3, some 3⟩ (.included 4) (.included 5) =
    .ok [0x30160001, 0x02031112, 0x30331306, 0x07000000] := by decide +kernel
example : sysex7Layout.IsMessage [0x30160001, 0x02030405, 0x30320607, 0] 0 [6, 2] := by
  refine ⟨by decide, by decide, by decide, ?_, ?_, ?_, ?_⟩
  · intro j hj; have : j = 0 ∨ j = 1 := by simp at hj; omega
    rcases this with rfl | rfl <;> decide
  · intro j hj; have : j = 0 ∨ j = 1 := by simp at hj; omega
    rcases this with rfl | rfl <;> decide
  · intro j hj; have : j = 0 ∨ j = 1 := by simp at hj; omega
    rcases this with rfl | rfl <;> decide
  · intro j s hj
    match j, hj with
    | 0, hj => cases hj; decide
    | 1, hj => cases hj; decide

/-- C21 fails for `Sysex7` messages whose only partly filled packets have an odd index:
they are taken for compact, and this insert of one byte at the front, of an accepted
message, loses and invents bytes. -/
theorem C21_sysex7_odd_packet_violation :
    ∃ (b b' : Buf .ump), Sx.s7.tryFrom b = .ok b ∧
      Sx.s7.payloadList b = .ok [0, 1, 2, 3, 4, 5, 6, 7, 8, 9, 10, 11, 12] ∧
      (Sx.s7.ops false .vec).insert b ⟨[0x7f], 1, some 1⟩ 0 = .ok b' ∧
      Sx.s7.payloadList b' ≠ .ok [0x7f, 0, 1, 2, 3, 4, 5, 6, 7, 8, 9, 10, 11, 12] :=
  ⟨[0x30160001, 0x02030405, 0x30210600, 0, 0x30360708, 0x090A0B0C],
    [0x30167F00, 0x01020304, 0x30260506, 0, 0x30320007, 0],
    by decide +kernel⟩

/-- C21 fails with debug assertions for messages which are not compact. -/
theorem C21_debug_assertion_violation :
    ∃ b : Buf .ump, Sx.s8.tryFrom b = .ok b ∧ Sx.s8.payloadList b = .ok [1, 2, 3] ∧
      (Sx.s8.ops true .vec).splice b ⟨[], 0, some 0⟩ (.included 0) (.excluded 0) = .panic ∧
      ((Sx.s8.ops false .vec).splice b ⟨[], 0, some 0⟩ (.included 0) (.excluded 0)).isOk = true :=
  ⟨[0x50130001, 0x02000000, 0, 0, 0x50220003, 0, 0, 0, 0x50310000, 0, 0, 0], by decide +kernel⟩

/-! ## C22: splice on fixed-size buffers -/

/-- C22: `try_splice_payload` on a buffer of fixed size succeeds exactly when the packets
of the result fit, with `Vec::splice` semantics, and otherwise reports `BufferOverflow`
and leaves an empty payload.  Missing: iterators whose hint is below the number of their
items when the range is not empty and the buffer has no room for twice the items (see the
violation and `C22_low_hint_exactly`), and messages that cannot be spliced (C21). -/
theorem C22_try_splice_partial (k : Sx) (dbg : Bool) (b : Buf .ump) (g : BitVec 4)
    (sizes : List Nat) (M : k.layout.IsMessage b g.toNat sizes)
    (hs : k.layout.Spliceable dbg true b sizes) (l : List k.Byte) (hl : k.payloadList b = .ok l)
    (d : Src k.Byte) (rb re : Bound)
    (h1 : rb.first ≤ re.last l.length) (h2 : re.last l.length ≤ l.length)
    (hh : rb.first = re.last l.length ∨ d.items.length ≤ d.upper.getD d.lower ∨
      k.layout.wireLength (l.length - (re.last l.length - rb.first) + 2 * d.items.length) ≤
        4 * b.length) :
    ∃ b', b'.length = b.length ∧
      ((k.layout.wireLength (spliced l rb.first (re.last l.length) d.items).length ≤ 4 * b.length ∧
          (k.ops dbg .fixed).trySplice b d rb re = .ok (b', none) ∧
          k.Holds b' g (spliced l rb.first (re.last l.length) d.items)) ∨
       (4 * b.length < k.layout.wireLength (spliced l rb.first (re.last l.length) d.items).length ∧
          (k.ops dbg .fixed).trySplice b d rb re = .ok (b', some .bufferOverflow) ∧
          k.Holds b' g [])) := by
  obtain ⟨b0, e0, L⟩ := Spliceable.start (inv_true k) (N := some b.length) M hs trivial
    (by simp) hl
  have hN : k.stride ≤ b.length := by
    have h := M.whole
    rw [words_eq] at h
    have : 0 < sizes.length := by
      cases sizes with
      | nil => exact absurd rfl M.nonempty
      | cons => simp
    have := Nat.mul_le_mul_left k.stride this
    omega
  have he : d.upper.getD d.lower = d.estimate := by
    unfold Src.estimate
    cases d.upper <;> rfl
  rw [he, wireLength_eq] at hh
  have hh : rb.first = re.last l.length ∨ d.items.length ≤ d.estimate ∨
      k.stride * k.count (l.length - (re.last l.length - rb.first) + 2 * d.items.length) ≤ b.length := by
    rcases hh with h | h | h
    · exact .inl h
    · exact .inr (.inl h)
    · exact .inr (.inr (by omega))
  have key := splice_fixed k (inv_true k) hN e0 L d rb re h1 h2 hh
  rw [wireLength_eq]
  by_cases hf : k.stride * k.count (spliced l rb.first (re.last l.length) d.items).length ≤ b.length
  · obtain ⟨b', e, S⟩ := key.1 hf
    exact ⟨b', S.whole.fixed _ rfl, .inl ⟨by omega, e, S.holds⟩⟩
  · obtain ⟨b', e, S⟩ := key.2 (by omega)
    exact ⟨b', S.whole.fixed _ rfl, .inr ⟨by omega, e, S.holds⟩⟩

-- C22: two bytes replaced by three of an iterator that knows nothing, with room for six.
example : (Sx.s7.ops true .fixed).trySplice [0x30160001, 0x02030405, 0x30320607, 0]
      ⟨[0x11, 0x12, 0x13], 0, none⟩ (.included 0) (.excluded 2) =
    .ok ([0x30161112, 0x13020304, 0x30330506, 0x07000000], none) := by decide +kernel
-- C22: a byte more fits into the four words, ten more do not.
example : (Sx.s7.ops true .fixed).trySplice [0x30160001, 0x02030405, 0x30320607, 0]
      ⟨[0x11, 0x12], 2, some 2⟩ (.included 0) (.excluded 1) =
    .ok ([0x30161112, 0x01020304, 0x30330506, 0x07000000], none) := by decide +kernel
example : ((Sx.s7.ops true .fixed).trySplice [0x30160001, 0x02030405, 0x30320607, 0]
      ⟨List.replicate 10 1, 10, some 10⟩ (.included 0) (.excluded 1)).bind
        (fun x => .ok (x.2, Sx.s7.payloadList x.1)) =
    .ok (some .bufferOverflow, .ok []) := by decide +kernel

/-- C22 with any size hint, however wrong: the call does not panic, reports `BufferOverflow`
exactly when the packets of the result do not fit, leaving an empty payload, and otherwise leaves
a payload of the right length which is unchanged before the range.  Missing: what is behind, for
which see `C22_try_splice_partial` and `C22_low_hint_exactly`. -/
theorem C22_any_hint_partial (k : Sx) (dbg : Bool) (b : Buf .ump) (g : BitVec 4)
    (sizes : List Nat) (M : k.layout.IsMessage b g.toNat sizes)
    (hs : k.layout.Spliceable dbg true b sizes) (l : List k.Byte) (hl : k.payloadList b = .ok l)
    (d : Src k.Byte) (rb re : Bound)
    (h1 : rb.first ≤ re.last l.length) (h2 : re.last l.length ≤ l.length) :
    ∃ b', b'.length = b.length ∧
      ((k.layout.wireLength (spliced l rb.first (re.last l.length) d.items).length ≤ 4 * b.length ∧
          (k.ops dbg .fixed).trySplice b d rb re = .ok (b', none) ∧
          ∃ t : List k.Byte, k.Holds b' g (l.take rb.first ++ t) ∧
            (l.take rb.first ++ t).length =
              (spliced l rb.first (re.last l.length) d.items).length) ∨
       (4 * b.length < k.layout.wireLength (spliced l rb.first (re.last l.length) d.items).length ∧
          (k.ops dbg .fixed).trySplice b d rb re = .ok (b', some .bufferOverflow) ∧
          k.Holds b' g [])) := by
  obtain ⟨b0, e0, L⟩ := Spliceable.start (inv_true k) (N := some b.length) M hs trivial
    (by simp) hl
  have hN : k.stride ≤ b.length := by
    have h := M.whole
    rw [words_eq] at h
    have : 0 < sizes.length := by
      cases sizes with
      | nil => exact absurd rfl M.nonempty
      | cons => simp
    have := Nat.mul_le_mul_left k.stride this
    omega
  have key := splice_fixed_any k (inv_true k) hN e0 L d rb re h1 h2
  rw [wireLength_eq]
  by_cases hf : k.stride * k.count (spliced l rb.first (re.last l.length) d.items).length ≤ b.length
  · obtain ⟨b', t, e, ht, S⟩ := key.1 hf
    refine ⟨b', S.whole.fixed _ rfl, .inl ⟨by omega, e, t, S.holds, ?_⟩⟩
    unfold spliced
    simp only [List.length_append, List.length_drop]
    omega
  · obtain ⟨b', e, S⟩ := key.2 (by omega)
    exact ⟨b', S.whole.fixed _ rfl, .inr ⟨by omega, e, S.holds⟩⟩

example : ∃ b', (Sx.s7.ops true .fixed).trySplice [0x30160001, 0x02030405, 0x30320607, 0]
      ⟨List.replicate 9 1, 0, none⟩ (.included 4) (.included 5) = .ok (b', some .bufferOverflow) ∧
    Sx.s7.Holds b' 0 [] := by
  obtain ⟨b', _, h | h⟩ := C22_any_hint_partial .s7 true _ 0 [6, 2] sampleSysex7
    (sampleSysex7_spliceable _ _) [0, 1, 2, 3, 4, 5, 6, 7] (by decide +kernel)
    ⟨List.replicate 9 1, 0, none⟩ (.included 4) (.included 5) (by decide) (by decide)
  · exact absurd h.1 (by decide +kernel)
  · exact ⟨b', h.2⟩

/-- C22 fails for iterators that under-estimate their length when a non-empty range is
replaced near the capacity of the buffer: five bytes replace five, the call reports success
and the payload is garbage. -/
theorem C22_underestimate_violation :
    ∃ b b' : Buf .ump, Sx.s7.tryFrom b = .ok b ∧
      Sx.s7.payloadList b = .ok [0, 1, 2, 3, 4, 5, 6, 7, 8, 9, 10, 11] ∧
      (Sx.s7.ops true .fixed).trySplice b ⟨[0x11, 0x12, 0x13, 0x14, 0x15], 0, none⟩
        (.included 0) (.excluded 5) = .ok (b', none) ∧
      Sx.s7.payloadList b' = .ok [5, 6, 7, 0x14, 0x15, 10, 11, 0, 0, 11, 0, 0] :=
  ⟨[0x30160001, 0x02030405, 0x30360607, 0x08090A0B],
    [0x30160506, 0x0714150A, 0x30360B00, 0x000B0000], by decide +kernel⟩

/-! ## C05, C06, C23: accepted slices -/

theorem check_cases (c : Bool) : Res.check c = .ok () ∨ Res.check c = .err .invalidData := by
  cases c
  · exact .inr rfl
  · exact .inl rfl

theorem validateStatusesLoop_cases (f g : List (BitVec 32) → Bool) :
    ∀ l, validateStatusesLoop f g l = .ok () ∨ validateStatusesLoop f g l = .err .invalidData
  | [] => .inl rfl
  | [p] => by
    unfold validateStatusesLoop
    split
    · exact .inl rfl
    · exact .inr rfl
  | p :: q :: rest => by
    unfold validateStatusesLoop
    split
    · exact validateStatusesLoop_cases f g (q :: rest)
    · exact .inr rfl

theorem validateStatuses_cases (f1 f2 f3 f4 : List (BitVec 32) → Bool) (n : Nat) (t : BitVec 4)
    (b : Buf .ump) : validateStatuses f1 f2 f3 f4 n t b = .ok () ∨
      validateStatuses f1 f2 f3 f4 n t b = .err .invalidData := by
  unfold validateStatuses
  split
  · exact .inr rfl
  · split
    · exact .inl rfl
    · exact .inr rfl
  · split
    · exact validateStatusesLoop_cases _ _ _
    · exact .inr rfl

theorem seq_cases {α : Type} {x : Res Unit} {y : Res α} {a : α}
    (hx : x = .ok () ∨ x = .err .invalidData) (hy : y = .ok a ∨ y = .err .invalidData) :
    (x >>= fun _ => y) = .ok a ∨ (x >>= fun _ => y) = .err .invalidData := by
  rcases hx with rfl | rfl
  · exact hy
  · exact .inr rfl

/-- C05 for sysex: parsing returns the slice or `InvalidData`; it never panics. -/
theorem C05_sysex_total (k : Sx) (b : Buf .ump) :
    k.tryFrom b = .ok b ∨ k.tryFrom b = .err .invalidData := by
  unfold tryFrom
  by_cases hl : b.length < k.stride
  · rw [if_pos hl]; exact .inr rfl
  · rw [if_neg hl]
    have h0 : 0 < b.length := by have := k.stride_pos; omega
    rw [at'_lt h0]
    simp only [Res.ok_bind]
    refine seq_cases (check_cases _) (seq_cases (validateStatuses_cases _ _ _ _ _ _ _)
      (seq_cases (check_cases _) (seq_cases (check_cases _) ?_)))
    cases k with
    | s7 => exact .inl rfl
    | s8 => exact seq_cases (check_cases _) (.inl rfl)

example : Sx.s7.tryFrom [0x30160001, 0x02030405, 0x30320607, 0] =
      .ok [0x30160001, 0x02030405, 0x30320607, 0] ∧
    Sx.s8.tryFrom [0x30160001, 0x02030405] = .err .invalidData := by decide +kernel

/-- C07 for sysex: what the parser accepts. -/
theorem C07_sysex_accepts_exactly (k : Sx) (b : Buf .ump) :
    k.tryFrom b = .ok b ↔ k.layout.Accepts b := Sx.tryFrom_iff k b

-- C07: accepted although the last packet is cut off, and refused for want of an end packet.
example : sysex7Layout.Accepts [0x30160001, 0x02030405, 0x30320607] ∧
    ¬ sysex7Layout.Accepts [0x30160001, 0x02030405, 0x30220607, 0] :=
  ⟨(C07_sysex_accepts_exactly .s7 _).mp (by decide +kernel),
    fun h => absurd ((C07_sysex_accepts_exactly .s7 _).mpr h) (by decide +kernel)⟩

/-- C23: an accepted slice whose last packet is not truncated is a message, and `payload()`
yields the declared bytes of its packets in order, whatever the sizes of the packets; the
rest of the slice does not matter. -/
theorem C23_payload_of_accepted (k : Sx) (b : Buf .ump) (h : k.tryFrom b = .ok b)
    (hu : k.layout.Untruncated b) :
    ∃ g sizes, k.layout.IsMessage b g sizes ∧ sizes.length = (k.layout.run b).length ∧
      ∃ l, k.payloadList b = .ok l ∧ k.payloadSize b = .ok l.length ∧
        l.map BitVec.toNat = k.layout.payload b sizes ∧
        k.data b = .ok (b.take (k.layout.words * sizes.length)) := by
  obtain ⟨g, sizes, M, hlen⟩ := accepts_isMessage ((Sx.tryFrom_iff k b).mp h) hu
  obtain ⟨g', hg, V⟩ := isMessage_valid M
  refine ⟨g, sizes, M, hlen, _, V.frame.payloadList_eq, V.frame.payloadSize_eq, payload_spec V, ?_⟩
  rw [words_eq]
  exact V.frame.data_eq

example : ∃ l, Sx.s7.payloadList [0x30110100, 0, 0x30200000, 0, 0x30320203, 0] = .ok l ∧
    Sx.s7.payloadSize [0x30110100, 0, 0x30200000, 0, 0x30320203, 0] = .ok l.length :=
  have ⟨_, _, _, _, l, h1, h2, _⟩ := C23_payload_of_accepted .s7
    [0x30110100, 0, 0x30200000, 0, 0x30320203, 0] (by decide +kernel)
    (by unfold SysexLayout.Untruncated; decide +kernel)
  ⟨l, h1, h2⟩

/-- C06 for sysex: every accessor of an accepted untruncated slice returns. -/
theorem C06_sysex_reads_partial (k : Sx) (b : Buf .ump) (h : k.tryFrom b = .ok b)
    (hu : k.layout.Untruncated b) :
    (∃ d, k.data b = .ok d) ∧ (∃ l, k.payloadList b = .ok l) ∧ (∃ n, k.payloadSize b = .ok n) ∧
      (∃ g, Sx.group b = .ok g) ∧ ∃ v, Sx.streamId b = .ok v := by
  obtain ⟨g, sizes, M, _, l, h1, h2, _, h3⟩ := C23_payload_of_accepted k b h hu
  have hb : 0 < b.length := by
    have := ((Sx.tryFrom_iff k b).mp h).len
    rw [words_eq] at this
    have := k.stride_pos
    omega
  refine ⟨⟨_, h3⟩, ⟨_, h1⟩, ⟨_, h2⟩, group_total (by intro e; rw [e] at hb; simp at hb), ?_⟩
  unfold streamId
  rw [at'_lt hb]
  exact ⟨_, rfl⟩

-- C23: three packets of 1, 0 and 2 bytes, followed by a packet of another type.
example : Sx.s7.tryFrom [0x30110100, 0, 0x30200000, 0, 0x30320203, 0, 0x10000000, 0] =
    .ok [0x30110100, 0, 0x30200000, 0, 0x30320203, 0, 0x10000000, 0] ∧
    Sx.s7.payloadList [0x30110100, 0, 0x30200000, 0, 0x30320203, 0, 0x10000000, 0] =
      .ok [1, 2, 3] := by decide +kernel

/-- C06 fails for a truncated last packet: these slices are accepted and `data()` and
`payload()` panic. -/
theorem C06_sysex_truncated_violation :
    (∃ b : Buf .ump, Sx.s7.tryFrom b = .ok b ∧ Sx.s7.data b = .panic ∧
      Sx.s7.payloadList b = .panic) ∧
    (∃ b : Buf .ump, Sx.s8.tryFrom b = .ok b ∧ Sx.s8.data b = .panic ∧
      Sx.s8.payloadList b = .panic) :=
  ⟨⟨[0x30160000, 0, 0x30300000], by decide +kernel⟩,
   ⟨[0x501E0000, 0, 0, 0, 0x50310000], by decide +kernel⟩⟩

/-! ## C24: the payload iterator -/

/-- The iterator stands before the given items, or `nth` has returned `None` (`over`). -/
def Sx.Before (k : Sx) (b : Buf .ump) (p : Nat) (sz : Nat → Nat) (it : Sx.It) (l : List k.Byte)
    (over : Bool) : Prop :=
  (over = false ∧ ItOk k b p sz it ∧ k.remaining b p sz it = l) ∨
  (over = true ∧ l = [] ∧ it.cache = 0 ∧ it.packet = b.length / 2)

theorem Sx.Before.next {k : Sx} {b : Buf .ump} {p : Nat} {sz : Nat → Nat} (F : Frame k b p sz)
    {it : Sx.It} {l : List k.Byte} {over : Bool} (h : k.Before b p sz it l over) :
    ∃ it', k.next b it = .ok (l.head?, it') ∧ k.Before b p sz it' l.tail over := by
  rcases h with ⟨ho, I, hr⟩ | ⟨ho, rfl, hc, hp⟩
  · cases l with
    | nil => exact ⟨it, F.next_nil I hr, .inl ⟨ho, I, hr⟩⟩
    | cons v vs =>
      obtain ⟨it', e1, e2, e3⟩ := F.next_cons I hr
      exact ⟨it', e1, .inl ⟨ho, e2, e3⟩⟩
  · refine ⟨it, ?_, .inr ⟨ho, rfl, hc, hp⟩⟩
    unfold Sx.next
    rw [if_pos hc]; rfl

theorem Sx.Before.len {k : Sx} {b : Buf .ump} {p : Nat} {sz : Nat → Nat}
    {it : Sx.It} {l : List k.Byte} {over : Bool} (h : k.Before b p sz it l over) :
    Sx.len it = l.length := by
  rcases h with ⟨_, I, hr⟩ | ⟨_, rfl, hc, hp⟩
  · rw [← hr]; exact I.cache
  · exact hc

/-- The packets behind a message. -/
theorem passes_iff (k : Sx) {b : Buf .ump} {p n : Nat} (hb : k.stride * p ≤ b.length) :
    k.passes (chunksExact k.stride (b.drop (k.stride * p))) n = true ↔ k.layout.Passable b p n := by
  have hs := k.stride_pos
  have hb16 := k.cap_bias
  have hfield : ∀ i, k.stride * (p + i) + k.stride ≤ b.length → ∃ w, b[k.stride * (p + i)]? = some w ∧
      fieldAt b (k.layout.words * (p + i)) 12 4 = some (U32.nibble w 3).toNat := by
    intro i hi
    have hlt : k.stride * (p + i) < b.length := by omega
    refine ⟨b[k.stride * (p + i)], List.getElem?_eq_getElem hlt, ?_⟩
    rw [words_eq, fieldAt_ok hlt, nibble_field _ (i := 3) (by omega)]
  have key : ∀ (m j : Nat), (b.length - k.stride * p) / k.stride - j = m →
      (∀ i', i' < j → fieldAt b (k.layout.words * (p + i')) 12 4 = some k.layout.extra) →
      j ≤ (b.length - k.stride * p) / k.stride →
      (k.passes (chunksExact k.stride (b.drop (k.stride * (p + j)))) n = true ↔
        k.layout.Passable b p n) := by
    intro m
    induction m with
    | zero =>
      intro j hm hprev hj
      have hend : b.length < k.stride * (p + j) + k.stride := by
        have := Nat.lt_mul_div_succ (b.length - k.stride * p) hs
        rw [show (b.length - k.stride * p) / k.stride = j by omega, Nat.mul_add, Nat.mul_one] at this
        rw [Nat.mul_add]
        omega
      rw [chunksExact_short (by rw [List.length_drop]; omega)]
      refine ⟨fun _ i s hi hpr hf => ?_, fun _ => rfl⟩
      left
      rcases Nat.lt_or_ge i j with hlt | hge
      · rw [hprev i hlt] at hf
        exact (Option.some.inj hf).symm
      · have := Nat.mul_le_mul_left k.stride (show p + j ≤ p + i by omega)
        rw [words_eq] at hi
        omega
    | succ m ih =>
      intro j hm hprev hj
      have hle : k.stride * (p + j) + k.stride ≤ b.length := by
        have h1 : k.stride * (j + 1) ≤ k.stride * ((b.length - k.stride * p) / k.stride) :=
          Nat.mul_le_mul_left _ (by omega)
        have h2 := Nat.mul_div_le (b.length - k.stride * p) k.stride
        rw [Nat.mul_add] at h1 ⊢
        omega
      obtain ⟨w, hw, hf⟩ := hfield j hle
      have hchunk : chunksExact k.stride (b.drop (k.stride * (p + j))) =
          (b.drop (k.stride * (p + j))).take k.stride ::
            chunksExact k.stride (b.drop (k.stride * (p + (j + 1)))) := by
        rw [chunksExact_cons hs (by rw [List.length_drop]; omega), List.drop_drop]
        congr 3
      have hpass : ∀ (c : Buf .ump) cs, k.passes (c :: cs) n =
          if (U32.nibble (head0 c) 3).toNat = k.bias then k.passes cs n
          else decide (n = 0 ∧ k.bias ≤ (U32.nibble (head0 c) 3).toNat) := fun _ _ => rfl
      rw [hchunk, hpass, head0_drop_take hs hw]
      by_cases he : (U32.nibble w 3).toNat = k.bias
      · rw [if_pos he]
        refine ih (j + 1) (by omega) (fun i' hi' => ?_) (by omega)
        rcases Nat.lt_or_ge i' j with hlt | hge
        · exact hprev i' hlt
        · have : i' = j := by omega
          subst this
          rw [hf, he, extra_eq]
      · rw [if_neg he]
        constructor
        · intro h i s hi hpr hfs
          have h := of_decide_eq_true h
          rcases Nat.lt_trichotomy i j with hlt | rfl | hgt
          · left
            rw [hprev i hlt] at hfs
            exact (Option.some.inj hfs).symm
          · right
            rw [hf] at hfs
            rw [← Option.some.inj hfs, extra_eq]
            exact h
          · have := hpr j hgt
            rw [hf, extra_eq] at this
            exact absurd (Option.some.inj this) he
        · intro h
          have := h j _ (by rw [words_eq]; exact hle) hprev hf
          rw [extra_eq] at this
          apply decide_eq_true
          rcases this with h | h
          · exact absurd h he
          · exact h
  have := key _ 0 rfl (fun _ h => absurd h (Nat.not_lt_zero _)) (Nat.zero_le _)
  rw [Nat.add_zero] at this
  exact this

theorem Sx.Before.nth_over {k : Sx} {b : Buf .ump} {p : Nat} {sz : Nat → Nat} (F : Frame k b p sz)
    {it : Sx.It} (hc : it.cache = 0) (hp : it.packet = b.length / 2) (n : Nat) :
    (k = .s7 → k.nth b n it = .ok (none, it)) ∧ (k = .s8 → k.nth b n it = .panic) := by
  constructor
  · rintro rfl
    unfold Sx.nth
    have h2 : ¬ b.length < it.packet * s7.stride := by
      rw [hp]; simp only [stride]; omega
    have h3 : chunksExact s7.stride (b.drop (it.packet * s7.stride)) = [] := by
      apply chunksExact_short
      rw [List.length_drop, hp]; simp only [stride]; omega
    rw [if_neg h2, h3]
    simp only [Res.ok_bind, Res.pure_eq]
    rw [← hp, ← hc]
  · rintro rfl
    unfold Sx.nth
    have h1 := F.len
    have h2 := F.pos
    rw [if_pos (by rw [hp]; simp only [stride] at *; omega)]
    rfl

theorem iterator_run {k : Sx} {b : Buf .ump} {p : Nat} {sz : Nat → Nat} (F : Frame k b p sz) :
    ∀ (cs : List ItCall) (it : Sx.It) (l : List k.Byte) (over : Bool), k.Before b p sz it l over →
      (ItCall.Fine k.layout b p cs l over →
        ItCall.execAll k b cs it = .ok (ItCall.applyAll cs l)) ∧
      (¬ ItCall.Fine k.layout b p cs l over → ItCall.execAll k b cs it = .panic) := by
  intro cs
  induction cs with
  | nil => intro it l over _; exact ⟨fun _ => rfl, fun h => absurd trivial h⟩
  | cons c cs ih =>
    intro it l over hB
    have step : ∀ it' over', c.exec k b it = .ok ((c.apply l).1, it') →
        k.Before b p sz it' (c.apply l).2 over' →
        (ItCall.Fine k.layout b p cs (c.apply l).2 over' →
          ItCall.execAll k b (c :: cs) it = .ok (ItCall.applyAll (c :: cs) l)) ∧
        (¬ ItCall.Fine k.layout b p cs (c.apply l).2 over' →
          ItCall.execAll k b (c :: cs) it = .panic) := by
      intro it' over' e1 e2
      have hl := e2.len
      obtain ⟨h1, h2⟩ := ih it' _ over' e2
      constructor
      · intro hf
        show (c.exec k b it >>= fun x => _) = _
        rw [e1]
        simp only [Res.ok_bind]
        rw [h1 hf]
        simp only [Res.ok_bind, Res.pure_eq, ItCall.applyAll, sizeHint]
        rw [hl, show it'.cache = (c.apply l).2.length from hl]
      · intro hf
        show (c.exec k b it >>= fun x => _) = _
        rw [e1]
        simp only [Res.ok_bind]
        rw [h2 hf]
        rfl
    have stop : c.exec k b it = .panic → ItCall.execAll k b (c :: cs) it = .panic := by
      intro e
      show (c.exec k b it >>= fun x => _) = _
      rw [e]; rfl
    cases c with
    | next =>
      obtain ⟨it', e1, e2⟩ := hB.next F
      exact step it' over e1 e2
    | nth n =>
      rcases hB with ⟨rfl, I, hr⟩ | ⟨rfl, rfl, hc, hp⟩
      · rcases Nat.lt_or_ge n l.length with hn | hn
        · obtain ⟨it', e1, e2, e3⟩ := F.nth_some I (n := n) (by rw [hr]; exact hn)
          have e1' : (ItCall.nth n).exec k b it = .ok (((ItCall.nth n).apply l).1, it') := by
            show k.nth b n it = .ok (l[n]?, it')
            rw [e1, List.getElem?_eq_getElem hn]
            simp only [hr]
          have hs := step it' false e1' (.inl ⟨rfl, e2, by rw [e3, hr]; rfl⟩)
          have hd : decide (l.length ≤ n) = false := by simp; omega
          constructor
          · intro h
            have h := h.2
            rw [hd] at h
            exact hs.1 h
          · intro h
            refine hs.2 fun hf => h ⟨fun hc => by omega, ?_⟩
            rw [hd]
            exact hf
        · have hd : decide (l.length ≤ n) = true := by simp [hn]
          have hz : l.drop (n + 1) = [] := List.drop_eq_nil_of_le (by omega)
          have hpast := F.nth_past I (n := n) (by rw [hr]; exact hn)
          rw [hr] at hpast
          by_cases hq : k.layout.Passable b p (n - l.length)
          · obtain ⟨it', e1, e2, e3⟩ := hpast.1 ((passes_iff k F.len).mpr hq)
            have e1' : (ItCall.nth n).exec k b it = .ok (((ItCall.nth n).apply l).1, it') := by
              show k.nth b n it = .ok (l[n]?, it')
              rw [e1, List.getElem?_eq_none hn]
            have hs := step it' true e1' (.inr ⟨rfl, hz, e2, e3⟩)
            constructor
            · intro h
              have h := h.2
              rw [hd] at h
              exact hs.1 h
            · intro h
              refine hs.2 fun hf => h ⟨fun _ => hq, ?_⟩
              rw [hd]
              exact hf
          · constructor
            · intro h
              exact absurd (h.1 hn) hq
            · intro _
              apply stop
              refine hpast.2 ?_
              rw [← Bool.not_eq_true, passes_iff k F.len]
              exact hq
      · have ho := Sx.Before.nth_over F hc hp n
        cases k with
        | s7 =>
          have hs := step it true (ho.1 rfl) (.inr ⟨rfl, by simp [ItCall.apply], hc, hp⟩)
          exact ⟨fun h => hs.1 (by simpa [ItCall.apply] using h.2),
            fun h => hs.2 fun hf => h ⟨rfl, by simpa [ItCall.apply] using hf⟩⟩
        | s8 =>
          exact ⟨fun h => absurd h.1 (by decide), fun _ => stop (ho.2 rfl)⟩

/-- C24: any interleaving of `next` and `nth` calls on the payload of a message, whatever lies
behind it, returns what the same calls on the list of payload bytes return, and `len()` and
`size_hint()` are exact after every call, or it panics; it panics exactly when `nth` runs into
the packets behind the message, or, for `Sysex8`, is called again after it has returned
`None`. -/
theorem C24_iterator_exactly (k : Sx) (b : Buf .ump) (g : Nat) (sizes : List Nat)
    (M : k.layout.IsMessage b g sizes) (cs : List ItCall) :
    ∃ it l, k.payload b = .ok it ∧ k.payloadList b = .ok l ∧ Sx.len it = l.length ∧
      (ItCall.Fine k.layout b sizes.length cs l false →
        ItCall.execAll k b cs it = .ok (ItCall.applyAll cs l)) ∧
      (¬ ItCall.Fine k.layout b sizes.length cs l false → ItCall.execAll k b cs it = .panic) := by
  obtain ⟨g', _, V⟩ := isMessage_valid M
  exact ⟨_, _, V.frame.payload_eq, V.frame.payloadList_eq, rfl,
    iterator_run V.frame cs _ _ false (.inl ⟨rfl, V.frame.start, by simp [remaining]⟩)⟩

/-- A message which fills its buffer. -/
theorem passable_of_exact {L : SysexLayout} {b : List (BitVec 32)} {p : Nat} (hw : 0 < L.words)
    (hex : b.length = L.words * p) (n : Nat) : L.Passable b p n := by
  intro i s hi
  rw [hex, Nat.mul_add] at hi
  omega

/-- C24 for `Sysex7`: on a buffer which the message fills, any interleaving of `next` and
`nth` calls returns what the same calls on the list of payload bytes return, and `len()`
and `size_hint()` are exact after every call.  (Missing: buffers with words behind the
message, see `C24_iterator_exactly`.) -/
theorem C24_sysex7_iterator_partial (b : Buf .ump) (g : Nat) (sizes : List Nat)
    (M : sysex7Layout.IsMessage b g sizes) (hex : b.length = 2 * sizes.length)
    (cs : List ItCall) :
    ∃ it l, Sx.s7.payload b = .ok it ∧ Sx.s7.payloadList b = .ok l ∧ Sx.len it = l.length ∧
      ItCall.execAll .s7 b cs it = .ok (ItCall.applyAll cs l) := by
  obtain ⟨it, l, h1, h2, h3, h4, -⟩ := C24_iterator_exactly .s7 b g sizes M cs
  refine ⟨it, l, h1, h2, h3, h4 ?_⟩
  have hp := passable_of_exact (L := sysex7Layout) (b := b) (p := sizes.length) (by decide) hex
  have key : ∀ (cs : List ItCall) (l : List (BitVec 7)) (over : Bool),
      ItCall.Fine sysex7Layout b sizes.length cs l over := by
    intro cs
    induction cs with
    | nil => intro l over; trivial
    | cons c cs ih =>
      intro l over
      cases c with
      | next => exact ih _ _
      | nth n =>
        cases over
        · exact ⟨fun _ => hp _, ih _ _⟩
        · exact ⟨rfl, ih _ _⟩
  exact key cs l false

example : ∃ it l, Sx.s7.payload [0x30160001, 0x02030405, 0x30320607, 0] = .ok it ∧
    Sx.s7.payloadList [0x30160001, 0x02030405, 0x30320607, 0] = .ok l ∧ Sx.len it = l.length ∧
    ItCall.execAll .s7 [0x30160001, 0x02030405, 0x30320607, 0] [.nth 6, .next, .next] it =
      .ok (ItCall.applyAll [.nth 6, .next, .next] l) :=
  C24_sysex7_iterator_partial _ 0 [6, 2] sampleSysex7 rfl _

/-- C24 for `Sysex8`, for call sequences without an `nth` after an `nth` that returned
`None` (such a call panics, see `C24_iterator_exactly`). -/
theorem C24_sysex8_iterator_partial (b : Buf .ump) (g : Nat) (sizes : List Nat)
    (M : sysex8Layout.IsMessage b g sizes) (hex : b.length = 4 * sizes.length)
    (cs : List ItCall) :
    ∃ it l, Sx.s8.payload b = .ok it ∧ Sx.s8.payloadList b = .ok l ∧ Sx.len it = l.length ∧
      (ItCall.StopsAtNone cs l → ItCall.execAll .s8 b cs it = .ok (ItCall.applyAll cs l)) := by
  obtain ⟨it, l, h1, h2, h3, h4, -⟩ := C24_iterator_exactly .s8 b g sizes M cs
  refine ⟨it, l, h1, h2, h3, fun h => h4 ?_⟩
  have hp := passable_of_exact (L := sysex8Layout) (b := b) (p := sizes.length) (by decide) hex
  have nexts : ∀ (cs : List ItCall) (l : List (BitVec 8)) (over : Bool), (∀ m, ItCall.nth m ∉ cs) →
      ItCall.Fine sysex8Layout b sizes.length cs l over := by
    intro cs
    induction cs with
    | nil => intro l over _; trivial
    | cons c cs ih =>
      intro l over hn
      cases c with
      | next => exact ih _ _ fun m hm => hn m (List.mem_cons_of_mem _ hm)
      | nth n => exact absurd List.mem_cons_self (hn n)
  have key : ∀ (cs : List ItCall) (l : List (BitVec 8)), ItCall.StopsAtNone cs l →
      ItCall.Fine sysex8Layout b sizes.length cs l false := by
    intro cs
    induction cs with
    | nil => intro l _; trivial
    | cons c cs ih =>
      intro l hs
      cases c with
      | next => exact ih _ hs
      | nth n =>
        refine ⟨fun _ => hp _, ?_⟩
        by_cases hl : l.length ≤ n
        · exact nexts _ _ _ (hs.1 hl)
        · rw [show decide (l.length ≤ n) = false by simp; omega]
          exact ih _ hs.2
  exact key cs l h

/-- Two bytes in one packet with stream id 7. -/
theorem sampleSysex8 : sysex8Layout.IsMessage [0x50030701, 0x02000000, 0, 0] 0 [2] := by
  refine ⟨by decide, by decide, by decide, ?_, ?_, ?_, ?_⟩
  · intro j hj; have : j = 0 := by simp at hj; omega
    subst this; decide
  · intro j hj; have : j = 0 := by simp at hj; omega
    subst this; decide
  · intro j hj; have : j = 0 := by simp at hj; omega
    subst this; decide
  · intro j s hj
    match j, hj with
    | 0, hj => cases hj; decide

theorem sampleSysex8_spliceable (dbg fixed : Bool) :
    sysex8Layout.Spliceable dbg fixed [0x50030701, 0x02000000, 0, 0] [2] :=
  C21_full_messages .s8 dbg fixed _ 0 [2] sampleSysex8 rfl (fun j hj => by simp at hj)

example : ∃ it l, Sx.s8.payload [0x50030701, 0x02000000, 0, 0] = .ok it ∧
    Sx.s8.payloadList [0x50030701, 0x02000000, 0, 0] = .ok l ∧ Sx.len it = l.length ∧
    (ItCall.StopsAtNone [.nth 1, .next] l →
      ItCall.execAll .s8 [0x50030701, 0x02000000, 0, 0] [.nth 1, .next] it =
        .ok (ItCall.applyAll [.nth 1, .next] l)) :=
  C24_sysex8_iterator_partial _ 0 [2] sampleSysex8 rfl _

/-- C24: `next` alone is right on every message, also with words behind it. -/
theorem C24_next_only (k : Sx) (b : Buf .ump) (g : Nat) (sizes : List Nat)
    (M : k.layout.IsMessage b g sizes) (n : Nat) :
    ∃ it l, k.payload b = .ok it ∧ k.payloadList b = .ok l ∧ Sx.len it = l.length ∧
      ItCall.execAll k b (List.replicate n .next) it =
        .ok (ItCall.applyAll (List.replicate n .next) l) := by
  obtain ⟨it, l, h1, h2, h3, h4, -⟩ := C24_iterator_exactly k b g sizes M (List.replicate n .next)
  refine ⟨it, l, h1, h2, h3, h4 ?_⟩
  clear h2 h3 h4
  induction n generalizing l with
  | zero => trivial
  | succ n ih => exact ih _

-- C24: `nth(2)` on one byte, where packets of one and of no bytes lie behind the message.
example : ¬ ItCall.Fine sysex7Layout [0x30010100, 0, 0x10000000, 0, 0x10060000, 0] 1 [.nth 2]
      [(1 : BitVec 7)] false ∧
    ItCall.Fine sysex7Layout [0x30010100, 0, 0x10000000, 0, 0x10060000, 0] 1 [.nth 1, .nth 2]
      [(1 : BitVec 7)] false := by
  constructor
  · intro h
    have := h.1 (by decide) 1 6 (by decide) (fun i' hi' => by
      have : i' = 0 := by omega
      subst this; decide) (by decide)
    revert this; decide
  · refine ⟨fun _ i s hi hpr hf => ?_, rfl, trivial⟩
    exact .inr ⟨rfl, Nat.zero_le _⟩

-- C24: `nth(1)`, `next`, `nth(5)`, `next` on nine bytes in packets of 6, 0 and 3.
example : (Sx.s7.payload [0x30160001, 0x02030405, 0x30200000, 0, 0x30330607, 0x08000000]).bind
      (ItCall.execAll .s7 [0x30160001, 0x02030405, 0x30200000, 0, 0x30330607, 0x08000000]
        [.nth 1, .next, .nth 3, .nth 7, .next]) =
    .ok [(some 1, 7, 7, some 7), (some 2, 6, 6, some 6), (some 6, 2, 2, some 2),
      (none, 0, 0, some 0), (none, 0, 0, some 0)] := by decide +kernel

/-- C24 fails: `nth` past the end, called twice on a `Sysex8` payload, panics; and with
words behind the message one such call panics, for both kinds. -/
theorem C24_nth_violation :
    (∃ (b : Buf .ump) (it : Sx.It), Sx.s8.tryFrom b = .ok b ∧ List.length b = 4 ∧ Sx.s8.payload b = .ok it ∧
      ItCall.execAll .s8 b [.nth 1] it = .ok [(none, 0, 0, some 0)] ∧
      ItCall.execAll .s8 b [.nth 1, .nth 0] it = .panic) ∧
    (∃ (b : Buf .ump) (it : Sx.It), Sx.s7.tryFrom b = .ok b ∧ Sx.s7.payload b = .ok it ∧
      ItCall.execAll .s7 b [.nth 7] it = .panic) ∧
    (∃ (b : Buf .ump) (it : Sx.It), Sx.s8.tryFrom b = .ok b ∧ Sx.s8.payload b = .ok it ∧
      ItCall.execAll .s8 b [.nth 2] it = .panic) :=
  ⟨⟨[0x50020001, 0, 0, 0], ⟨0, 0, 1⟩, by decide +kernel, rfl, by decide +kernel,
    by decide +kernel, by decide +kernel⟩,
   ⟨[0x30010100, 0, 0x10060000, 0], ⟨0, 0, 1⟩, by decide +kernel⟩,
   ⟨[0x50020001, 0, 0, 0, 0x10020000, 0, 0, 0], ⟨0, 0, 1⟩, by decide +kernel⟩⟩

/-! ## C26: stream id -/

theorem streamId_setStreamId (b : Buf .ump) (v : BitVec 8) :
    Sx.streamId (Sx.setStreamId b v) = Sx.streamId b := by
  have key : (Sx.setStreamId b v)[0]?.map (U32.octet · 2) = b[0]?.map (U32.octet · 2) := by
    unfold Sx.setStreamId
    rw [onTyped_eq, onHeads_getElem? (by decide)]
    split
    · rw [Option.map_map]
      congr 1
      funext w
      exact U32.octet_setOctet w 3 2 (by omega) (by omega) v
    · rfl
  have e : ∀ c : Buf .ump, Sx.streamId c = match c[0]?.map (U32.octet · 2) with
      | some v => .ok v
      | none => .panic := by
    intro c
    unfold Sx.streamId at'
    cases c[0]? <;> rfl
  rw [e, e, key]

/-- C26 is violated: `set_stream_id(v)` never changes what `stream_id()` returns, so it
reads back `v` only where it was `v` before. -/
theorem C26_set_stream_id_partial (b : Buf .ump) (v : BitVec 8) :
    Sx.streamId (Sx.setStreamId b v) = .ok v ↔ Sx.streamId b = .ok v := by
  rw [streamId_setStreamId]

-- C26: the first payload byte is written, the stream id stays 7.
example : Sx.setStreamId [0x50030701, 0x02000000, 0, 0] 9 = [0x50030709, 0x02000000, 0, 0] ∧
    Sx.streamId [0x50030709, 0x02000000, 0, 0] = .ok 7 := by decide +kernel

/-- C26 is violated: on this accepted message `set_stream_id(7)` leaves the stream id and
overwrites the first byte of the payload. -/
theorem C26_violation :
    ∃ b : Buf .ump, Sx.s8.tryFrom b = .ok b ∧ Sx.streamId (Sx.setStreamId b 7) = .ok 0 ∧
      Sx.s8.payloadList b = .ok [1, 2] ∧ Sx.s8.payloadList (Sx.setStreamId b 7) = .ok [7, 2] :=
  ⟨[0x50030001, 0x02000000, 0, 0], by decide +kernel⟩

/-- C26: what `set_stream_id(v)` really does to a message: it replaces the first payload byte of
every packet which has one, and leaves the stream id of every packet, the group, the sizes of the
packets and whether the slice is accepted. -/
theorem C26_set_stream_id_exactly (b : Buf .ump) (g : Nat) (sizes : List Nat)
    (M : sysex8Layout.IsMessage b g sizes) (v : BitVec 8) :
    (∃ l, Sx.s8.payloadList (Sx.setStreamId b v) = .ok l ∧ l.map BitVec.toNat =
      (sizes.zipIdx.map fun (s, j) => (sysex8Layout.packetBytes b j s).set 0 v.toNat).flatten) ∧
    (∀ j, j < sizes.length →
      fieldAt (Sx.setStreamId b v) (4 * j) 16 8 = fieldAt b (4 * j) 16 8) ∧
    sysex8Layout.IsMessage (Sx.setStreamId b v) g sizes ∧
    (Sx.setStreamId b v).length = b.length ∧
    (Sx.s8.tryFrom b = .ok b →
      Sx.s8.tryFrom (Sx.setStreamId b v) = .ok (Sx.setStreamId b v)) := by
  have M' := isMessage_setStreamId M v
  refine ⟨?_, fun j _ => fieldAt_setStreamId b v _ _ _ (by omega), M', setStreamId_length b v, ?_⟩
  · obtain ⟨g', _, V⟩ := isMessage_valid (k := .s8) M'
    refine ⟨_, V.frame.payloadList_eq, ?_⟩
    rw [← payload_take .s8 M' _ V.frame.payloadList_eq]
    exact payload_setStreamId M v
  · intro h
    rw [Sx.tryFrom_iff] at h ⊢
    exact accepts_setStreamId h v

-- C26: packets of 13, 0 and 2 bytes.
example : Sx.s8.payloadList (Sx.setStreamId [0x501E0501, 0x02030405, 0x06070809, 0x0A0B0C0D,
      0x50210500, 0, 0, 0, 0x5033050E, 0x0F000000, 0, 0] 0xFF) =
    .ok [0xFF, 2, 3, 4, 5, 6, 7, 8, 9, 10, 11, 12, 13, 0xFF, 15] := by decide +kernel

/-! ## C27, C28: group -/

/-- C27: `set_group(g)` sets the group of every packet of the message, keeps the sizes of
the packets and the payload, and keeps the slice acceptable. -/
theorem C27_set_group (k : Sx) (b : Buf .ump) (g : Nat) (sizes : List Nat)
    (M : k.layout.IsMessage b g sizes) (g' : BitVec 4) :
    Sx.group (k.setGroup b g') = .ok g' ∧ k.layout.IsMessage (k.setGroup b g') g'.toNat sizes ∧
      k.payloadList (k.setGroup b g') = k.payloadList b ∧
      (k.setGroup b g').length = b.length ∧
      (k.tryFrom b = .ok b → k.tryFrom (k.setGroup b g') = .ok (k.setGroup b g')) := by
  obtain ⟨g0, _, V⟩ := isMessage_valid M
  have V' := V.setGroup g'
  refine ⟨?_, ?_, ?_, setGroup_length k b g', ?_⟩
  · obtain ⟨w, e1, _, e3, _⟩ := V'.word V'.pos
    unfold Sx.group at'
    rw [Nat.mul_zero] at e1
    rw [e1]
    simp only [Res.ok_bind, Res.pure_eq, e3]
  · have := valid_iff.mp V'
    have e : (List.range sizes.length).map (fun j => sizes.getD j 0) = sizes := by
      apply List.ext_getElem
      · simp
      · intro i h1 h2
        simp [List.getElem?_eq_getElem h2]
    rwa [e] at this
  · rw [V'.frame.payloadList_eq, V.frame.payloadList_eq]
    exact congrArg Res.ok (V.setGroup_payload g')
  · intro h
    rw [Sx.tryFrom_iff] at h ⊢
    exact accepts_setGroup k h g'

-- C27: a two-packet message.
example : Sx.s7.setGroup [0x30160001, 0x02030405, 0x30320607, 0, 0x20000000] 0xB =
    [0x3B160001, 0x02030405, 0x3B320607, 0, 0x20000000] := by decide +kernel

/-- C28: every splice on a resizable buffer keeps `group()`, in all packets (`Holds`), and
`stream_id()`.  Missing: the stream id of packets other than the first, see
`C19_stream_id_violation`. -/
theorem C28_splice_keeps_group_partial (k : Sx) (dbg : Bool) (b : Buf .ump) (g : BitVec 4)
    (sizes : List Nat) (M : k.layout.IsMessage b g.toNat sizes)
    (hs : k.layout.Spliceable dbg false b sizes)
    (l : List k.Byte) (hl : k.payloadList b = .ok l) (d : Src k.Byte) (rb re : Bound)
    (h1 : rb.first ≤ re.last l.length) (h2 : re.last l.length ≤ l.length) :
    ∃ b', (k.ops dbg .vec).splice b d rb re = .ok b' ∧ Sx.group b' = Sx.group b ∧
      (∃ sizes', k.layout.IsMessage b' g.toNat sizes') ∧
      (k = .s8 → Sx.streamId b' = Sx.streamId b) := by
  have hg : Sx.group b = .ok g := by
    obtain ⟨g0, h0, V⟩ := isMessage_valid M
    have : g0 = g := BitVec.eq_of_toNat_eq h0
    subst this
    obtain ⟨w, e1, _, e3, _⟩ := V.word V.pos
    unfold Sx.group at'
    rw [Nat.mul_zero] at e1
    rw [e1]
    simp only [Res.ok_bind, Res.pure_eq, e3]
  cases k with
  | s7 =>
    obtain ⟨b', e, H, hd⟩ := C21_splice_partial .s7 dbg b g sizes M hs l hl d rb re h1 h2
    obtain ⟨x, w1, _, w3, _⟩ := H.wire
    rw [hd] at w1
    cases w1
    exact ⟨b', e, by rw [hg, H.group], ⟨_, w3⟩, fun h => by cases h⟩
  | s8 =>
    obtain ⟨b0, e0, L⟩ := Spliceable.start (inv_streamId (octetAt b 2)) (N := none) M hs rfl (by simp) hl
    obtain ⟨b', e, S⟩ := splice_vec .s8 (inv_streamId _) e0 L d rb re h1 h2
    obtain ⟨x, w1, _, w3, _⟩ := S.holds.wire
    rw [S.data_self] at w1
    cases w1
    refine ⟨b', e, by rw [hg, S.holds.group], ⟨_, w3⟩, fun _ => ?_⟩
    have hi := S.whole.inv
    obtain ⟨w, hw, _⟩ := group_word hg
    obtain ⟨w', hw', _⟩ := group_word S.holds.group
    have a1 := octetAt_head b 0 2 (by omega)
    have a2 := octetAt_head b' 0 2 (by omega)
    rw [hw] at a1
    rw [hw'] at a2
    rw [show 4 * 0 + 2 = 2 from rfl] at a1 a2
    rw [a1, a2] at hi
    simp only [Option.map_some, Option.some.injEq] at hi
    unfold streamId at'
    rw [hw, hw']
    simp only [Res.ok_bind, Res.pure_eq, hi]

example : ∃ b', (Sx.s7.ops true .vec).splice [0x30160001, 0x02030405, 0x30320607, 0]
      ⟨[0x11], 9, none⟩ (.included 0) (.included 5) = .ok b' ∧
    Sx.group b' = Sx.group [0x30160001, 0x02030405, 0x30320607, 0] :=
  have ⟨b', h1, h2, _⟩ := C28_splice_keeps_group_partial .s7 true _ 0 [6, 2] sampleSysex7
    (sampleSysex7_spliceable _ _) [0, 1, 2, 3, 4, 5, 6, 7] (by decide +kernel) ⟨[0x11], 9, none⟩
    (.included 0) (.included 5) (by decide) (by decide)
  ⟨b', h1, h2⟩

/-! ## C45: single bytes -/

/-- C45: `set_payload_byte(i, v)` changes exactly byte `i` of the payload, on every message
(compact or not), and no header. -/
theorem C45_set_payload_byte (k : Sx) (b : Buf .ump) (g : Nat) (sizes : List Nat)
    (M : k.layout.IsMessage b g sizes) (l : List k.Byte) (hl : k.payloadList b = .ok l)
    (i : Nat) (hi : i < l.length) (v : k.Byte) :
    ∃ b', k.setByte b v i = .ok b' ∧ k.payloadList b' = .ok (l.set i v) ∧
      b'.length = b.length ∧ k.layout.IsMessage b' g sizes := by
  obtain ⟨g0, h0, V⟩ := isMessage_valid M
  have hv : V.payload = l := by
    rw [V.frame.payloadList_eq] at hl
    injection hl
  obtain ⟨b', e1, e2, e3, _⟩ := V.setByte v (by rw [hv]; exact hi)
  have V' := e2.valid V
  refine ⟨b', e1, ?_, e2.1, ?_⟩
  · rw [V'.frame.payloadList_eq, e3, hv]
  · have := valid_iff.mp V'
    have e : (List.range sizes.length).map (fun j => sizes.getD j 0) = sizes := by
      apply List.ext_getElem
      · simp
      · intro i h1 h2
        simp [List.getElem?_eq_getElem h2]
    rw [e, h0] at this
    exact this

-- C45: byte 7 of packets of 6, 0 and 3 bytes.
example : Sx.s7.setByte [0x30160001, 0x02030405, 0x30200000, 0, 0x30330607, 0x08000000] 0x55 7 =
    .ok [0x30160001, 0x02030405, 0x30200000, 0, 0x30330655, 0x08000000] := by decide +kernel

/-- C45: with an index behind the payload `set_payload_byte` leaves the message alone and takes
what lies behind it for the rest of its packets. -/
theorem C45_past_end_exactly (k : Sx) (b : Buf .ump) (g : Nat) (sizes : List Nat)
    (M : k.layout.IsMessage b g sizes) (l : List k.Byte) (hl : k.payloadList b = .ok l)
    (i : Nat) (hi : l.length ≤ i) (v : k.Byte) :
    k.setByte b v i =
      k.setByte (b.drop (k.layout.words * sizes.length)) v (i - l.length) >>= fun c =>
        .ok (b.take (k.layout.words * sizes.length) ++ c) := by
  obtain ⟨g0, h0, V⟩ := isMessage_valid M
  have hv : V.payload = l := by
    rw [V.frame.payloadList_eq] at hl
    injection hl
  have := V.setByte_past v (by rw [hv]; exact hi)
  rw [hv] at this
  rw [words_eq]
  exact this

example : Sx.s7.setByte [0x30160001, 0x02030405, 0x30320607, 0] 0x55 8 = .panic := by
  rw [C45_past_end_exactly .s7 _ 0 [6, 2] sampleSysex7 [0, 1, 2, 3, 4, 5, 6, 7] (by decide +kernel) 8
    (by decide)]
  decide +kernel

/-- C45: where nothing lies behind the message such an index panics. -/
theorem C45_past_end_panics (k : Sx) (b : Buf .ump) (g : Nat) (sizes : List Nat)
    (M : k.layout.IsMessage b g sizes) (hb : b.length = k.layout.words * sizes.length)
    (l : List k.Byte) (hl : k.payloadList b = .ok l) (i : Nat) (hi : l.length ≤ i) (v : k.Byte) :
    k.setByte b v i = .panic := by
  rw [C45_past_end_exactly k b g sizes M l hl i hi v, List.drop_eq_nil_of_le (by omega)]
  rfl

-- C45: byte 3 of a message of two bytes, in front of another message.
example : Sx.s7.setByte [0x30020102, 0, 0x30031112, 0x13000000] 0x55 3 =
    .ok [0x30020102, 0, 0x30031155, 0x13000000] := by decide +kernel
example : Sx.s7.setByte [0x30020102, 0] 0x55 2 = .panic := by decide +kernel

/-! ## C47: histories -/

theorem exec_strict {k : Sx} {dbg : Bool} {b : Buf .ump} {g : BitVec 4} {l : List k.Byte}
    (S : Strict k dbg (ZeroId k) g none b l) (c : SxCall k) (hr : c.InRange l) :
    ∃ b', c.exec dbg b = .ok b' ∧
      Strict k dbg (ZeroId k) (c.apply (g, l)).1 none b' (c.apply (g, l)).2 := by
  have hI := inv_zeroId k (fixed := false)
  obtain ⟨b0, c1, c2⟩ := Loose.compact hI (N := none) ⟨⟨_, S.packed⟩, S.whole⟩
  have hsplice : ∀ (d : Src k.Byte) (rb re : Bound), rb.first ≤ re.last l.length →
      re.last l.length ≤ l.length → ∃ b', (k.ops dbg .vec).splice b d rb re = .ok b' ∧
        Strict k dbg (ZeroId k) g none b' (spliced l rb.first (re.last l.length) d.items) :=
    fun d rb re h1 h2 => splice_vec k hI c1 c2 d rb re h1 h2
  have happ : ∀ d : Src k.Byte, ∃ b', ((k.ops dbg .vec).insert b d l.length) = .ok b' ∧
      Strict k dbg (ZeroId k) g none b' (l ++ d.items) := by
    intro d
    have := hsplice d (.included l.length) (.excluded l.length) (Nat.le_refl _) (Nat.le_refl _)
    rw [spliced_append] at this
    exact this
  have hps : (k.ops dbg .vec).payloadSize b = .ok l.length := S.packed.payloadSize_eq
  cases c with
  | setGroup g' => exact ⟨_, rfl, S.setGroup g' (zeroId_setGroup g')⟩
  | setPayload d =>
    obtain ⟨w, hw, hwg⟩ := S.packed.group_eq
    exact setPayload_vec k dbg hI ⟨w, hw, hwg⟩ (zeroId_vecResize S.whole.inv _) d
  | splicePayload d rb re => exact hsplice d rb re hr.1 hr.2
  | insertPayload d i =>
    exact hsplice d (.included i) (.excluded i) (Nat.le_refl _) hr
  | appendPayload d =>
    obtain ⟨b', e, S'⟩ := happ d
    refine ⟨b', ?_, S'⟩
    show (k.ops dbg .vec).append b d = _
    unfold SxOps.append
    rw [hps]; exact e
  | appendByte v =>
    obtain ⟨b', e, S'⟩ := happ ⟨[v], 1, some 1⟩
    refine ⟨b', ?_, S'⟩
    show (k.ops dbg .vec).appendByte b v = _
    unfold SxOps.appendByte
    rw [hps]; exact e
  | setPayloadByte i v => exact S.setByte hI v hr

theorem exec_history {k : Sx} {dbg : Bool} :
    ∀ (cs : List (SxCall k)) (b : Buf .ump) (s : BitVec 4 × List k.Byte),
      SxCall.AllInRange cs s → Strict k dbg (ZeroId k) s.1 none b s.2 →
      ∃ b', SxCall.execAll dbg cs b = .ok b' ∧
        Strict k dbg (ZeroId k) (SxCall.applyAll cs s).1 none b' (SxCall.applyAll cs s).2 := by
  intro cs
  induction cs with
  | nil => intro b s _ S; exact ⟨b, rfl, S⟩
  | cons c cs ih =>
    intro b s hr S
    obtain ⟨b1, e1, S1⟩ := exec_strict S c hr.1
    obtain ⟨b2, e2, S2⟩ := ih b1 (c.apply s) hr.2 S1
    refine ⟨b2, ?_, S2⟩
    show (c.exec dbg b >>= fun b => SxCall.execAll dbg cs b) = _
    rw [e1]
    exact e2

/-- C47: any sequence of in-range calls on a fresh message over a resizable buffer never
panics (with or without debug assertions), leaves the message showing the group and bytes
that the same calls make of a plain list, and leaves `data()` acceptable to the parser. -/
theorem C47_history (k : Sx) (dbg : Bool) (cs : List (SxCall k))
    (hr : SxCall.AllInRange cs (0, [])) :
    ∃ b b', k.newVec = .ok b ∧ SxCall.execAll dbg cs b = .ok b' ∧
      k.Holds b' (SxCall.applyAll cs (0, [])).1 (SxCall.applyAll cs (0, [])).2 ∧
      k.data b' = .ok b' ∧ k.tryFrom b' = .ok b' := by
  obtain ⟨b, e, S⟩ := newVec_strict k dbg
  obtain ⟨b', e', S'⟩ := exec_history cs b (0, []) hr S
  obtain ⟨d, hd, ha⟩ := S'.accepted
  rw [S'.data_self] at hd
  cases hd
  exact ⟨b, b', e, e', S'.holds, S'.data_self, ha⟩

-- C47: five calls.
example : SxCall.AllInRange (k := .s7)
      [.setGroup 3, .setPayload ⟨[1, 2, 3, 4, 5, 6, 7], 0, none⟩, .insertPayload ⟨[9], 1, some 1⟩ 7,
        .splicePayload ⟨[], 0, some 5⟩ (.included 1) (.excluded 3), .setPayloadByte 5 0x7f] (0, []) ∧
    SxCall.applyAll (k := .s7)
      [.setGroup 3, .setPayload ⟨[1, 2, 3, 4, 5, 6, 7], 0, none⟩, .insertPayload ⟨[9], 1, some 1⟩ 7,
        .splicePayload ⟨[], 0, some 5⟩ (.included 1) (.excluded 3), .setPayloadByte 5 0x7f] (0, []) =
      (3, [1, 4, 5, 6, 7, 0x7f]) := by
  refine ⟨?_, by decide⟩
  simp only [SxCall.AllInRange, SxCall.InRange]
  decide

theorem try_exec_strict {k : Sx} {dbg : Bool} {I : Buf .ump → Prop} (hI : Inv k I true)
    (hIg : ∀ b g, I b → I (k.setGroup b g)) {b : Buf .ump} {n : Nat} (hn : k.stride ≤ n)
    {g : BitVec 4} {l : List k.Byte} (S : Strict k dbg I g (some n) b l) (c : SxTryCall k)
    (hr : c.InRange l) :
    ∃ b', c.exec dbg b = .ok (b', (c.apply n (g, l)).2) ∧
      Strict k dbg I (c.apply n (g, l)).1.1 (some n) b' (c.apply n (g, l)).1.2 := by
  have hlen := S.whole.fixed n rfl
  obtain ⟨b0, c1, c2⟩ := Loose.compact hI (N := some n) ⟨⟨_, S.packed⟩, S.whole⟩
  -- one shape for all calls which replace the payload
  have fin : ∀ (c : SxTryCall k) (x : Res (Buf .ump × Option Error)), c.exec dbg b = x →
      (∀ g', c ≠ .setGroup g') →
      ((k.stride * k.count (c.wanted l).length ≤ n → ∃ b', x = .ok (b', none) ∧
          Strict k dbg I g (some n) b' (c.wanted l)) ∧
        (n < k.stride * k.count (c.wanted l).length → ∃ b', x = .ok (b', some .bufferOverflow) ∧
          Strict k dbg I g (some n) b' [])) →
      ∃ b', c.exec dbg b = .ok (b', (c.apply n (g, l)).2) ∧
        Strict k dbg I (c.apply n (g, l)).1.1 (some n) b' (c.apply n (g, l)).1.2 := by
    intro c x hx hc h
    unfold SxTryCall.apply
    simp only
    rw [wireLength_eq]
    by_cases hf : k.stride * k.count (c.wanted l).length ≤ n
    · obtain ⟨b', e1, e2⟩ := h.1 hf
      rw [if_pos (by omega), hx]
      refine ⟨b', e1, ?_⟩
      cases c <;> first | exact absurd rfl (hc _) | exact e2
    · obtain ⟨b', e1, e2⟩ := h.2 (by omega)
      rw [if_neg (by omega), hx]
      refine ⟨b', e1, ?_⟩
      cases c <;> first | exact absurd rfl (hc _) | exact e2
  have hfit : k.stride * k.count l.length ≤ n := by
    have := S.packed.len
    omega
  have hps : (k.ops dbg .fixed).payloadSize b = .ok l.length := S.packed.payloadSize_eq
  have hsplice := fun (d : Src k.Byte) (rb re : Bound) h1 h2 hh =>
    splice_fixed k hI hn c1 c2 d rb re h1 h2 hh
  have hins : ∀ (d : Src k.Byte) (i : Nat), i ≤ l.length → _ := fun d i hi =>
    hsplice d (.included i) (.excluded i) (Nat.le_refl _) hi (.inl rfl)
  have happ := fun d : Src k.Byte => hins d l.length (Nat.le_refl _)
  cases c with
  | setGroup g' =>
    have e : (SxTryCall.setGroup g' : SxTryCall k).apply n (g, l) = ((g', l), none) := by
      unfold SxTryCall.apply
      rw [if_pos (by
        show k.layout.wireLength l.length ≤ 4 * n
        rw [wireLength_eq]; omega)]
      rfl
    rw [e]
    exact ⟨_, rfl, S.setGroup g' (hIg b g')⟩
  | setPayload d =>
    refine fin (.setPayload d) _ rfl (fun _ h => by cases h) ?_
    obtain ⟨w, hw, hwg⟩ := S.packed.group_eq
    have := trySetPayload_fixed k hI (by omega) ⟨w, hw, hwg⟩ S.whole.inv
      (fun e => Tidy.from (S.whole.steady e) _) d
    rw [hlen] at this
    exact this
  | splicePayload d rb re =>
    refine fin (.splicePayload d rb re) _ rfl (fun _ h => by cases h) ?_
    refine hsplice d rb re hr.1 hr.2.1 ?_
    have he : d.upper.getD d.lower = d.estimate := by
      unfold Src.estimate
      cases d.upper <;> rfl
    rw [← he]
    exact (hr.2.2.imp_right Or.inl)
  | insertPayload d i =>
    exact fin (.insertPayload d i) _ rfl (fun _ h => by cases h) (hins d i hr)
  | appendPayload d =>
    refine fin (.appendPayload d) ((k.ops dbg .fixed).tryInsert b d l.length) ?_
      (fun _ h => by cases h) ?_
    · show (k.ops dbg .fixed).tryAppend b d = _
      unfold SxOps.tryAppend
      rw [hps]; rfl
    · have := happ d
      rw [spliced_append] at this
      exact this
  | appendByte v =>
    refine fin (.appendByte v) ((k.ops dbg .fixed).tryInsert b ⟨[v], 1, some 1⟩ l.length) ?_
      (fun _ h => by cases h) ?_
    · show (k.ops dbg .fixed).tryAppendByte b v = _
      unfold SxOps.tryAppendByte
      rw [hps]; rfl
    · have := happ ⟨[v], 1, some 1⟩
      rw [spliced_append] at this
      exact this
  | setPayloadByte i v =>
    obtain ⟨b', e1, e2⟩ := S.setByte hI v hr
    refine fin (.setPayloadByte i v) (.ok (b', none)) ?_ (fun _ h => by cases h) ⟨?_, ?_⟩
    · show (k.setByte b v i).bind _ = _
      rw [e1]; rfl
    · intro _; exact ⟨b', rfl, e2⟩
    · intro h
      have : (SxTryCall.setPayloadByte i v : SxTryCall k).wanted l = l.set i v := rfl
      rw [this, List.length_set] at h
      omega

theorem try_history {k : Sx} {dbg : Bool} {I : Buf .ump → Prop} (hI : Inv k I true)
    (hIg : ∀ b g, I b → I (k.setGroup b g)) {n : Nat} (hn : k.stride ≤ n) :
    ∀ (cs : List (SxTryCall k)) (b : Buf .ump) (s : BitVec 4 × List k.Byte),
      SxTryCall.AllInRange n cs s → Strict k dbg I s.1 (some n) b s.2 →
      ∃ b', SxTryCall.execAll dbg cs b = .ok (b', (SxTryCall.applyAll n cs s).2) ∧
        Strict k dbg I (SxTryCall.applyAll n cs s).1.1 (some n) b' (SxTryCall.applyAll n cs s).1.2 := by
  intro cs
  induction cs with
  | nil => intro b s _ S; exact ⟨b, rfl, S⟩
  | cons c cs ih =>
    intro b s hr S
    obtain ⟨b1, e1, S1⟩ := try_exec_strict hI hIg hn S c hr.1
    obtain ⟨b2, e2, S2⟩ := ih b1 (c.apply n s).1 hr.2 S1
    refine ⟨b2, ?_, S2⟩
    show (c.exec dbg b >>= fun x => _) = _
    rw [e1]
    simp only [Res.ok_bind]
    rw [e2]
    rfl

/-- C47 for arrays of `n` words: any sequence of fallible calls never panics, returns
`BufferOverflow` exactly when the wanted payload does not fit, and the message shows what
the specification says; `data()` stays acceptable. -/
theorem C47_fixed_history (k : Sx) (dbg : Bool) (n : Nat) (hn : k.layout.words ≤ n)
    (cs : List (SxTryCall k)) (hr : SxTryCall.AllInRange n cs (0, [])) :
    ∃ b b', k.newArray n = .ok b ∧
      SxTryCall.execAll dbg cs b = .ok (b', (SxTryCall.applyAll n cs (0, [])).2) ∧
      k.Holds b' (SxTryCall.applyAll n cs (0, [])).1.1 (SxTryCall.applyAll n cs (0, [])).1.2 ∧
      b'.length = n ∧ ∃ d, k.data b' = .ok d ∧ k.tryFrom d = .ok d := by
  rw [words_eq] at hn
  obtain ⟨b, e, _, S⟩ := newArray_strict k dbg hn
  obtain ⟨b', e', S'⟩ := try_history (inv_zeroId k) (fun b g h => zeroId_setGroup g h) hn cs b
    (0, []) hr S
  exact ⟨b, b', e, e', S'.holds, S'.whole.fixed n rfl, S'.accepted⟩

example : ∃ b b', Sx.s7.newArray 4 = .ok b ∧
    SxTryCall.execAll (k := .s7) true [.setGroup 3, .setPayload ⟨[1, 2, 3, 4, 5, 6, 7], 0, none⟩] b =
      .ok (b', [none, none]) ∧
    Sx.s7.Holds b' 3 [1, 2, 3, 4, 5, 6, 7] := by
  obtain ⟨b, b', h1, h2, h3, _⟩ := C47_fixed_history .s7 true 4 (by decide)
    [.setGroup 3, .setPayload ⟨[1, 2, 3, 4, 5, 6, 7], 0, none⟩] ⟨trivial, trivial, trivial⟩
  have e : SxTryCall.applyAll (k := .s7) 4 [.setGroup 3, .setPayload ⟨[1, 2, 3, 4, 5, 6, 7], 0, none⟩]
      (0, []) = ((3, [1, 2, 3, 4, 5, 6, 7]), [none, none]) := by decide +kernel
  rw [e] at h2 h3
  exact ⟨b, b', h1, h2, h3⟩

/-- C47 for buffers with arbitrary contents given to `try_new_with_buffer`, in builds
without debug assertions: the same, except that sysex8 stream ids left over in the buffer
may make `data()` unacceptable. -/
theorem C47_dirty_buffer_history_partial (k : Sx) (b : Buf .ump) (hn : k.layout.words ≤ b.length)
    (cs : List (SxTryCall k)) (hr : SxTryCall.AllInRange b.length cs (0, [])) :
    ∃ b0 b', k.tryNewWithBuffer b = .ok b0 ∧
      SxTryCall.execAll false cs b0 = .ok (b', (SxTryCall.applyAll b.length cs (0, [])).2) ∧
      k.Holds b' (SxTryCall.applyAll b.length cs (0, [])).1.1
        (SxTryCall.applyAll b.length cs (0, [])).1.2 ∧
      b'.length = b.length := by
  rw [words_eq] at hn
  obtain ⟨b0, e, S⟩ := tryNewWithBuffer_strict k hn
  obtain ⟨b', e', S'⟩ := try_history (inv_true k) (fun _ _ _ => trivial) hn cs b0 (0, []) hr S
  exact ⟨b0, b', e, e', S'.holds, S'.whole.fixed _ rfl⟩

-- C47: the third call does not fit in four words.
example : SxTryCall.AllInRange (k := .s7) 4
      [.setGroup 3, .setPayload ⟨[1, 2, 3, 4, 5, 6, 7], 0, none⟩, .appendPayload ⟨[1, 2, 3, 4, 5, 6], 6, some 6⟩,
        .appendByte 5] (0, []) ∧
    SxTryCall.applyAll (k := .s7) 4
      [.setGroup 3, .setPayload ⟨[1, 2, 3, 4, 5, 6, 7], 0, none⟩, .appendPayload ⟨[1, 2, 3, 4, 5, 6], 6, some 6⟩,
        .appendByte 5] (0, []) = ((3, [5]), [none, none, some .bufferOverflow, none]) := by
  refine ⟨?_, by decide +kernel⟩
  simp [SxTryCall.AllInRange, SxTryCall.InRange]

end Midi2
