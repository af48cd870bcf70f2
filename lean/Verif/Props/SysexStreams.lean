import Verif.Props.Sysex
import Verif.Props.Effort
import Verif.Lemmas.Noted

/-!
# C19, C20, C22, C28: the stream ids of the packets of a `Sysex8`

The stream id of packet `j` is the field of eight bits at bit 16 of word `4 * j`.
-/

namespace Midi2

open Sx

/-- C19: what `set_payload` does to the stream ids of a resizable buffer.  The first packet keeps
its own, all others get 0; so the message it leaves is accepted by `try_from` exactly when the data
fits one packet or the stream id is 0. -/
theorem C19_sysex8_stream_ids_exactly (dbg : Bool) (b : Buf .ump) (g : BitVec 4)
    (hg : Sx.group b = .ok g) (d : Src (BitVec 8)) :
    ∃ b', (Sx.s8.ops dbg .vec).setPayload b d = .ok b' ∧ Sx.s8.data b' = .ok b' ∧
      fieldAt b' 0 16 8 = fieldAt b 0 16 8 ∧
      (∀ j, 0 < j → j < (sysex8Layout.fill d.items.length).length →
        fieldAt b' (4 * j) 16 8 = some 0) ∧
      (Sx.s8.tryFrom b' = .ok b' ↔ d.items.length ≤ 13 ∨ fieldAt b 0 16 8 = some 0) := by
  obtain ⟨w, hw, hwg⟩ := group_word hg
  have hb : 0 < b.length := by
    rcases Nat.eq_zero_or_pos b.length with h | h
    · rw [List.getElem?_eq_none (by omega)] at hw; cases hw
    · exact h
  have hI := (inv_streamId (fixed := false) (some (U32.octet w 2))).and
    (inv_streamIds_vec (fixed := false) (fun j o => 0 < j → o = 0) (fun _ _ _ => rfl))
  obtain ⟨b', e, S⟩ := setPayload_vec .s8 dbg hI ⟨w, hw, hwg⟩ (by
    refine ⟨?_, ?_⟩
    · rw [octetAt_vecResize_lt _ _ _ (by omega) (by decide)]
      show (b[0]?).map _ = _
      rw [hw]; rfl
    · intro j o h hj
      rw [octetAt_none (by rw [length_vecResize]; show 4 * 4 ≤ _; omega)] at h
      cases h) d
  obtain ⟨x, h1, h2, h3, h4⟩ := S.holds.wire
  rw [S.data_self] at h1
  cases h1
  obtain ⟨i1, i2⟩ := S.whole.inv
  have f0 : fieldAt b 0 16 8 = some (U32.octet w 2).toNat := by
    have := streamId_field b 0
    rw [octetAt_head b (4 * 0) 2 (by omega)] at this
    simp only [Nat.mul_zero, hw, Option.map_some] at this
    exact this
  have f0' : fieldAt b' 0 16 8 = some (U32.octet w 2).toNat := by
    have := streamId_field b' 0
    simp only [Nat.mul_zero, Nat.zero_add, i1, Option.map_some] at this
    exact this
  have hl : b'.length = 4 * (sysex8Layout.fill d.items.length).length := h2
  have hz : ∀ j, 0 < j → j < (sysex8Layout.fill d.items.length).length →
        fieldAt b' (4 * j) 16 8 = some 0 := by
    intro j hj hj'
    rw [streamId_field]
    cases ho : octetAt b' (4 * (4 * j) + 2) with
    | none =>
      have : (octetAt b' (4 * (4 * j) + 2)).isSome := by rw [octetAt_isSome]; omega
      rw [ho] at this
      cases this
    | some o =>
      rw [i2 j o ho hj]; rfl
  refine ⟨b', e, S.data_self, by rw [f0, f0'], hz, ?_⟩
  rw [accepts_exact h3 hl]
  have hpos : 0 < (sysex8Layout.fill d.items.length).length := by
    rw [show (sysex8Layout.fill d.items.length).length = _ from length_fill .s8 _]
    exact s8.count_pos _
  have hfill : (sysex8Layout.fill d.items.length).length = 1 ↔ d.items.length ≤ 13 := by
    have h1 := s8.count_pos d.items.length
    have h2 := s8.count_le_iff d.items.length 1 (by omega)
    rw [show (sysex8Layout.fill d.items.length).length = _ from length_fill .s8 _]
    simp only [cap, Nat.mul_one] at h2
    omega
  constructor
  · intro h
    by_cases h1 : d.items.length ≤ 13
    · exact .inl h1
    · have hne : (sysex8Layout.fill d.items.length).length ≠ 1 := fun c => h1 (hfill.mp c)
      have a := h 1 (show 1 < (sysex8Layout.fill d.items.length).length by omega)
      rw [hz 1 (by omega) (by omega), f0'] at a
      exact .inr (by rw [f0, ← a])
  · intro h j hj
    rcases Nat.eq_zero_or_pos j with rfl | h0
    · rfl
    · rcases h with h | h
      · have h1 := hfill.mpr h
        have hj : j < (sysex8Layout.fill d.items.length).length := hj
        omega
      · rw [hz j h0 hj, f0', ← h, f0]

-- C19: a message of stream 5 that grows to two packets.
example : (Sx.s8.ops true .vec).setPayload [0x54010500, 0, 0, 0]
      ⟨[1, 2, 3, 4, 5, 6, 7, 8, 9, 10, 11, 12, 13, 14], 14, some 14⟩ =
    .ok [0x541E0501, 0x02030405, 0x06070809, 0x0A0B0C0D, 0x5432000E, 0, 0, 0] := by decide +kernel

/-- C20: on a buffer of fixed size `try_set_payload` changes no stream id, neither of the packets
of the message nor of what lies behind it, whether it succeeds or not. -/
theorem C20_stream_ids_exactly (dbg : Bool) (b : Buf .ump) (g : BitVec 4) (hb : 4 ≤ b.length)
    (hg : Sx.group b = .ok g) (ht : dbg = true → sysex8Layout.Tidy 4 b) (d : Src (BitVec 8)) :
    ∃ b' e, (Sx.s8.ops dbg .fixed).trySetPayload b d = .ok (b', e) ∧
      ∀ j, fieldAt b' (4 * j) 16 8 = fieldAt b (4 * j) 16 8 := by
  have key := trySetPayload_fixed .s8 (dbg := dbg) (inv_streamIds b) hb (group_word hg) (fun _ => rfl)
    (fun e => tidyFrom_iff.mpr (ht e)) d
  have fin : ∀ b' : Buf .ump, (∀ j, octetAt b' (4 * (4 * j) + 2) = octetAt b (4 * (4 * j) + 2)) →
      ∀ j, fieldAt b' (4 * j) 16 8 = fieldAt b (4 * j) 16 8 := by
    intro b' h j
    rw [streamId_field, streamId_field, h j]
  by_cases hf : s8.stride * s8.count d.items.length ≤ b.length
  · obtain ⟨b', e, S⟩ := key.1 hf
    exact ⟨b', _, e, fin b' S.whole.inv⟩
  · obtain ⟨b', e, S⟩ := key.2 (by omega)
    exact ⟨b', _, e, fin b' S.whole.inv⟩

-- C20: stream 5 in the first packet, 7 in stale words behind it.
example : (Sx.s8.ops true .fixed).trySetPayload [0x54010500, 0, 0, 0, 0x00000700, 0, 0, 0]
      ⟨[1, 2, 3, 4, 5, 6, 7, 8, 9, 10, 11, 12, 13, 14], 14, some 14⟩ =
    .ok ([0x541E0501, 0x02030405, 0x06070809, 0x0A0B0C0D, 0x5432070E, 0, 0, 0], none) := by
  decide +kernel

/-- C28: on a buffer of fixed size `try_splice_payload` changes no stream id either. -/
theorem C28_fixed_stream_ids_partial (dbg : Bool) (b : Buf .ump) (g : BitVec 4)
    (sizes : List Nat) (M : sysex8Layout.IsMessage b g.toNat sizes)
    (hs : sysex8Layout.Spliceable dbg true b sizes) (l : List (BitVec 8))
    (hl : Sx.s8.payloadList b = .ok l) (d : Src (BitVec 8)) (rb re : Bound)
    (h1 : rb.first ≤ re.last l.length) (h2 : re.last l.length ≤ l.length)
    (hh : rb.first = re.last l.length ∨ d.items.length ≤ d.upper.getD d.lower ∨
      sysex8Layout.wireLength (l.length - (re.last l.length - rb.first) + 2 * d.items.length) ≤
        4 * b.length) :
    ∃ b' e, (Sx.s8.ops dbg .fixed).trySplice b d rb re = .ok (b', e) ∧
      ∀ j, fieldAt b' (4 * j) 16 8 = fieldAt b (4 * j) 16 8 := by
  obtain ⟨b0, e0, L⟩ := Spliceable.start (k := .s8) (inv_streamIds b) (N := some b.length) M hs
    (fun _ => rfl) (by simp) hl
  have hN : 4 ≤ b.length := by
    have h : 4 * sizes.length ≤ b.length := M.whole
    have : 0 < sizes.length := by
      cases sizes with
      | nil => exact absurd rfl M.nonempty
      | cons => simp
    omega
  have he : d.upper.getD d.lower = d.estimate := by
    unfold Src.estimate
    cases d.upper <;> rfl
  rw [he] at hh
  have hh : rb.first = re.last l.length ∨ d.items.length ≤ d.estimate ∨
      s8.stride * s8.count (l.length - (re.last l.length - rb.first) + 2 * d.items.length) ≤ b.length := by
    rcases hh with h | h | h
    · exact .inl h
    · exact .inr (.inl h)
    · have e := wireLength_eq s8 (l.length - (re.last l.length - rb.first) + 2 * d.items.length)
      change sysex8Layout.wireLength _ = _ at e
      exact .inr (.inr (by omega))
  have key := splice_fixed .s8 (inv_streamIds b) hN e0 L d rb re h1 h2 hh
  have fin : ∀ b' : Buf .ump, (∀ j, octetAt b' (4 * (4 * j) + 2) = octetAt b (4 * (4 * j) + 2)) →
      ∀ j, fieldAt b' (4 * j) 16 8 = fieldAt b (4 * j) 16 8 := by
    intro b' h j
    rw [streamId_field, streamId_field, h j]
  by_cases hf : s8.stride * s8.count (spliced l rb.first (re.last l.length) d.items).length ≤ b.length
  · obtain ⟨b', e, S⟩ := key.1 hf
    exact ⟨b', _, e, fin b' S.whole.inv⟩
  · obtain ⟨b', e, S⟩ := key.2 (by omega)
    exact ⟨b', _, e, fin b' S.whole.inv⟩

example : ∃ b' e, (Sx.s8.ops true .fixed).trySplice [0x50030701, 0x02000000, 0, 0]
      ⟨[3, 4, 5], 3, some 3⟩ (.included 1) (.excluded 2) = .ok (b', e) ∧
    ∀ j, fieldAt b' (4 * j) 16 8 = fieldAt ([0x50030701, 0x02000000, 0, 0] : Buf .ump) (4 * j) 16 8 :=
  C28_fixed_stream_ids_partial true _ 0 [2] sampleSysex8 (sampleSysex8_spliceable _ _) [1, 2]
    (by decide +kernel) ⟨[3, 4, 5], 3, some 3⟩ (.included 1) (.excluded 2) (by decide) (by decide)
    (.inr (.inl (by decide)))

/-- C28: on a resizable buffer every packet of the spliced message has the stream id that was in
its place before, or 0, and packets behind the end of the old buffer have 0. -/
theorem C28_stream_ids_partial (dbg : Bool) (b : Buf .ump) (g : BitVec 4)
    (sizes : List Nat) (M : sysex8Layout.IsMessage b g.toNat sizes)
    (hs : sysex8Layout.Spliceable dbg false b sizes) (l : List (BitVec 8))
    (hl : Sx.s8.payloadList b = .ok l) (d : Src (BitVec 8)) (rb re : Bound)
    (h1 : rb.first ≤ re.last l.length) (h2 : re.last l.length ≤ l.length) :
    ∃ b', (Sx.s8.ops dbg .vec).splice b d rb re = .ok b' ∧
      fieldAt b' 0 16 8 = fieldAt b 0 16 8 ∧
      ∀ j, 4 * j < b'.length → fieldAt b' (4 * j) 16 8 = fieldAt b (4 * j) 16 8 ∨
        fieldAt b' (4 * j) 16 8 = some 0 := by
  have hb : 0 < b.length := by
    have h : 4 * sizes.length ≤ b.length := M.whole
    have : 0 < sizes.length := by
      cases sizes with
      | nil => exact absurd rfl M.nonempty
      | cons => simp
    omega
  have hI := (inv_streamId (fixed := false) (octetAt b 2)).and (inv_streamIds_vec (fixed := false)
    (fun j o => octetAt b (4 * (4 * j) + 2) = some o ∨ o = 0) (fun _ _ => .inr rfl))
  obtain ⟨b0, e0, L⟩ := Spliceable.start (k := .s8) hI (N := none) M hs
    ⟨rfl, fun j o h => .inl h⟩ (by simp) hl
  obtain ⟨b', e, S⟩ := splice_vec .s8 hI e0 L d rb re h1 h2
  obtain ⟨i1, i2⟩ := S.whole.inv
  refine ⟨b', e, ?_, ?_⟩
  · have a := streamId_field b 0
    have a' := streamId_field b' 0
    simp only [Nat.mul_zero, Nat.zero_add] at a a'
    rw [a, a', i1]
  · intro j hj
    rw [streamId_field, streamId_field]
    cases ho : octetAt b' (4 * (4 * j) + 2) with
    | none =>
      have : (octetAt b' (4 * (4 * j) + 2)).isSome := by rw [octetAt_isSome]; omega
      rw [ho] at this
      cases this
    | some o =>
      rcases i2 j o ho with h | h
      · rw [h]; exact .inl rfl
      · rw [h]; exact .inr rfl

/-- C28: on a resizable buffer, if the iterator yields no more bytes than its size hint says, every
packet of the spliced message has the stream id that was at its place in the old buffer, and 0
behind the end of that.  So if the buffer held one stream only, the result is accepted by `try_from`
exactly when the buffer did not grow or the stream is 0. -/
theorem C28_stream_ids_exactly (dbg : Bool) (b : Buf .ump) (g : BitVec 4)
    (sizes : List Nat) (M : sysex8Layout.IsMessage b g.toNat sizes)
    (hs : sysex8Layout.Spliceable dbg false b sizes) (l : List (BitVec 8))
    (hl : Sx.s8.payloadList b = .ok l) (d : Src (BitVec 8)) (rb re : Bound)
    (h1 : rb.first ≤ re.last l.length) (h2 : re.last l.length ≤ l.length)
    (hh : d.items.length ≤ d.upper.getD d.lower) :
    ∃ b', (Sx.s8.ops dbg .vec).splice b d rb re = .ok b' ∧
      (∀ j, 4 * j < b'.length →
        fieldAt b' (4 * j) 16 8 = some ((fieldAt b (4 * j) 16 8).getD 0)) ∧
      ∀ id, (∀ j, 4 * j < b.length → fieldAt b (4 * j) 16 8 = some id) →
        (Sx.s8.tryFrom b' = .ok b' ↔ (∀ j, 4 * j < b'.length → 4 * j < b.length) ∨ id = 0) := by
  have hb : 0 < b.length := by
    have h : 4 * sizes.length ≤ b.length := M.whole
    have : 0 < sizes.length := by
      cases sizes with
      | nil => exact absurd rfl M.nonempty
      | cons => simp
    omega
  obtain ⟨b0, e0, L⟩ := Spliceable.start (k := .s8) (inv_true .s8) (N := none) M hs trivial (by simp) hl
  obtain ⟨b', e, S⟩ := splice_vec .s8 (inv_true .s8) e0 L d rb re h1 h2
  have K := splice_keptIds (inv_true .s8) e0 L d rb re h1 h2 hh e
  have hlen : b'.length = 4 * s8.count (spliced l rb.first (re.last l.length) d.items).length :=
    S.exact rfl
  have ids : ∀ j, 4 * j < b'.length →
      fieldAt b' (4 * j) 16 8 = some ((fieldAt b (4 * j) 16 8).getD 0) := by
    intro j hj
    rw [streamId_field, streamId_field, ← compact_ids M hs e0 j]
    rcases K j (by omega) with h | ⟨h, h'⟩
    · rw [h]
      cases ho : octetAt b0 (4 * (4 * j) + 2) with
      | some o => rfl
      | none =>
        have : (octetAt b' (4 * (4 * j) + 2)).isSome := by rw [octetAt_isSome]; omega
        rw [h, ho] at this
        cases this
    · rw [h, h']; rfl
  refine ⟨b', e, ids, fun id hid => ?_⟩
  obtain ⟨x, w1, w2, w3, _⟩ := S.holds.wire
  rw [S.data_self] at w1
  cases w1
  have hl' : b'.length = 4 * (sysex8Layout.fill (spliced l rb.first (re.last l.length) d.items).length).length := w2
  rw [accepts_exact (sizes := sysex8Layout.fill (spliced l rb.first (re.last l.length) d.items).length) w3 hl']
  have hpos := s8.count_pos (spliced l rb.first (re.last l.length) d.items).length
  have f0 := ids 0 (by omega)
  rw [hid 0 (by omega)] at f0
  simp only [Nat.mul_zero, Option.getD_some] at f0
  have hnone : ∀ j, b.length ≤ 4 * j → fieldAt b (4 * j) 16 8 = none := by
    intro j hj
    rw [streamId_field, octetAt_none (by omega)]
    rfl
  constructor
  · intro h
    by_cases hz : id = 0
    · exact Or.inr hz
    · left
      intro j hj
      have a := h j (by omega)
      rw [f0, ids j hj] at a
      by_cases hj' : 4 * j < b.length
      · exact hj'
      · rw [hnone j (by omega)] at a
        simp at a
        omega
  · intro h j hj
    rw [f0, ids j (by omega)]
    by_cases hj' : 4 * j < b.length
    · rw [hid j hj']; rfl
    · rw [hnone j (by omega)]
      rcases h with h | h
      · exact absurd (h j (by omega)) hj'
      · rw [h]; rfl

-- C28: fourteen bytes need a second packet, which has stream id 0.
example : ∃ b', (Sx.s8.ops true .vec).splice [0x50030701, 0x02000000, 0, 0]
      ⟨List.replicate 13 3, 13, some 13⟩ (.included 1) (.excluded 2) = .ok b' ∧
    (∀ j, 4 * j < b'.length → fieldAt b' (4 * j) 16 8 =
      some ((fieldAt ([0x50030701, 0x02000000, 0, 0] : Buf .ump) (4 * j) 16 8).getD 0)) ∧
    ∀ id, (∀ j, 4 * j < 4 → fieldAt ([0x50030701, 0x02000000, 0, 0] : Buf .ump) (4 * j) 16 8 = some id) →
      (Sx.s8.tryFrom b' = .ok b' ↔ (∀ j, 4 * j < b'.length → 4 * j < 4) ∨ id = 0) :=
  C28_stream_ids_exactly true _ 0 [2] sampleSysex8 (sampleSysex8_spliceable _ _) [1, 2]
    (by decide +kernel) ⟨List.replicate 13 3, 13, some 13⟩ (.included 1) (.excluded 2) (by decide)
    (by decide) (by decide)

theorem splice_idsSince (dbg : Bool) {b b0 : Buf .ump} {g : BitVec 4} {l : List (BitVec 8)}
    (hc : s8.compact b = .ok b0) (h : Loose s8 dbg (fun _ => True) g none b0 l)
    (d : Src (BitVec 8)) (rb re : Bound)
    (h1 : rb.first ≤ re.last l.length) (h2 : re.last l.length ≤ l.length) :
    ∃ b', (s8.ops dbg .vec).splice b d rb re = .ok b' ∧
      Strict s8 dbg (fun _ => True) g none b' (spliced l rb.first (re.last l.length) d.items) ∧
      IdsSince b0 b' (d.work l.length rb.first (re.last l.length)).resizes := by
  have hcut := cut l rb.first (re.last l.length) h1
  have hlen : ((l.take (re.last l.length)).drop rb.first).length = re.last l.length - rb.first := by
    simp only [List.length_drop, List.length_take]; omega
  have L := (notedIds dbg (I := fun _ => True) g b0).laws (laws s8 dbg g none (inv_true s8))
  obtain ⟨⟨b', eff⟩, e, S, J⟩ := L.toLaws.splice_spec (s := (b, {})) (s0 := (b0, {})) d rb re (l.take rb.first)
    ((l.take (re.last l.length)).drop rb.first) (l.drop (re.last l.length))
    (by show (s8.compact b >>= _) = _; rw [hc]; rfl)
    (by rw [← hcut]; exact ⟨h, .refl b0⟩)
    (by rw [spliceBegin_eq, List.length_take]; omega)
    (by rw [← hcut, spliceEnd_eq, List.length_take, hlen]; omega)
  have hr := (C71_record (s8.ops dbg .vec) b {} d).1 rb re
  rw [e] at hr
  refine ⟨b', hr.symm, S, ?_⟩
  have heff : eff = d.work l.length rb.first (re.last l.length) := by
    unfold SxOps.splice at e
    obtain ⟨⟨⟨s1, e1⟩, _ | er⟩, hd, e⟩ := Res.of_bind_ok e
    · cases e
      obtain ⟨s0, n, c1, c2, c3⟩ := (paced_vec s8 dbg).detail_work trivial hd
      have c1 : s8.compact b = .ok s0 := c1
      rw [hc] at c1
      cases c1
      have c2 : s8.payloadSize b0 = .ok n := c2
      rw [h.ready.size] at c2
      cases c2
      rw [spliceEnd_eq, spliceBegin_eq] at c3
      exact c3 h2
    · cases e
  rw [← heff]
  exact J

/-- C28: on a resizable buffer, with any size hint: every packet of the spliced message has the
stream id that was at its place in the old buffer, if it was inside the old buffer and inside every
size the buffer was resized for on the way (C71), and 0 otherwise.  So if the buffer held one stream
only, the result is accepted by `try_from` exactly when all packets are of that kind or the stream
is 0. -/
theorem C28_any_hint_exactly (dbg : Bool) (b : Buf .ump) (g : BitVec 4)
    (sizes : List Nat) (M : sysex8Layout.IsMessage b g.toNat sizes)
    (hs : sysex8Layout.Spliceable dbg false b sizes) (l : List (BitVec 8))
    (hl : Sx.s8.payloadList b = .ok l) (d : Src (BitVec 8)) (rb re : Bound)
    (h1 : rb.first ≤ re.last l.length) (h2 : re.last l.length ≤ l.length) :
    ∃ b', (Sx.s8.ops dbg .vec).splice b d rb re = .ok b' ∧
      b'.length = 4 * (sysex8Layout.fill (spliced l rb.first (re.last l.length) d.items).length).length ∧
      (∀ j, 4 * j < b'.length → fieldAt b' (4 * j) 16 8 =
        some (if ∀ n ∈ (d.work l.length rb.first (re.last l.length)).resizes,
            j < (sysex8Layout.fill n).length
          then (fieldAt b (4 * j) 16 8).getD 0 else 0)) ∧
      ∀ id, (∀ j, 4 * j < b.length → fieldAt b (4 * j) 16 8 = some id) →
        (Sx.s8.tryFrom b' = .ok b' ↔ id = 0 ∨ ∀ j, 4 * j < b'.length → 4 * j < b.length ∧
          ∀ n ∈ (d.work l.length rb.first (re.last l.length)).resizes,
            j < (sysex8Layout.fill n).length) := by
  have hb : 0 < b.length := by
    have h : 4 * sizes.length ≤ b.length := M.whole
    have : 0 < sizes.length := by
      cases sizes with
      | nil => exact absurd rfl M.nonempty
      | cons => simp
    omega
  obtain ⟨b0, e0, L⟩ := Spliceable.start (k := .s8) (inv_true .s8) (N := none) M hs trivial (by simp) hl
  obtain ⟨b', e, S, J⟩ := splice_idsSince dbg e0 L d rb re h1 h2
  have hfill : ∀ n, (sysex8Layout.fill n).length = s8.count n := length_fill .s8
  have ids : ∀ j, 4 * j < b'.length → fieldAt b' (4 * j) 16 8 =
        some (if ∀ n ∈ (d.work l.length rb.first (re.last l.length)).resizes,
            j < (sysex8Layout.fill n).length
          then (fieldAt b (4 * j) 16 8).getD 0 else 0) := by
    intro j hj
    simp only [hfill]
    rw [streamId_field, streamId_field, ← compact_ids M hs e0 j, J.ids j hj]
    split
    · cases octetAt b0 (4 * (4 * j) + 2) <;> rfl
    · rfl
  obtain ⟨x, w1, w2, w3, _⟩ := S.holds.wire
  rw [S.data_self] at w1
  cases w1
  have hl' : b'.length = 4 * (sysex8Layout.fill (spliced l rb.first (re.last l.length) d.items).length).length := w2
  refine ⟨b', e, hl', ids, fun id hid => ?_⟩
  rw [accepts_exact (sizes := sysex8Layout.fill (spliced l rb.first (re.last l.length) d.items).length) w3 hl']
  have hpos := s8.count_pos (spliced l rb.first (re.last l.length) d.items).length
  have hz : ∀ n ∈ (d.work l.length rb.first (re.last l.length)).resizes,
      0 < (sysex8Layout.fill n).length := fun n _ => by rw [hfill]; exact s8.count_pos n
  have f0 := ids 0 (by rw [hl', hfill]; omega)
  rw [if_pos hz, hid 0 (by omega)] at f0
  simp only [Nat.mul_zero, Option.getD_some] at f0
  have hnone : ∀ j, b.length ≤ 4 * j → fieldAt b (4 * j) 16 8 = none := by
    intro j hj
    rw [streamId_field, octetAt_none (by omega)]
    rfl
  constructor
  · intro h
    by_cases hz : id = 0
    · exact .inl hz
    · right
      intro j hj
      have a := h j (by omega)
      rw [f0, ids j hj] at a
      split at a
      · next hA =>
        refine ⟨?_, hA⟩
        by_cases hj' : 4 * j < b.length
        · exact hj'
        · rw [hnone j (by omega)] at a
          simp at a
          omega
      · simp at a; omega
  · intro h j hj
    rw [f0, ids j (by omega)]
    rcases h with h | h
    · subst h
      split
      · by_cases hj' : 4 * j < b.length
        · rw [hid j hj']; rfl
        · rw [hnone j (by omega)]; rfl
      · rfl
    · obtain ⟨a1, a2⟩ := h j (by omega)
      rw [if_pos a2, hid j a1]
      rfl

-- C28: 26 bytes of stream 5 replaced by 26 others, first with no size hint and then with a hint of
-- 20: the buffer is cut to one packet and grows again, or never shrinks below two.
example : (Src.work ⟨(List.range 26).map (BitVec.ofNat 8), 0, none⟩ 26 0 26).resizes =
      [1, 3, 7, 15, 31, 26] ∧
    (Src.work ⟨(List.range 26).map (BitVec.ofNat 8), 20, none⟩ 26 0 26).resizes =
      [21, 23, 27, 26] ∧ (sysex8Layout.fill 1).length = 1 ∧ (sysex8Layout.fill 21).length = 2 := by
  decide +kernel

/-- C28: an iterator that yields more bytes than it says makes packets lose their stream id that
were there before: replacing 26 bytes of stream 5 by 26 others leaves a message `try_from` rejects,
though the same bytes with a true size hint leave one it accepts. -/
theorem C28_stream_lost_violation : ∃ (b : Buf .ump) (l : List (BitVec 8)) (b1 b2 : Buf .ump),
    Sx.s8.tryFrom b = .ok b ∧
      (Sx.s8.ops true .vec).splice b ⟨l, 26, some 26⟩ .unbounded .unbounded = .ok b1 ∧
      (Sx.s8.ops true .vec).splice b ⟨l, 0, none⟩ .unbounded .unbounded = .ok b2 ∧
      l.length = 26 ∧ b1.length = b.length ∧ b2.length = b.length ∧
      Sx.s8.tryFrom b1 = .ok b1 ∧ Sx.s8.tryFrom b2 ≠ .ok b2 ∧
      fieldAt b1 4 16 8 = some 5 ∧ fieldAt b2 4 16 8 = some 0 :=
  ⟨[0x541E0501, 0x02030405, 0x06070809, 0x0A0B0C0D, 0x543E0501, 0x02030405, 0x06070809, 0x0A0B0C0D],
    (List.range 26).map (BitVec.ofNat 8),
    [0x541E0500, 0x01020304, 0x05060708, 0x090A0B0C, 0x543E050D, 0x0E0F1011, 0x12131415, 0x16171819],
    [0x541E0500, 0x01020304, 0x05060708, 0x090A0B0C, 0x543E000D, 0x0E0F1011, 0x12131415, 0x16171819],
    by decide +kernel, by decide +kernel, by decide +kernel, by decide, rfl, rfl, by decide +kernel,
    by decide +kernel, by decide +kernel, by decide +kernel⟩

-- C28: eight bytes put in front of a full packet of stream 5.
example : (Sx.s8.ops true .vec).splice [0x540E0501, 0x02030405, 0x06070809, 0x0A0B0C0D]
      ⟨[1, 2, 3, 4, 5, 6, 7, 8], 8, some 8⟩ (.included 0) (.excluded 0) =
    .ok [0x541E0501, 0x02030405, 0x06070801, 0x02030405, 0x54390006, 0x0708090A, 0x0B0C0D00, 0] := by
  decide +kernel

end Midi2
