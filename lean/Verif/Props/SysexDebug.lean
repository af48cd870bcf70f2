import Verif.Lemmas.SysexDebug
import Verif.Props.Sysex

/-! # C20, C21, C22 in builds with debug assertions

What must lie behind a message for its payload to be set and spliced: exactly the conditions
under which the theorems of `Verif.Props.Sysex` hold. -/

namespace Midi2

open Sx

/-- C20 in builds with debug assertions: `try_set_payload` does what it should for all data
exactly when no partly filled packet lies behind the first packet; otherwise it panics for some
data which would fit. -/
theorem C20_debug_exactly (k : Sx) (b : Buf .ump) (g : BitVec 4) (hb : k.layout.words ≤ b.length)
    (hg : Sx.group b = .ok g) :
    ((∀ d : Src k.Byte, ∃ b', b'.length = b.length ∧
      ((k.layout.wireLength d.items.length ≤ 4 * b.length ∧
          (k.ops true .fixed).trySetPayload b d = .ok (b', none) ∧ k.Holds b' g d.items) ∨
       (4 * b.length < k.layout.wireLength d.items.length ∧
          (k.ops true .fixed).trySetPayload b d = .ok (b', some .bufferOverflow) ∧
          k.Holds b' g []))) ↔ k.layout.Tidy k.layout.words b) ∧
    (¬ k.layout.Tidy k.layout.words b → ∃ items : List k.Byte,
      k.layout.wireLength items.length ≤ 4 * b.length ∧
      (k.ops true .fixed).trySetPayload b ⟨items, items.length, some items.length⟩ = .panic) := by
  have key : ¬ k.layout.Tidy k.layout.words b → ∃ items : List k.Byte,
      k.layout.wireLength items.length ≤ 4 * b.length ∧
      (k.ops true .fixed).trySetPayload b ⟨items, items.length, some items.length⟩ = .panic := by
    intro hn
    rw [words_eq] at hb hn
    have hc0 : k.count 0 = 1 := rfl
    have hle : k.stride * k.count 0 ≤ b.length := by rw [hc0]; omega
    obtain ⟨b1, e1, r⟩ := k.tryResize_fine (m := .fixed) (b := b) (n := 0) (b1 := b)
      (by simp [Mem.resize, hle]) hle (group_word hg)
    obtain ⟨l', f1, P, -, -⟩ := r.packed hle
    have : l' = [] := List.eq_nil_of_length_eq_zero f1
    subst this
    rw [hc0] at P r
    have hv := P.payload_valid
    obtain ⟨b0, p0, c1, c2, c3, -⟩ := P.valid.compacted (.inl fun j hj => by omega)
    rw [hv] at c2 c3
    have hsteady := c3.steady c2 (some b.length)
    have hlen0 : b0.length = b.length := by rw [c3.len, r.len]
    have hnt : ¬ Sx.Tidy k b0 := by
      intro ht
      apply hn
      have ht := hsteady.mp ht
      rw [show k.count ([] : List k.Byte).length = 1 from rfl, Nat.mul_one] at ht
      rw [← tidyFrom_iff]
      intro i o0 o1 hq hl h0 h1 htt hst
      refine ht i o0 o1 hq (by rw [r.len]; exact hl) ?_ ?_ htt hst
      · rw [r.beyond _ (by omega)]; exact h0
      · rw [r.beyond _ (by omega)]; exact h1
    obtain ⟨items, i1, i2⟩ := append_panic c1 c2 hnt
    refine ⟨items, ?_, ?_⟩
    · rw [wireLength_eq]
      simp only [List.length_nil, Nat.zero_add] at i1
      omega
    · unfold SxOps.trySetPayload
      show ((k.tryResize .fixed b 0) >>= fun x => _) = _
      rw [e1]
      show (k.ops true .fixed).trySplice b1 _ (.included 0) (.excluded 0) = _
      unfold SxOps.trySplice
      rw [show (0 : Nat) = ([] : List k.Byte).length from rfl, i2]
      rfl
  refine ⟨⟨fun h => ?_, fun h d => C20_try_set_payload k true b g hb hg (fun _ => h) d⟩, key⟩
  refine Classical.byContradiction fun hn => ?_
  obtain ⟨items, -, h2⟩ := key hn
  obtain ⟨b', -, h3⟩ := h ⟨items, items.length, some items.length⟩
  rw [h2] at h3
  rcases h3 with ⟨-, h3, -⟩ | ⟨-, h3, -⟩ <;> cases h3

example : ∃ items : List (BitVec 7), sysex7Layout.wireLength items.length ≤ 32 ∧
    (Sx.s7.ops true .fixed).trySetPayload [0x30000000, 0, 0, 0, 0x30110000, 0, 0, 0]
      ⟨items, items.length, some items.length⟩ = .panic :=
  (C20_debug_exactly .s7 [0x30000000, 0, 0, 0, 0x30110000, 0, 0, 0] 0 (by decide) (by decide +kernel)).2
    (fun h => h 1 (by decide) (by decide) ⟨by decide, by decide, by decide⟩)

/-- C21 in builds with debug assertions, for messages the library compacts correctly: splices
do what they should exactly when no partly filled packet follows the packets the payload
needs; otherwise all splices which by the size hint do not grow the payload panic. -/
theorem C21_debug_exactly (k : Sx) (b : Buf .ump) (g : BitVec 4) (sizes : List Nat)
    (M : k.layout.IsMessage b g.toNat sizes) (hc : k.layout.Compactable sizes)
    (l : List k.Byte) (hl : k.payloadList b = .ok l) :
    ((∀ (d : Src k.Byte) (rb re : Bound), rb.first ≤ re.last l.length → re.last l.length ≤ l.length →
      ∃ b', (k.ops true .vec).splice b d rb re = .ok b' ∧
        k.Holds b' g (spliced l rb.first (re.last l.length) d.items) ∧ k.data b' = .ok b') ↔
      k.layout.TidyRun (k.layout.words * (k.layout.fill l.length).length) b) ∧
    (¬ k.layout.TidyRun (k.layout.words * (k.layout.fill l.length).length) b →
      ∀ (d : Src k.Byte) (rb re : Bound), rb.first ≤ re.last l.length →
        d.upper.getD d.lower ≤ re.last l.length - rb.first →
        (k.ops true .vec).splice b d rb re = .panic) := by
  obtain ⟨g', hg, V⟩ := isMessage_valid M
  have hg : g' = g := BitVec.eq_of_toNat_eq hg
  subst hg
  have hv : V.payload = l := by
    rw [V.frame.payloadList_eq] at hl
    injection hl
  have hsum : sizes.sum = l.length := by rw [← payload_length V, hv]
  have key : ¬ k.layout.TidyRun (k.layout.words * (k.layout.fill l.length).length) b →
      ∀ (d : Src k.Byte) (rb re : Bound), rb.first ≤ re.last l.length →
        d.upper.getD d.lower ≤ re.last l.length - rb.first →
        (k.ops true .vec).splice b d rb re = .panic := by
    intro hn d rb re h1 he
    obtain ⟨b0, p0, e1, P, C, -⟩ := V.compacted (compactable hc)
    rw [hv] at P C
    have hf : k.isCompact b0 = false := by
      rw [← Bool.not_eq_true]
      intro ht
      exact hn (behind_iff (N := none).mp ((C.steady P none).mp ht))
    have he' : d.upper.getD d.lower = d.estimate := by
      unfold Src.estimate
      cases d.upper <;> rfl
    unfold SxOps.splice
    rw [detail_panic e1 P.payloadSize_eq hf d rb re h1 (by omega)]
    rfl
  refine ⟨⟨fun h => ?_, fun h d rb re h1 h2 => ?_⟩, key⟩
  · refine Classical.byContradiction fun hn => ?_
    obtain ⟨b', h3, -⟩ := h ⟨[], 0, some 0⟩ (.included 0) (.excluded 0) (Nat.le_refl _) (Nat.zero_le _)
    rw [key hn _ _ _ (Nat.le_refl _) (Nat.zero_le _)] at h3
    cases h3
  · exact C21_splice_partial k true b g' sizes M ⟨hc, fun _ => by rw [hsum]; exact h⟩ l hl d rb re h1 h2

/-- C22 in builds with debug assertions, for messages the library compacts correctly and
iterators which do not under-estimate their length (or buffers with room for twice the items): splices do what they should exactly when
no partly filled packet lies behind the packets the payload needs; otherwise appending some
number of bytes, for which there is room, panics. -/
theorem C22_debug_exactly (k : Sx) (b : Buf .ump) (g : BitVec 4) (sizes : List Nat)
    (M : k.layout.IsMessage b g.toNat sizes) (hc : k.layout.Compactable sizes)
    (l : List k.Byte) (hl : k.payloadList b = .ok l) :
    ((∀ (d : Src k.Byte) (rb re : Bound), rb.first ≤ re.last l.length → re.last l.length ≤ l.length →
      rb.first = re.last l.length ∨ d.items.length ≤ d.upper.getD d.lower ∨
        k.layout.wireLength (l.length - (re.last l.length - rb.first) + 2 * d.items.length) ≤
          4 * b.length →
      ∃ b', b'.length = b.length ∧
      ((k.layout.wireLength (spliced l rb.first (re.last l.length) d.items).length ≤ 4 * b.length ∧
          (k.ops true .fixed).trySplice b d rb re = .ok (b', none) ∧
          k.Holds b' g (spliced l rb.first (re.last l.length) d.items)) ∨
       (4 * b.length < k.layout.wireLength (spliced l rb.first (re.last l.length) d.items).length ∧
          (k.ops true .fixed).trySplice b d rb re = .ok (b', some .bufferOverflow) ∧
          k.Holds b' g []))) ↔
      k.layout.Tidy (k.layout.words * (k.layout.fill l.length).length) b) ∧
    (¬ k.layout.Tidy (k.layout.words * (k.layout.fill l.length).length) b →
      ∃ items : List k.Byte, k.layout.wireLength (l ++ items).length ≤ 4 * b.length ∧
        (k.ops true .fixed).tryAppend b ⟨items, items.length, some items.length⟩ = .panic) := by
  obtain ⟨g', hg, V⟩ := isMessage_valid M
  have hg : g' = g := BitVec.eq_of_toNat_eq hg
  subst hg
  have hv : V.payload = l := by
    rw [V.frame.payloadList_eq] at hl
    injection hl
  have hsum : sizes.sum = l.length := by rw [← payload_length V, hv]
  have hps : k.payloadSize b = .ok l.length := by rw [V.frame.payloadSize_eq, ← hv]; rfl
  have key : ¬ k.layout.Tidy (k.layout.words * (k.layout.fill l.length).length) b →
      ∃ items : List k.Byte, k.layout.wireLength (l ++ items).length ≤ 4 * b.length ∧
        (k.ops true .fixed).trySplice b ⟨items, items.length, some items.length⟩
          (.included l.length) (.excluded l.length) = .panic := by
    intro hn
    obtain ⟨b0, p0, e1, P, C, -⟩ := V.compacted (compactable hc)
    rw [hv] at P C
    obtain ⟨items, i1, i2⟩ := append_panic e1 P fun ht =>
      hn (behind_iff (N := some 0).mp ((C.steady P (some 0)).mp ht))
    refine ⟨items, ?_, ?_⟩
    · rw [wireLength_eq, List.length_append, ← C.len]
      omega
    · unfold SxOps.trySplice
      rw [i2]
      rfl
  refine ⟨⟨fun h => ?_, fun h d rb re h1 h2 hh => ?_⟩, fun hn => ?_⟩
  · refine Classical.byContradiction fun hn => ?_
    obtain ⟨items, -, i2⟩ := key hn
    obtain ⟨b', -, h3⟩ := h _ (.included l.length) (.excluded l.length) (Nat.le_refl _) (Nat.le_refl _)
      (.inl rfl)
    rw [i2] at h3
    rcases h3 with ⟨-, h3, -⟩ | ⟨-, h3, -⟩ <;> cases h3
  · exact C22_try_splice_partial k true b g' sizes M ⟨hc, fun _ => by rw [hsum]; exact h⟩ l hl d rb re
      h1 h2 hh
  · obtain ⟨items, i1, i2⟩ := key hn
    refine ⟨items, i1, ?_⟩
    unfold SxOps.tryAppend
    show (k.payloadSize b >>= fun n => _) = _
    rw [hps]
    exact i2

-- C20, C22: an empty message with a partly filled packet in its third packet.
example : ¬ sysex7Layout.Tidy 2 [0x30000000, 0, 0, 0, 0x30110000, 0, 0, 0] := by
  intro h
  exact h 1 (by decide) (by decide) ⟨by decide, by decide, by decide⟩

-- C21, C22: two packets of 3 and 5 bytes, with and without such a packet behind them.
example : sysex7Layout.Compactable [3, 5] := .inr ⟨0, 3, by decide, by decide, rfl, by decide⟩
example : ((Sx.s7.ops true .fixed).tryAppend
      [0x30130001, 0x02000000, 0x30350304, 0x05060700, 0x30110000, 0, 0, 0]
      ⟨[8, 9, 10, 11], 4, some 4⟩) = .panic ∧
    ((Sx.s7.ops true .fixed).tryAppend
      [0x30130001, 0x02000000, 0x30350304, 0x05060700, 0, 0, 0, 0]
      ⟨[8, 9, 10, 11], 4, some 4⟩).isOk = true := by decide +kernel
-- A packet of another type in between stops resizable buffers from looking further.
example : sysex8Layout.TidyRun 4 [0x50130001, 0x02000000, 0, 0, 0x20000000, 0, 0, 0,
    0x50220003, 0, 0, 0] := by
  intro i h1 h2 h3 _
  have h4 := h3 1 (by omega)
  exact absurd h4 (by decide)

end Midi2
