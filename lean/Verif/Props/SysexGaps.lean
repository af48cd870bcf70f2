import Verif.Lemmas.Seated
import Verif.Props.Sysex

/-! # C21, C22: splicing any complete message

`Assumed` says which bytes the library takes for the payload of a message: the payload, unless
packets are partly filled and the library does not notice. -/

namespace Midi2

open Sx

theorem assumed_unique {L : SysexLayout} {b : List (BitVec 32)} {sizes l l' : List Nat}
    (h : L.Assumed b sizes l) (h' : L.Assumed b sizes l') : l = l' := by
  by_cases ht : L.TidyRun 0 b
  · rw [h.2 ht, h'.2 ht]
  · rw [h.1 ht, h'.1 ht]

theorem toNat_inj {n : Nat} {l l' : List (BitVec n)} (h : l.map BitVec.toNat = l'.map BitVec.toNat) :
    l = l' :=
  (List.map_inj_right fun _ _ e => BitVec.eq_of_toNat_eq e).mp h

/-- C21 for every complete message: `splice_payload` is `Vec::splice` on the bytes which the
library takes for the payload, for any size hint.  (In builds with debug assertions if nothing
partly filled follows the packets which the payload needs.) -/
theorem C21_splice_exactly (k : Sx) (dbg : Bool) (b : Buf .ump) (g : BitVec 4) (sizes : List Nat)
    (M : k.layout.IsMessage b g.toNat sizes)
    (hb : dbg = true → k.layout.Behind false sizes.sum b) :
    ∃ l : List k.Byte, k.layout.Assumed b sizes (l.map BitVec.toNat) ∧ l.length = sizes.sum ∧
      ∀ (d : Src k.Byte) (rb re : Bound), rb.first ≤ re.last l.length → re.last l.length ≤ l.length →
        ∃ b', (k.ops dbg .vec).splice b d rb re = .ok b' ∧
          k.Holds b' g (spliced l rb.first (re.last l.length) d.items) ∧ k.data b' = .ok b' := by
  obtain ⟨b0, l0, h1, h2, h3, h4⟩ := seats_start (inv_true k) (N := none) M hb trivial (by simp)
  refine ⟨l0, h1, h2, fun d rb re r1 r2 => ?_⟩
  obtain ⟨b', e, S⟩ := splice_vec_of k (lawsSeated k dbg g none (inv_true k)) h3 h4 d rb re r1 r2
  exact ⟨b', e, S.holds, S.data_self⟩

example : ∃ l : List (BitVec 7), l.length = 8 ∧
    ∃ b', (Sx.s7.ops false .vec).splice [0x30160001, 0x02030405, 0x30320607, 0]
      ⟨[0x11], 9, none⟩ (.included 0) (.excluded 0) = .ok b' ∧
      Sx.s7.Holds b' 0 (0x11 :: l) := by
  obtain ⟨l, _, h1, h2⟩ := C21_splice_exactly .s7 false [0x30160001, 0x02030405, 0x30320607, 0] 0 [6, 2]
    sampleSysex7 (fun h => absurd h (by decide))
  obtain ⟨b', h3, h4, _⟩ := h2 ⟨[0x11], 9, none⟩ (.included 0) (.excluded 0) (Nat.le_refl _) (Nat.zero_le _)
  exact ⟨l, h1, b', h3, h4⟩

/-- The messages for which C21 holds are exactly those whose packets the library either sees to be
partly filled or which have their payload at the beginning of the packets anyway; with debug
assertions also nothing partly filled may follow the packets which the payload needs. -/
theorem C21_holds_exactly (k : Sx) (dbg : Bool) (b : Buf .ump) (g : BitVec 4) (sizes : List Nat)
    (M : k.layout.IsMessage b g.toNat sizes) (l : List k.Byte) (hl : k.payloadList b = .ok l) :
    (∀ (d : Src k.Byte) (rb re : Bound), rb.first ≤ re.last l.length → re.last l.length ≤ l.length →
      ∃ b', (k.ops dbg .vec).splice b d rb re = .ok b' ∧
        k.Holds b' g (spliced l rb.first (re.last l.length) d.items) ∧ k.data b' = .ok b') ↔
    (dbg = true → k.layout.Behind false sizes.sum b) ∧
      (k.layout.TidyRun 0 b → k.layout.payload b (k.layout.fill sizes.sum) = k.layout.payload b sizes) := by
  have hpay := payload_take k M l hl
  have hsum : sizes.sum = l.length := by
    obtain ⟨g', hg, V⟩ := isMessage_valid M
    rw [← payload_length V]
    rw [V.frame.payloadList_eq] at hl
    injection hl with hl
    rw [← hl]; rfl
  constructor
  · intro h
    have hd : dbg = true → k.layout.Behind false sizes.sum b := by
      intro hd
      subst hd
      refine Classical.byContradiction fun hn => ?_
      obtain ⟨b', h3, -⟩ := h ⟨[], 0, some 0⟩ (.included 0) (.excluded 0) (Nat.le_refl _) (Nat.zero_le _)
      obtain ⟨g', hg, V⟩ := isMessage_valid M
      have hcm : ¬ k.isCompact b = true := fun hc => hn (behind_iff (N := none).mp (by
        have hc := isCompact_iff.mp hc
        intro i o1 hq hl' ht h1 hs
        exact hc i o1 (by omega) hl' ht h1 hs))
      obtain ⟨b0, p0, e1, P, C, -⟩ := V.compacted_of fun h => absurd h hcm
      have hf : k.isCompact b0 = false := by
        rw [← Bool.not_eq_true]
        intro ht
        apply hn
        have := (C.steady P none).mp ht
        rw [payload_length V] at this
        exact behind_iff (N := none).mp this
      unfold SxOps.splice at h3
      rw [detail_panic e1 P.payloadSize_eq hf _ _ _ (Nat.le_refl _) (Nat.zero_le _)] at h3
      cases h3
    refine ⟨hd, fun ht => ?_⟩
    obtain ⟨l0, a1, a2, a3⟩ := C21_splice_exactly k dbg b g sizes M hd
    obtain ⟨b1, e1, H1, -⟩ := a3 ⟨[], 0, some 0⟩ (.included 0) (.excluded 0) (Nat.le_refl _) (Nat.zero_le _)
    obtain ⟨b2, e2, H2, -⟩ := h ⟨[], 0, some 0⟩ (.included 0) (.excluded 0) (Nat.le_refl _) (Nat.zero_le _)
    rw [e1] at e2
    cases e2
    have := H1.payload
    rw [H2.payload] at this
    injection this with this
    have : l = l0 := by simpa [spliced, Bound.first, Bound.last] using this
    rw [hpay, this]
    exact (a1.2 ht).symm
  · rintro ⟨hd, he⟩
    obtain ⟨l0, a1, a2, a3⟩ := C21_splice_exactly k dbg b g sizes M hd
    have : l0 = l := by
      apply toNat_inj
      refine assumed_unique a1 ⟨fun _ => hpay.symm, fun ht => ?_⟩
      rw [he ht]; exact hpay.symm
    subst this
    exact a3

example : ∃ b', (Sx.s7.ops false .vec).splice [0x30160001, 0x02030405, 0x30320607, 0]
      ⟨[0x11], 9, none⟩ (.included 0) (.included 5) = .ok b' ∧
    Sx.s7.Holds b' 0 [0x11, 6, 7] ∧ Sx.s7.data b' = .ok b' :=
  (C21_holds_exactly .s7 false _ 0 [6, 2] sampleSysex7 [0, 1, 2, 3, 4, 5, 6, 7] (by decide +kernel)).mpr
    ⟨fun h => absurd h (by decide), fun _ => by decide +kernel⟩ _ _ _ (by decide) (by decide)

/-- C22 for every complete message: `try_splice_payload` on a buffer of fixed size succeeds
exactly when the packets of the result fit, and then is `Vec::splice` on the bytes which the
library takes for the payload, if the size hint is not too small or irrelevant; otherwise it
reports `BufferOverflow` and leaves an empty payload. -/
theorem C22_try_splice_exactly (k : Sx) (dbg : Bool) (b : Buf .ump) (g : BitVec 4) (sizes : List Nat)
    (M : k.layout.IsMessage b g.toNat sizes)
    (hb : dbg = true → k.layout.Behind true sizes.sum b) :
    ∃ l : List k.Byte, k.layout.Assumed b sizes (l.map BitVec.toNat) ∧ l.length = sizes.sum ∧
      ∀ (d : Src k.Byte) (rb re : Bound), rb.first ≤ re.last l.length → re.last l.length ≤ l.length →
        ∃ b', b'.length = b.length ∧
          ((k.layout.wireLength (spliced l rb.first (re.last l.length) d.items).length ≤ 4 * b.length ∧
            (k.ops dbg .fixed).trySplice b d rb re = .ok (b', none) ∧
            (∃ t : List k.Byte, k.Holds b' g (l.take rb.first ++ t) ∧
              (l.take rb.first ++ t).length =
                (spliced l rb.first (re.last l.length) d.items).length) ∧
            (rb.first = re.last l.length ∨ d.items.length ≤ d.upper.getD d.lower ∨
              k.layout.wireLength (l.length - (re.last l.length - rb.first) + 2 * d.items.length) ≤
                4 * b.length →
              k.Holds b' g (spliced l rb.first (re.last l.length) d.items))) ∨
          (4 * b.length < k.layout.wireLength (spliced l rb.first (re.last l.length) d.items).length ∧
            (k.ops dbg .fixed).trySplice b d rb re = .ok (b', some .bufferOverflow) ∧
            k.Holds b' g [])) := by
  obtain ⟨b0, l, h1, h2, h3, h4⟩ := seats_start (inv_true k) (N := some b.length) M hb trivial (by simp)
  refine ⟨l, h1, h2, fun d rb re r1 r2 => ?_⟩
  have hN : k.stride ≤ b.length := by
    have h := M.whole
    rw [words_eq] at h
    have : 0 < sizes.length := by
      cases sizes with
      | nil => exact absurd rfl M.nonempty
      | cons => simp
    have := Nat.mul_le_mul_left k.stride this
    omega
  have L := lawsSeated k dbg g (some b.length) (inv_true k)
  have key := splice_fixed_any_of k L hN h3 h4 d rb re r1 r2
  have he : d.upper.getD d.lower = d.estimate := by
    unfold Src.estimate
    cases d.upper <;> rfl
  rw [he, wireLength_eq, wireLength_eq]
  by_cases hf : k.stride * k.count (spliced l rb.first (re.last l.length) d.items).length ≤ b.length
  · obtain ⟨b', t, e, ht, S⟩ := key.1 hf
    refine ⟨b', S.whole.fixed _ rfl, .inl ⟨by omega, e, ⟨t, S.holds, ?_⟩, fun hh => ?_⟩⟩
    · unfold spliced
      simp only [List.length_append, List.length_drop]
      omega
    · obtain ⟨b'', e', S'⟩ := (splice_fixed_of k L hN h3 h4 d rb re r1 r2 (by
        rcases hh with h | h | h
        · exact .inl h
        · exact .inr (.inl h)
        · exact .inr (.inr (by omega)))).1 hf
      rw [e] at e'
      cases e'
      exact S'.holds
  · obtain ⟨b', e, S⟩ := key.2 (by omega)
    exact ⟨b', S.whole.fixed _ rfl, .inr ⟨by omega, e, S.holds⟩⟩

-- A message of three packets of which the second holds one byte: the library does not notice, and
-- takes the zeros behind that byte and the first byte of the last packet for the payload.
example : sysex7Layout.payload [0x30160001, 0x02030405, 0x30210600, 0, 0x30360708, 0x090A0B0C]
    (sysex7Layout.fill 13) = [0, 1, 2, 3, 4, 5, 6, 0, 0, 0, 0, 0, 7] := by decide +kernel
example : (Sx.s7.ops true .vec).splice [0x30160001, 0x02030405, 0x30210600, 0, 0x30360708, 0x090A0B0C]
    ⟨[0x7f], 1, some 1⟩ (.included 0) (.excluded 0) =
    .ok [0x30167F00, 0x01020304, 0x30260506, 0, 0x30320007, 0] := by decide +kernel
-- If the first packet is the short one it does notice.
example : (Sx.s7.ops true .vec).splice [0x30110600, 0, 0x30260001, 0x02030405, 0x30320708, 0]
    ⟨[0x7f], 1, some 1⟩ (.included 0) (.excluded 0) =
    .ok [0x30167F06, 0x00010203, 0x30340405, 0x07080000] := by decide +kernel

end Midi2
