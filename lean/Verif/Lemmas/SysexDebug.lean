import Verif.Lemmas.SysexHold

/-! Builds with debug assertions: when `move_payload_tail` panics. -/

namespace Midi2

namespace Sx

theorem moveTail_panic {k : Sx} {b : Buf .ump} (h : k.isCompact b = false) (i j : Nat) :
    k.moveTail true b i j = .panic := by
  unfold moveTail
  rw [h]
  rfl

theorem typOctet_typ (k : Sx) (g : BitVec 4) : (k.typOctet g).extractLsb' 4 4 = k.typ := by
  unfold typOctet
  rw [append_hi]

/-- A splice which does not grow the payload. -/
theorem detail_panic {k : Sx} {m : Mem} {b b0 : Buf .ump} {n : Nat} (hc : k.compact b = .ok b0)
    (hn : k.payloadSize b0 = .ok n) (hf : k.isCompact b0 = false) (d : Src k.Byte) (rb re : Bound)
    (h1 : rb.first ≤ re.last n) (he : d.estimate ≤ re.last n - rb.first) :
    (k.ops true m).trySpliceDetail b d rb re = .panic := by
  unfold SxOps.trySpliceDetail
  show (k.compact b >>= fun s => k.payloadSize s >>= fun initial => _) = _
  rw [hc]
  simp only [Res.ok_bind]
  rw [hn]
  simp only [Res.ok_bind]
  rw [spliceBegin_eq, spliceEnd_eq]
  unfold usub
  rw [if_pos h1]
  simp only [Res.ok_bind]
  have hg : (k.ops true m).firstGrow b0 (re.last n) n (re.last n - rb.first) d.estimate =
      .ok (b0, d.estimate) := by
    unfold SxOps.firstGrow usub
    rw [if_pos (by omega)]
    simp only [Res.ok_bind]
    rw [if_neg (by omega)]
  rw [hg]
  simp only [Res.ok_bind]
  rw [if_pos (by omega)]
  simp only [Res.ok_bind]
  show (k.moveTail true b0 _ _ >>= fun s => _) = _
  rw [moveTail_panic hf]
  rfl

/-- Appending so many bytes that the message reaches up to a stale packet. -/
theorem append_panic {k : Sx} {b b0 : Buf .ump} {g : BitVec 4} {p : Nat} {l : List k.Byte}
    (hc : k.compact b = .ok b0) (P : Packed k g p b0 l) (h : ¬ Tidy k b0) :
    ∃ items : List k.Byte, k.stride * k.count (l.length + items.length) ≤ b0.length ∧
      (k.ops true .fixed).trySpliceDetail b ⟨items, items.length, some items.length⟩
        (.included l.length) (.excluded l.length) = .panic := by
  have hs := k.stride_pos
  have hcap := k.cap_pos
  have hsz : k.payloadSize b0 = .ok l.length := P.payloadSize_eq
  unfold Tidy at h
  simp only [Classical.not_forall] at h
  obtain ⟨i, o0, o1, hl, h0, h1, ht, hst, hbad⟩ := h
  have e4 := k.four_stride i
  have hp : p ≤ 4 / k.stride * i := by
    rcases Nat.lt_or_ge (4 / k.stride * i) p with hlt | hge
    · exact absurd (P.full_head hlt (by rw [← e4]; exact h1) hst) hbad
    · exact hge
  have hcl : k.count l.length ≤ p := (k.count_le_iff _ _ P.pos).mpr P.hi
  generalize hj : 4 / k.stride * i = j at *
  have hmul : k.cap * p ≤ k.cap * j := Nat.mul_le_mul_left _ hp
  have hle : l.length ≤ k.cap * j := Nat.le_trans P.hi hmul
  have hpos := P.pos
  have hcj : k.count (k.cap * j) = j := by
    apply Nat.le_antisymm
    · exact (k.count_le_iff _ _ (by omega)).mpr (Nat.le_refl _)
    · have := k.le_count (k.cap * j)
      exact Nat.le_of_mul_le_mul_left this hcap
  have hfit : k.stride * j ≤ b0.length := by omega
  have hrun : ∀ b1 : Buf .ump, b1.length = b0.length →
      (∀ j', j' < j → octetAt b1 (4 * (k.stride * j')) = some (k.typOctet g)) →
      octetAt b1 (16 * i) = some o0 → octetAt b1 (16 * i + 1) = some o1 → k.isCompact b1 = false := by
    intro b1 hlen htyp h0 h1
    rw [← Bool.not_eq_true, isCompact_iff]
    intro hr
    refine hbad (hr i o1 (Nat.zero_le _) (by omega) (fun i' hi' => ?_) h1 hst)
    rcases Nat.lt_or_ge i' i with hlt | hge
    · refine ⟨k.typOctet g, ?_, k.typOctet_typ g⟩
      rw [k.four_stride i']
      apply htyp
      rw [← hj]
      cases k <;> simp only [stride] at * <;> omega
    · have : i' = i := by omega
      subst this
      exact ⟨o0, h0, ht⟩
  refine ⟨List.replicate (k.cap * j - l.length) 0, ?_, ?_⟩
  · rw [List.length_replicate, show l.length + (k.cap * j - l.length) = k.cap * j by omega, hcj]
    exact hfit
  · rw [List.length_replicate]
    by_cases heq : l.length = k.cap * j
    · have hjp : p = j := by
        have h2 := P.lo
        have : k.cap * (p - 1) ≤ k.cap * j := Nat.mul_le_mul_left _ (by omega)
        have h3 := P.hi
        have : k.cap * j ≤ k.cap * p := by omega
        have := Nat.le_of_mul_le_mul_left this hcap
        omega
      subst hjp
      exact detail_panic hc hsz (hrun b0 rfl P.oct0 h0 h1) _ _ _ (by simp [Bound.first, Bound.last])
        (by simp [Bound.first, Bound.last, Src.estimate]; omega)
    · unfold SxOps.trySpliceDetail
      show (k.compact b >>= fun s => k.payloadSize s >>= fun initial => _) = _
      rw [hc]
      simp only [Res.ok_bind]
      rw [hsz]
      simp only [Res.ok_bind]
      rw [spliceBegin_eq, spliceEnd_eq]
      simp only [Bound.first, Bound.last, Src.estimate]
      unfold usub
      rw [if_pos (Nat.le_refl _)]
      simp only [Res.ok_bind, Nat.sub_self]
      obtain ⟨b1, e1, r⟩ := k.tryResize_fine (m := .fixed) (b := b0) (n := k.cap * j) (b1 := b0)
        (by simp [Mem.resize, hcj, hfit]) (by rw [hcj]; exact hfit) P.group_eq
      rw [hcj] at r
      have hg : (k.ops true .fixed).firstGrow b0 l.length l.length 0 (k.cap * j - l.length) =
          .ok (b1, k.cap * j - l.length) := by
        unfold SxOps.firstGrow usub
        rw [if_pos (Nat.zero_le _)]
        simp only [Res.ok_bind]
        rw [if_pos (by omega), if_pos (Nat.zero_le _)]
        simp only [Res.ok_bind]
        show (k.tryResize .fixed b0 _ >>= fun r => _) = _
        rw [show k.cap * j - l.length + l.length - 0 = k.cap * j by omega, e1]
        rfl
      rw [hg]
      simp only [Res.ok_bind]
      rw [if_pos (Nat.zero_le _)]
      simp only [Res.ok_bind]
      show (k.moveTail true b1 _ _ >>= fun s => _) = _
      rw [moveTail_panic (hrun b1 r.len r.oct0 ?_ ?_)]
      · rfl
      · rw [r.beyond _ (by omega)]; exact h0
      · rw [r.beyond _ (by omega)]; exact h1

end Sx

end Midi2
