import Verif.Lemmas.EffortFixed
import Verif.Props.Effort

/-!
# C71: the whole work of a splice in a buffer of fixed size
-/

namespace Midi2

open Sx

theorem Sx.tight_fixed (k : Sx) (dbg : Bool) {N : Nat} (hN : k.stride ≤ N) :
    Paced.Tight (k.ops dbg .fixed) (fun b => b.length = N) (N / k.stride * k.cap) := by
  intro s n s' sz hI h
  have h : k.tryResize .fixed s n = .ok (s', some sz) := h
  obtain ⟨-, h2⟩ := tryResize_len h
  have hf : ¬ k.bufferSize n ≤ s.length := by
    intro hle
    have : (Mem.fixed.resize s (k.bufferSize n)).2 = true := decide_eq_true hle
    rw [this] at h2
    cases h2
  refine Nat.lt_of_not_le fun hle => hf ?_
  have hI : s.length = N := hI
  rw [k.bufferSize_eq, hI, Nat.mul_comm]
  refine (Nat.le_div_iff_mul_le k.stride_pos).mp ((k.count_le_iff n _ ?_).mpr ?_)
  · exact Nat.div_pos hN k.stride_pos
  · rw [Nat.mul_comm]; exact hle

theorem Sxb.tight_fixed {N : Nat} (hN : 2 ≤ N) :
    Paced.Tight (Sxb.ops .fixed) (fun b => b.length = N) (N - 2) := by
  intro s n s' sz hI h
  have h : Sxb.tryResizeFixed s n = .ok (s', some sz) := h
  have hI : s.length = N := hI
  refine Nat.lt_of_not_le fun hle => ?_
  have hd : decide (n + 2 ≤ s.length) = true := decide_eq_true (by omega)
  unfold Sxb.tryResizeFixed at h
  obtain ⟨old, -, h⟩ := Res.of_bind_ok h
  simp only [hd, if_true] at h
  split at h
  · obtain ⟨b1, -, h⟩ := Res.of_bind_ok h
    obtain ⟨i, -, h⟩ := Res.of_bind_ok h
    obtain ⟨b2, -, h⟩ := Res.of_bind_ok h
    simp at h
  · obtain ⟨b1, -, h⟩ := Res.of_bind_ok h
    obtain ⟨i, -, h⟩ := Res.of_bind_ok h
    obtain ⟨b2, -, h⟩ := Res.of_bind_ok h
    simp at h

/-- C71: the whole work of a call of `try_splice_payload` that returns, on a message in a buffer of
fixed size that can be spliced, and whether it succeeds.  Missing: messages that cannot be spliced. -/
theorem C71_try_work_partial (k : Sx) (dbg : Bool) (b : Buf .ump) (g : BitVec 4) (l : List k.Byte)
    (R : k.Ready dbg true b g l) (d : Src k.Byte) (rb re : Bound)
    (h2 : re.last l.length ≤ l.length) (b' : Buf .ump) (eff : Effort) (o : Option Error)
    (h : (k.ops dbg .fixed).logged.trySplice (b, {}) d rb re = .ok ((b', eff), o)) :
    (eff, o.isNone) = d.tryWork (b.length / k.layout.words * k.layout.capacity) l.length rb.first
      (re.last l.length) := by
  obtain ⟨b0, e0, L⟩ := Ready.start (N := some b.length) R (by simp)
  obtain ⟨s0, n, c1, c2, c3⟩ :=
    (paced_fixed k dbg b.length).trySplice_work (k.tight_fixed dbg R.stride_le) rfl h
  have c1 : k.compact b = .ok s0 := c1
  rw [e0] at c1
  cases c1
  have c2 : k.payloadSize b0 = .ok n := c2
  rw [L.ready.size] at c2
  cases c2
  rw [spliceEnd_eq, spliceBegin_eq] at c3
  have hlen : b0.length = b.length := L.2.fixed _ rfl
  obtain ⟨⟨p, P⟩, -⟩ := L
  rw [capacity_eq, words_eq]
  refine c3 h2 (Nat.le_trans P.hi ?_)
  rw [Nat.mul_comm]
  refine Nat.mul_le_mul_right _ ((Nat.le_div_iff_mul_le k.stride_pos).mpr ?_)
  have := P.len
  rw [hlen, Nat.mul_comm] at this
  exact this

/-- C71: the same for byte messages. -/
theorem C71_bytes_try_work_partial (l : List (BitVec 7)) (r : List (BitVec 8))
    (d : Src (BitVec 7)) (rb re : Bound) (h2 : re.last l.length ≤ l.length) (b' : Buf .bytes)
    (eff : Effort) (o : Option Error)
    (h : (Sxb.ops .fixed).logged.trySplice (sysexBytes l ++ r, {}) d rb re = .ok ((b', eff), o)) :
    (eff, o.isNone) = d.tryWork (l.length + r.length) l.length rb.first (re.last l.length) := by
  have hl : (sysexBytes l ++ r).length = l.length + r.length + 2 := by
    simp [sysexBytes]; omega
  obtain ⟨s0, n, c1, c2, c3⟩ := (Sxb.paced_fixed (sysexBytes l ++ r).length).trySplice_work
    (Sxb.tight_fixed (by omega)) rfl h
  cases c1
  have hp : Sxb.payloadSize (sysexBytes l ++ r) = .ok l.length := by
    have := Sxb.payloadSize_raw (rest := r) (Sxb.end_notin l)
    rw [List.length_map] at this
    rw [← this]
    congr 1
    unfold sysexBytes Sxb.raw
    simp [Sxb.e, Sxb.endByte, Sxb.startByte]
  have c2 : Sxb.payloadSize (sysexBytes l ++ r) = .ok n := c2
  rw [hp] at c2
  cases c2
  rw [spliceEnd_eq, spliceBegin_eq, hl] at c3
  exact c3 h2 (by omega)

theorem follow_flag {room kept first back items : Nat} : ∀ (m : Nat) {est add : Nat},
    items - est ≤ m → est ≤ room →
    ((follow room kept first back items est add).2 = true ↔ items ≤ room) := by
  intro m
  induction m with
  | zero =>
    intro est add hm he
    rw [follow_done (by omega)]
    simp only [true_iff]
    omega
  | succ m ih =>
    intro est add hm he
    by_cases h : items ≤ est
    · rw [follow_done h]
      simp only [true_iff]
      omega
    · by_cases h1 : est + (add + 1) ≤ room
      · rw [follow_fits (by omega) h1]
        exact ih (by omega) h1
      · by_cases h2 : est < room
        · rw [follow_last (by omega) (by omega) h2]
          exact ih (by omega) (Nat.le_refl _)
        · rw [follow_full (by omega) (by omega)]
          simp only [Bool.false_eq_true, false_iff]
          omega

/-- C71: whether a call succeeds depends on the number of items and the room, and on nothing else:
not on the size hint. -/
theorem C71_fits {β : Type} (d : Src β) (cap size first last : Nat) :
    (d.tryWork cap size first last).2 = true ↔
      d.items.length ≤ cap - (size - (last - first)) :=
  follow_flag _ (Nat.le_refl _) (Nat.min_le_right _ _)

theorem sampleWorkFixed : Sx.s7.Ready true true [0x30160001, 0x02030405, 0x30320607, 0] 0
    [0, 1, 2, 3, 4, 5, 6, 7] :=
  ⟨by decide +kernel, by decide +kernel, [6, 2], sampleSysex7, sampleSysex7_spliceable _ _⟩

-- C71: ten bytes that do not fit in place of two, and four that do, without a hint.
example : (Src.tryWork ⟨[1, 2, 3, 4, 5, 6, 7, 8, 9, 10], 0, none⟩ 12 8 4 6 : Effort × Bool) =
    ({ resizes := [7, 9, 13, 20, 0], moves := [(6, 4), (4, 5), (5, 7), (7, 8), (10, 8)],
       writes := 6 }, false) := by decide +kernel

example : (Src.tryWork ⟨[1, 2, 3, 4], 0, none⟩ 12 8 4 6 : Effort × Bool) =
    ({ resizes := [7, 9, 13, 10], moves := [(6, 4), (4, 5), (5, 7), (7, 8), (10, 8)],
       writes := 4 }, true) := by decide +kernel

example (b' : Buf .ump) (eff : Effort) (o : Option Error)
    (h : (Sx.s7.ops true .fixed).logged.trySplice ([0x30160001, 0x02030405, 0x30320607, 0], {})
      ⟨[1, 2, 3, 4], 0, none⟩ (.included 4) (.included 5) = .ok ((b', eff), o)) :
    (eff, o.isNone) = Src.tryWork ⟨([1, 2, 3, 4] : List (BitVec 7)), 0, none⟩ 12 8 4 6 :=
  C71_try_work_partial .s7 true _ 0 _ sampleWorkFixed ⟨[1, 2, 3, 4], 0, none⟩ (.included 4)
    (.included 5) (by decide) b' eff o h

-- Such a call returns.
example : (Sx.s7.ops true .fixed).logged.trySplice ([0x30160001, 0x02030405, 0x30320607, 0], {})
      ⟨[1, 2, 3, 4], 0, none⟩ (.included 4) (.included 5) ≠ .panic := by decide +kernel

example : (Sxb.ops .fixed).logged.trySplice (sysexBytes [1, 2, 3, 4] ++ [5, 6], {})
      ⟨[9, 10, 11, 12], 4, some 4⟩ (.included 1) (.excluded 2) ≠ .panic := by decide +kernel

end Midi2
