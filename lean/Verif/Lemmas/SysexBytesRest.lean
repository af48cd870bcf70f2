import Verif.Lemmas.SysexBytesExact
import Verif.Lemmas.SysexBytesOctet

/-! # How much of what lies behind a byte message a splice in a growable buffer looks at -/

namespace Midi2

namespace Sxb

theorem vecResize_take (p rest : List (BitVec 8)) {n : Nat} (hn : p.length < n) :
    vecResize (p ++ 0 :: rest.take (n - p.length - 1)) n = vecResize (p ++ 0 :: rest) n := by
  obtain ⟨j, rfl⟩ : ∃ j, n = p.length + 1 + j := ⟨n - p.length - 1, by omega⟩
  unfold vecResize
  rw [List.take_append, List.take_append, show p.length + 1 + j - p.length = j + 1 by omega,
    show j + 1 - 1 = j by omega, List.take_succ_cons, List.take_succ_cons, List.take_take, Nat.min_self]
  congr 2
  simp only [List.length_append, List.length_cons, List.length_take]
  omega

/-- Growing looks at this many bytes. -/
theorem resizeVec_take {p rest : List (BitVec 8)} (hp : endByte ∉ p) {n : Nat} (hn : p.length < n) :
    resizeVec (raw p (rest.take (n - p.length - 1))) n = resizeVec (raw p rest) n := by
  rw [resizeVec_grow hp hn, resizeVec_grow hp hn, vecResize_take p rest hn]

/-- A resize by at most one byte looks at none of them. -/
theorem resizeVec_little {p : List (BitVec 8)} (rest rest' : List (BitVec 8)) (hp : endByte ∉ p) {n : Nat}
    (hn : n ≤ p.length + 1) : resizeVec (raw p rest) n = resizeVec (raw p rest') n := by
  rcases Nat.lt_or_ge p.length n with h | h
  · rw [← resizeVec_take (rest := rest) hp h, ← resizeVec_take (rest := rest') hp h,
      show n - p.length - 1 = 0 by omega]
    rfl
  · rw [resizeVec_shrink hp h, resizeVec_shrink hp h]

/-- From the main loop on, with an estimate not above the number of bytes replaced. -/
theorem loop_rest {a x t : List (BitVec 8)} (hp : endByte ∉ a ++ x ++ t) (rest rest' : List (BitVec 8))
    (items : List (BitVec 7)) (fuel initial sp : Nat) (hi : initial = (a ++ x ++ t).length)
    (hsp : x.length ≤ sp) (hsp' : sp ≤ initial) :
    ((ops .vec).mainLoop a.length initial sp fuel (raw (a ++ x ++ t) rest) items 0 x.length 1
        (a.length + x.length) >>= (ops .vec).finish a.length initial sp) =
      ((ops .vec).mainLoop a.length initial sp fuel (raw (a ++ x ++ t) rest') items 0 x.length 1
        (a.length + x.length) >>= (ops .vec).finish a.length initial sp) := by
  cases fuel with
  | zero => rfl
  | succ fuel =>
    have fin : ∀ (w : Nat) (q : List (BitVec 8)), endByte ∉ q → q.length = initial → w ≤ x.length →
        (ops .vec).finish a.length initial sp (.done (raw q rest) w (a.length + x.length)) =
          (ops .vec).finish a.length initial sp (.done (raw q rest') w (a.length + x.length)) := by
      intro w q hq hl hw
      unfold SxOps.finish
      have hmv : ∃ q', endByte ∉ q' ∧ q'.length = initial ∧ ∀ rest,
          (ops .vec).moveTail (raw q rest) (a.length + x.length) (a.length + w) = .ok (raw q' rest) := by
        rcases Nat.eq_or_lt_of_le hw with h | h
        · exact ⟨q, hq, hl, fun rest => by rw [h]; exact moveSame_raw hq _⟩
        · have h2 : a.length + x.length ≤ q.length := by rw [hl, hi]; simp
          refine ⟨_, ?_, ?_, fun rest => moveDown_raw hq (by omega) h2⟩
          · simp only [List.mem_append, not_or]
            exact ⟨⟨fun h => hq (List.mem_of_mem_take h), fun h => hq (List.mem_of_mem_drop h)⟩,
              fun h => hq (List.mem_of_mem_drop h)⟩
          · simp only [List.length_append, List.length_take, List.length_drop]
            omega
      obtain ⟨q', hq', hl', hmv⟩ := hmv
      simp only [hmv, Res.ok_bind]
      by_cases hle : sp ≤ w + initial
      · rw [usub_ok hle]
        simp only [Res.ok_bind]
        have : (ops .vec).resize (raw q' rest) (w + initial - sp) =
            (ops .vec).resize (raw q' rest') (w + initial - sp) := by
          show (do return (← resizeVec _ _, none) : Res _) = (do return (← resizeVec _ _, none) : Res _)
          rw [resizeVec_little rest rest' hq' (by omega)]
        rw [this]
      · omega
    have hfill := fun rest => fill_at .vec rest a t x.length items [] x (by simp)
    simp only [List.append_nil, List.length_nil, Nat.zero_add] at hfill
    unfold SxOps.mainLoop
    simp only [hfill, Res.ok_bind]
    have hq : endByte ∉ a ++ (items.map e).take x.length ++ x.drop items.length ++ t := by
      simp only [List.mem_append, not_or] at hp ⊢
      exact ⟨⟨⟨hp.1.1, fun h => end_notin items (List.mem_of_mem_take h)⟩,
        fun h => hp.1.2 (List.mem_of_mem_drop h)⟩, hp.2⟩
    have hl : (a ++ (items.map e).take x.length ++ x.drop items.length ++ t).length = initial := by
      rw [hi]
      simp only [List.length_append, List.length_take, List.length_drop, List.length_map]
      omega
    split
    · exact fin _ _ hq hl (by omega)
    · rename_i hlt
      simp only [decide_eq_true_eq] at hlt
      rw [show min x.length items.length = x.length by omega]
      simp only [beq_self_eq_true, Res.assert, if_true, Res.ok_bind]
      split
      · exact fin _ _ hq hl (by omega)
      · have hg : ∀ rest'', (ops .vec).growMore
            (raw (a ++ (items.map e).take x.length ++ x.drop items.length ++ t) rest'') a.length
            (a.length + x.length) initial sp (x.length + 1) =
            (usub (x.length + 1 + initial) sp >>= fun n => do
              let s ← resizeVec (raw (a ++ (items.map e).take x.length ++ x.drop items.length ++ t) rest'') n
              .ok (s, x.length + 1, a.length + (x.length + 1))) := by
          intro rest''
          unfold SxOps.growMore
          rw [if_pos (by omega)]
          congr 1; funext n
          show ((do return (← resizeVec _ _, none) : Res _) >>= _) = _
          rw [bind_assoc]
          rfl
        rw [hg, hg, usub_ok (by omega)]
        simp only [Res.ok_bind]
        rw [resizeVec_little rest rest' hq (by omega)]

/-- A splice in a growable buffer looks at no more of what lies behind the message than the size
hint exceeds the number of bytes replaced, less one. -/
theorem detail_rest {a r t rest : List (BitVec 8)} (hp : endByte ∉ a ++ r ++ t) (d : Src (BitVec 7))
    (rb re : Bound) (hrb : rb.first = a.length)
    (hre : re.last (a ++ r ++ t).length = (a ++ r).length) :
    (ops .vec).trySpliceDetail (raw (a ++ r ++ t) rest) d rb re =
      (ops .vec).trySpliceDetail (raw (a ++ r ++ t) (rest.take (d.estimate - r.length - 1))) d rb re := by
  have hlp : (a ++ r ++ t).length = a.length + r.length + t.length := by simp; omega
  have hlar : (a ++ r).length = a.length + r.length := by simp
  have hps : ∀ rest, (ops .vec).payloadSize (raw (a ++ r ++ t) rest) = .ok (a ++ r ++ t).length :=
    fun _ => payloadSize_raw hp
  have hc : ∀ s, (ops .vec).compact s = .ok s := fun _ => rfl
  rw [SxOps.trySpliceDetail_eq, SxOps.trySpliceDetail_eq]
  unfold SxOps.toLoop
  simp only [hc, Res.ok_bind, hps]
  rw [Sx.spliceBegin_eq, Sx.spliceEnd_eq, hrb, hre, usub_ok (by rw [hlar]; omega)]
  simp only [Res.ok_bind]
  rw [show (a ++ r).length - a.length = r.length by rw [hlar]; omega]
  rcases Nat.lt_or_ge r.length d.estimate with hg | hg
  · have : (ops .vec).firstGrow (raw (a ++ r ++ t) rest) (a ++ r).length (a ++ r ++ t).length r.length
          d.estimate =
        (ops .vec).firstGrow (raw (a ++ r ++ t) (rest.take (d.estimate - r.length - 1))) (a ++ r).length
          (a ++ r ++ t).length r.length d.estimate := by
      unfold SxOps.firstGrow
      rw [usub_ok (by rw [hlar]; omega)]
      simp only [Res.ok_bind]
      rw [if_pos (by rw [hlar]; omega), if_pos (by rw [hlar]; omega), usub_ok (by rw [hlp]; omega)]
      simp only [Res.ok_bind]
      have : (ops .vec).resize (raw (a ++ r ++ t) rest) (d.estimate + (a ++ r ++ t).length - r.length) =
          (ops .vec).resize (raw (a ++ r ++ t) (rest.take (d.estimate - r.length - 1)))
            (d.estimate + (a ++ r ++ t).length - r.length) := by
        show (do return (← resizeVec _ _, none) : Res _) = (do return (← resizeVec _ _, none) : Res _)
        rw [← resizeVec_take (rest := rest) hp (by rw [hlp]; omega),
          show d.estimate + (a ++ r ++ t).length - r.length - (a ++ r ++ t).length - 1 =
            d.estimate - r.length - 1 by rw [hlp]; omega]
      rw [this]
    rw [this]
  · rw [show d.estimate - r.length - 1 = 0 by omega, List.take_zero]
    have hfg : ∀ rest, (ops .vec).firstGrow (raw (a ++ r ++ t) rest) (a ++ r).length (a ++ r ++ t).length
        r.length d.estimate = .ok (raw (a ++ r ++ t) rest, d.estimate) := by
      intro rest
      unfold SxOps.firstGrow
      rw [usub_ok (by rw [hlar]; omega)]
      simp only [Res.ok_bind]
      rw [if_neg (by rw [hlar]; omega)]
    simp only [hfg, Res.ok_bind]
    rw [usub_ok (by rw [hlar]; omega)]
    simp only [Res.ok_bind]
    rw [show (a ++ r).length + d.estimate - r.length = a.length + d.estimate by rw [hlar]; omega]
    obtain ⟨q, hq, hql, hmv⟩ : ∃ q, endByte ∉ q ∧ q.length = (a ++ r ++ t).length ∧
        q.take a.length = a ∧ ∀ rest,
        (ops .vec).moveTail (raw (a ++ r ++ t) rest) (a ++ r).length (a.length + d.estimate) =
          .ok (raw q rest) := by
      rcases Nat.eq_or_lt_of_le hg with h | h
      · refine ⟨_, hp, rfl, by rw [List.append_assoc, List.take_left], fun rest => ?_⟩
        rw [show a.length + d.estimate = (a ++ r).length by rw [hlar]; omega]
        exact moveSame_raw hp _
      · refine ⟨_, ?_, ?_, ?_, fun rest => moveDown_raw hp (by rw [hlar]; omega) (by rw [hlp, hlar]; omega)⟩
        · simp only [List.mem_append, not_or]
          exact ⟨⟨fun h => hp (by simpa using List.mem_of_mem_take h),
            fun h => hp (by simpa using List.mem_of_mem_drop h)⟩,
            fun h => hp (by simpa using List.mem_of_mem_drop h)⟩
        · simp only [List.length_append, List.length_take, List.length_drop]
          omega
        · rw [List.append_assoc, List.append_assoc,
            List.take_append_of_le_length (by simp), List.take_take,
            Nat.min_eq_left (by omega), List.take_left]
    obtain ⟨hqa, hmv⟩ := hmv
    simp only [hmv, Res.ok_bind]
    obtain ⟨x, t', rfl, hx⟩ : ∃ x t', q = a ++ x ++ t' ∧ x.length = d.estimate := by
      refine ⟨(q.drop a.length).take d.estimate, (q.drop a.length).drop d.estimate, ?_, ?_⟩
      · rw [List.append_assoc, List.take_append_drop]
        conv => rhs; lhs; rw [← hqa]
        rw [List.take_append_drop]
      · rw [List.length_take, List.length_drop, hql, hlp]; omega
    have key := loop_rest hq rest [] d.items (d.items.length + 1) (a ++ r ++ t).length r.length hql.symm
      (by omega) (by rw [hlp]; omega)
    rw [hx] at key
    simp only [bind_assoc, pure_bind]
    exact key

theorem splice_rest {a r t rest : List (BitVec 8)} (hp : endByte ∉ a ++ r ++ t) (d : Src (BitVec 7))
    (rb re : Bound) (hrb : rb.first = a.length)
    (hre : re.last (a ++ r ++ t).length = (a ++ r).length) :
    (ops .vec).splice (raw (a ++ r ++ t) rest) d rb re =
      (ops .vec).splice (raw (a ++ r ++ t) (rest.take (d.estimate - r.length - 1))) d rb re := by
  unfold SxOps.splice
  rw [detail_rest hp d rb re hrb hre]

end Sxb

end Midi2
