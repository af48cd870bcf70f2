import Verif.Lemmas.SysexBytesGuess
import Verif.Lemmas.SysexBytesStale

/-! # Replacing the end of the payload of a byte message in a fixed buffer with room for all guesses -/

namespace Midi2

namespace Sxb

/-- The main loop over bytes of which those behind the written ones are `B`, if the last guess fits. -/
theorem mainLoop_room (a B : List (BitVec 8)) (ha : endByte ∉ a) (s c : Nat) (hB : B.length = c + 1) :
    ∀ (fuel : Nat) (data x : List (BitVec 7)) (q : List (BitVec 8)) (est add k : Nat),
      est = x.length + q.length → 0 < add → data.length + x.length + 1 ≤ fuel + est → 0 < fuel →
      q.drop data.length = (B.take est).drop (x.length + data.length) →
      est + add * (2 ^ k - 1) ≤ c → x.length + data.length ≤ est + add * (2 ^ k - 1) →
      (∀ j < k, est + add * (2 ^ j - 1) < x.length + data.length) →
      (ops .fixed).mainLoop a.length (a.length + s) s fuel (raw (a ++ x.map e ++ q) (B.drop (est + 1))) data
          x.length est add (a.length + est) =
        .ok (.done (raw (a ++ (x ++ data).map e ++ (B.take (est + add * (2 ^ k - 1))).drop (x.length + data.length))
            (B.drop (est + add * (2 ^ k - 1) + 1)))
          (x.length + data.length) (a.length + (est + add * (2 ^ k - 1)))) := by
  intro fuel
  induction fuel with
  | zero => intro data x q est add k _ _ _ h; omega
  | succ fuel ih =>
    intro data x q est add k he hadd hfuel _ hq hroom hm hleast
    have hf := fill_at .fixed (B.drop (est + 1)) a [] est data (x.map e) q (by rw [List.length_map]; exact he)
    rw [List.length_map] at hf
    simp only [List.append_nil] at hf
    simp only [SxOps.mainLoop, hf, Res.ok_bind]
    by_cases hd : data.length ≤ q.length
    · obtain rfl : k = 0 := by
        cases k with
        | zero => rfl
        | succ k => have := hleast 0 (by omega); simp at this; omega
      have key : raw (a ++ x.map e ++ (data.map e).take q.length ++ q.drop data.length) (B.drop (est + 1)) =
          raw (a ++ (x ++ data).map e ++ q.drop data.length) (B.drop (est + 1)) := by
        rw [List.take_of_length_le (by simpa using hd), List.map_append]
        simp only [List.append_assoc]
      have hm : x.length + min q.length data.length = x.length + data.length := by omega
      rw [key, hm, hq]
      simp only [Nat.pow_zero, Nat.sub_self, Nat.mul_zero, Nat.add_zero]
      by_cases hlt : data.length < q.length
      · simp only [hlt, decide_true, if_true]
        rfl
      · have ha : (x.length + data.length == est) = true := by simp; omega
        simp only [hlt, decide_false, ha, Res.assert, if_true, Res.ok_bind,
          List.drop_eq_nil_of_le (show data.length ≤ q.length from hd), List.isEmpty_nil,
          Bool.false_eq_true, if_false]
        rfl
    · obtain ⟨k, rfl⟩ : ∃ k', k = k' + 1 := by
        cases k with
        | zero => simp at hm; omega
        | succ k => exact ⟨k, rfl⟩
      have hpow : ∀ j, add * (2 ^ (j + 1) - 1) = add + add * 2 * (2 ^ j - 1) := by
        intro j
        have := Nat.one_le_two_pow (n := j)
        rw [Nat.pow_succ, show 2 ^ j * 2 - 1 = 2 * (2 ^ j - 1) + 1 by omega, Nat.mul_add, ← Nat.mul_assoc]
        omega
      rw [hpow, ← Nat.add_assoc] at hroom hm ⊢
      have hlt : ¬ data.length < q.length := by omega
      have hw : x.length + min q.length data.length = est := by omega
      have hbeq : (est == est) = true := by simp
      have hne : (data.drop q.length).isEmpty = false := by
        rw [List.isEmpty_eq_false_iff]; intro h
        have := congrArg List.length h
        simp at this; omega
      simp only [hlt, decide_false, hw, hbeq, Res.assert, if_true, Res.ok_bind, hne,
        Bool.false_eq_true, if_false]
      rw [List.drop_eq_nil_of_le (show q.length ≤ data.length by omega), List.append_nil,
        ← List.map_take, List.append_assoc, ← List.map_append]
      obtain ⟨z, hz⟩ : ∃ z, z = x ++ data.take q.length := ⟨_, rfl⟩
      have hzl : z.length = est := by rw [hz]; simp; omega
      have hze : endByte ∉ a ++ z.map e := by simp [ha, end_notin]
      have hazl : (a ++ z.map e).length = a.length + est := by rw [List.length_append, List.length_map, hzl]
      have hsplit : x ++ data = z ++ data.drop q.length := by
        rw [hz, List.append_assoc, List.take_append_drop]
      have hsum : z.length + (data.drop q.length).length = x.length + data.length := by
        have := congrArg List.length hsplit
        simp only [List.length_append] at this ⊢
        omega
      rw [← hz, hsplit]
      have hlen : (raw (a ++ z.map e) (B.drop (est + 1))).length = a.length + c + 2 := by
        rw [raw_length, hazl, List.length_drop]; omega
      have hfit : est + add ≤ c := by omega
      unfold SxOps.growMore
      rw [if_pos (by omega), usub_ok (by omega), show est + add + (a.length + s) - s = est + add + a.length by omega]
      simp only [Res.ok_bind]
      have hr := tryResize_fits (p := a ++ z.map e) (rest := B.drop (est + 1)) hze (n := est + add + a.length)
        (by rw [hlen]; omega) (by rw [hazl]; omega)
      have hr' : (ops .fixed).resize (raw (a ++ z.map e) (B.drop (est + 1))) (est + add + a.length) = _ := hr
      rw [hr']
      simp only [Res.ok_bind, Res.pure_eq]
      have t1 : (a ++ z.map e ++ 0 :: B.drop (est + 1)).take (est + add + a.length) =
          a ++ z.map e ++ (0 :: B.drop (est + 1)).take add := by
        rw [List.take_append, hazl, List.take_of_length_le (by rw [hazl]; omega),
          show est + add + a.length - (a.length + est) = add by omega]
      have t2 : (a ++ z.map e ++ 0 :: B.drop (est + 1)).drop (est + add + a.length + 1) =
          B.drop (est + add + 1) := by
        rw [List.drop_append, hazl, List.drop_eq_nil_of_le (by rw [hazl]; omega),
          show est + add + a.length + 1 - (a.length + est) = add + 1 by omega, List.drop_succ_cons,
          List.drop_drop, List.nil_append]
        congr 1; omega
      rw [t1, t2]
      have hql : ((0 : BitVec 8) :: B.drop (est + 1)).length = c + 1 - est := by
        rw [List.length_cons, List.length_drop]; omega
      have hmv : (ops .fixed).moveTail (raw (a ++ z.map e ++ (0 :: B.drop (est + 1)).take add)
          (B.drop (est + add + 1))) (a.length + est) (a.length + (est + add)) = _ :=
        moveTail_rise _ _ (by omega) (by rw [List.length_append, hazl, List.length_take, hql]; omega)
      rw [hmv]
      simp only [Res.ok_bind]
      rw [if_neg (by omega)]
      have := ih (data.drop q.length) z ((0 :: B.drop (est + 1)).take add) (est + add) (add * 2) k
        (by rw [List.length_take, hql]; omega) (by omega) (by omega) (by omega) (by
          have hpos : 0 < (data.drop q.length).length := by rw [List.length_drop]; omega
          obtain ⟨j, hj⟩ : ∃ j, (data.drop q.length).length = j + 1 := ⟨(data.drop q.length).length - 1, by omega⟩
          rw [hj, hzl]
          obtain ⟨a, rfl⟩ : ∃ a, add = a + 1 := ⟨add - 1, by omega⟩
          rw [List.take_succ_cons, List.drop_succ_cons, List.drop_take, List.drop_take, List.drop_drop]
          congr 1
          · omega
          · congr 1; omega) hroom (by rw [hsum]; exact hm) (by
          intro j hj
          have := hleast (j + 1) (by omega)
          rw [hpow] at this
          rw [hsum]; omega)
      rw [hzl] at this hsum
      rw [hsum] at this
      exact this

/-- What follows the loop. -/
theorem settle_end {a q' R : List (BitVec 8)} (ha : endByte ∉ a) (y : List (BitVec 7)) :
    (endByte ∈ q' →
      moveTail (raw (a ++ y.map e ++ q') R) (a.length + (y.length + q'.length)) (a.length + y.length) = .panic) ∧
    (endByte ∉ q' →
      moveTail (raw (a ++ y.map e ++ q') R) (a.length + (y.length + q'.length)) (a.length + y.length) =
        .ok (raw (a ++ y.map e ++ q') R) ∧
      ∃ r2, tryResizeFixed (raw (a ++ y.map e ++ q') R) (y.length + a.length) = .ok (raw (a ++ y.map e) r2, none) ∧
        r2.length = q'.length + R.length) := by
  have hxl : (a ++ y.map e).length = a.length + y.length := by simp
  have hxe : endByte ∉ a ++ y.map e := by simp [ha, end_notin]
  refine ⟨fun hin => ?_, fun hnot => ?_⟩
  · obtain ⟨q1, q2, rfl, hq⟩ := List.eq_append_cons_of_mem hin
    have hps : payloadSize (raw (a ++ y.map e ++ (q1 ++ endByte :: q2)) R) =
        .ok (a.length + y.length + q1.length) := by
      have : raw (a ++ y.map e ++ (q1 ++ endByte :: q2)) R =
          raw (a ++ y.map e ++ q1) (q2 ++ endByte :: R) := by simp [raw]
      rw [this, payloadSize_raw (by rw [List.mem_append]; exact fun h => h.elim hxe hq), List.length_append, hxl]
    unfold moveTail
    rw [hps, Res.ok_bind]
    simp only [List.length_append, List.length_cons]
    rw [if_neg (by omega), if_pos (by omega)]
    unfold copyWithin
    rw [if_neg (by omega)]
  · have hall : endByte ∉ a ++ y.map e ++ q' := by
      rw [List.mem_append]; exact fun h => h.elim hxe hnot
    have hlall : (a ++ y.map e ++ q').length = a.length + (y.length + q'.length) := by
      rw [List.length_append, hxl]; omega
    refine ⟨?_, ?_⟩
    · rcases Nat.eq_zero_or_pos q'.length with h | h
      · rw [h, Nat.add_zero]; exact moveSame_raw hall _
      · rw [moveDown_raw hall (by omega) (by omega)]
        congr 2
        rw [hlall, Nat.sub_self, Nat.add_zero, List.drop_eq_nil_of_le (show
            (a ++ y.map e ++ q').length ≤ a.length + (y.length + q'.length) by omega),
          List.append_nil, List.take_append_drop]
    · obtain ⟨r2, e1, _, e3⟩ := resize_settle (x := a ++ y.map e) (junk := q') (rest := R) (some 0) hall
      rw [hxl, Nat.add_comm a.length] at e1
      exact ⟨r2, e1, e3 rfl⟩

/-- Replacing the bytes `r` at the end of the payload `a ++ r`: `E` is the last guess and `z` what
becomes of the old terminator. -/
theorem end_fixed {a r rest : List (BitVec 8)} (hp : endByte ∉ a ++ r) (d : Src (BitVec 7)) (rb re : Bound)
    (hrb : rb.first = a.length) (hre : re.last (a ++ r).length = (a ++ r).length) (k E : Nat)
    (hE : E = d.estimate + (2 ^ k - 1)) (hk : d.items.length ≤ E)
    (hleast : ∀ j < k, d.estimate + (2 ^ j - 1) < d.items.length) (hroom : E ≤ r.length + rest.length)
    (z : BitVec 8) (hz : z = if d.estimate < d.items.length ∧ d.estimate + 2 < r.length then endByte else 0) :
    ((r.length < d.estimate ∨ d.estimate < d.items.length) →
      endByte ∈ ((r ++ z :: rest).take E).drop d.items.length →
      (ops .fixed).trySpliceDetail (raw (a ++ r) rest) d rb re = .panic) ∧
    (¬ ((r.length < d.estimate ∨ d.estimate < d.items.length) ∧
        endByte ∈ ((r ++ z :: rest).take E).drop d.items.length) → ∃ r2,
      (ops .fixed).trySpliceDetail (raw (a ++ r) rest) d rb re = .ok (raw (a ++ d.items.map e) r2, none) ∧
        d.items.length + r2.length = r.length + rest.length) := by
  have ha : endByte ∉ a := fun h => hp (List.mem_append_left _ h)
  have hr : endByte ∉ r := fun h => hp (List.mem_append_right _ h)
  obtain ⟨B, hB⟩ : ∃ B, B = r ++ z :: rest := ⟨_, rfl⟩
  have hBl : B.length = r.length + rest.length + 1 := by rw [hB]; simp; omega
  rw [← hB]
  have hal : (a ++ r).length = a.length + r.length := List.length_append
  -- the state in which the loop is left, for every hint that calls for a resize
  have hdet : (r.length < d.estimate ∨ d.estimate < d.items.length) →
      (ops .fixed).trySpliceDetail (raw (a ++ r) rest) d rb re =
      (do
        let s ← moveTail (raw (a ++ d.items.map e ++ (B.take E).drop d.items.length) (B.drop (E + 1)))
          (a.length + E) (a.length + d.items.length)
        let x ← tryResizeFixed s (d.items.length + a.length)
        return (x.1, x.2.map fun _ => .bufferOverflow)) := by
    intro hcase
    unfold SxOps.trySpliceDetail
    have hc : (ops .fixed).compact (raw (a ++ r) rest) = .ok (raw (a ++ r) rest) := rfl
    have hps : (ops .fixed).payloadSize (raw (a ++ r) rest) = .ok (a ++ r).length := payloadSize_raw hp
    rw [hc, Res.ok_bind, hps]
    simp only [Res.ok_bind]
    rw [Sx.spliceBegin_eq, Sx.spliceEnd_eq, hrb, hre, hal, usub_ok (by omega), Nat.add_sub_cancel_left]
    simp only [Res.ok_bind]
    unfold SxOps.firstGrow
    rw [usub_ok (by omega)]
    simp only [Res.ok_bind]
    rcases Nat.lt_or_ge r.length d.estimate with hg | hg
    · -- the first guess is higher than what is replaced
      have hz0 : z = 0 := by rw [hz, if_neg (by omega)]
      subst hz0
      rw [if_pos (by omega), usub_ok (by omega),
        show d.estimate + (a.length + r.length) - r.length = d.estimate + a.length by omega]
      simp only [Res.ok_bind]
      have hr' : (ops .fixed).resize (raw (a ++ r) rest) (d.estimate + a.length) =
          .ok (raw (a ++ B.take d.estimate) (B.drop (d.estimate + 1)), none) := by
        show tryResizeFixed _ _ = _
        rw [tryResize_fits hp (by rw [raw_length, hal]; omega) (by omega), List.append_assoc, ← hB, List.take_append,
          List.take_of_length_le (show a.length ≤ d.estimate + a.length by omega), List.drop_append,
          List.drop_eq_nil_of_le (show a.length ≤ d.estimate + a.length + 1 by omega), List.nil_append,
          Nat.add_sub_cancel, show d.estimate + a.length + 1 - a.length = d.estimate + 1 by omega]
      rw [hr']
      simp only [Res.ok_bind]
      rw [usub_ok (by omega), show a.length + r.length + d.estimate - r.length = a.length + d.estimate by omega]
      simp only [Res.ok_bind]
      have htl : (B.take d.estimate).length = d.estimate := by rw [List.length_take]; omega
      have hmv : (ops .fixed).moveTail (raw (a ++ B.take d.estimate) (B.drop (d.estimate + 1)))
          (a.length + r.length) (a.length + d.estimate) = _ :=
        moveTail_rise _ _ (by omega) (by rw [List.length_append, htl])
      rw [hmv]
      simp only [Res.ok_bind]
      have loop := mainLoop_room a B ha r.length (r.length + rest.length) hBl (d.items.length + 1) d.items []
        (B.take d.estimate) d.estimate 1 k (by rw [htl]; simp) (by omega) (by simp) (by omega) (by simp)
        (by omega) (by simp; omega) (by intro j hj; have := hleast j hj; simp; omega)
      simp only [List.length_nil, Nat.zero_add, List.map_nil, List.append_nil, List.nil_append, Nat.one_mul,
        ← hE] at loop
      rw [loop]
      simp only [Res.ok_bind]
      rw [usub_ok (by omega), show d.items.length + (a.length + r.length) - r.length = d.items.length + a.length by omega]
      rfl
    · have hlt : d.estimate < d.items.length := by omega
      rw [if_neg (by omega)]
      simp only [Res.ok_bind]
      rw [usub_ok (by omega), show a.length + r.length + d.estimate - r.length = a.length + d.estimate by omega]
      simp only [Res.ok_bind]
      have hmv : (ops .fixed).moveTail (raw (a ++ r) rest) (a.length + r.length) (a.length + d.estimate) =
          .ok (raw (a ++ r) rest) := by
        show moveTail _ _ _ = _
        rcases Nat.eq_or_lt_of_le hg with h | h
        · rw [h]; exact moveSame_raw hp _
        · rw [moveDown_raw hp (by omega) (by omega)]
          congr 2
          rw [hal, Nat.sub_self, Nat.add_zero, List.drop_eq_nil_of_le (show
              (a ++ r).length ≤ a.length + r.length by omega), List.append_nil, List.take_append_drop]
      rw [hmv]
      simp only [Res.ok_bind]
      suffices hl : (ops .fixed).mainLoop a.length (a.length + r.length) r.length (d.items.length + 1)
          (raw (a ++ r) rest) d.items 0 d.estimate 1 (a.length + d.estimate) =
          .ok (.done (raw (a ++ d.items.map e ++ (B.take E).drop d.items.length) (B.drop (E + 1))) d.items.length
            (a.length + E)) by
        rw [hl]
        simp only [Res.ok_bind]
        rw [usub_ok (by omega), show d.items.length + (a.length + r.length) - r.length = d.items.length + a.length by omega]
        rfl
      -- the first turn
      obtain ⟨k, rfl⟩ : ∃ k', k = k' + 1 := by
        cases k with
        | zero => simp at hE; omega
        | succ k => exact ⟨k, rfl⟩
      have hpow : ∀ j, (2 ^ (j + 1) - 1) = 1 + 2 * (2 ^ j - 1) := by
        intro j
        have := Nat.one_le_two_pow (n := j)
        rw [Nat.pow_succ]; omega
      have hf := fill_at .fixed rest a (r.drop d.estimate) d.estimate d.items [] (r.take d.estimate)
        (by rw [List.length_take]; simp; omega)
      have htl : (r.take d.estimate).length = d.estimate := by rw [List.length_take]; omega
      simp only [List.append_nil, List.length_nil, htl, Nat.zero_add, List.append_assoc, List.take_append_drop,
        List.drop_eq_nil_of_le (show (r.take d.estimate).length ≤ d.items.length by omega),
        Nat.min_eq_left (Nat.le_of_lt hlt), show ¬ d.items.length < d.estimate by omega, decide_false,
        ← List.map_take] at hf
      obtain ⟨y, hy⟩ : ∃ y, y = d.items.take d.estimate := ⟨_, rfl⟩
      have hyl : y.length = d.estimate := by rw [hy, List.length_take]; omega
      rw [← hy] at hf
      have hbeq : (d.estimate == d.estimate) = true := by simp
      have hne : (d.items.drop d.estimate).isEmpty = false := by
        rw [List.isEmpty_eq_false_iff]; intro h
        have := congrArg List.length h
        simp at this; omega
      simp only [SxOps.mainLoop, hf, Res.ok_bind, Bool.false_eq_true, if_false, hbeq, Res.assert, if_true, hne]
      unfold SxOps.growMore
      rw [if_pos (by omega), usub_ok (by omega),
        show d.estimate + 1 + (a.length + r.length) - r.length = a.length + (d.estimate + 1) by omega]
      simp only [Res.ok_bind]
      have hE1 : d.estimate + 1 ≤ E := by rw [hE, hpow]; omega
      have hpl : (a ++ (y.map e ++ r.drop d.estimate)).length = a.length + r.length := by
        simp only [List.length_append, List.length_map, List.length_drop, hyl]; omega
      have hpe : endByte ∉ a ++ (y.map e ++ r.drop d.estimate) := by
        simp only [List.mem_append, not_or]
        exact ⟨ha, end_notin y, fun h => hr (List.mem_of_mem_drop h)⟩
      have hrs : (ops .fixed).resize (raw (a ++ (y.map e ++ r.drop d.estimate)) rest) (a.length + (d.estimate + 1)) =
          .ok (raw (a ++ y.map e ++ (B.drop d.estimate).take 1) (B.drop (d.estimate + 1 + 1)), none) := by
        show tryResizeFixed _ _ = _
        have hBd : ∀ w : BitVec 8, z = w → a ++ (y.map e ++ r.drop d.estimate) ++ w :: rest =
            a ++ y.map e ++ B.drop d.estimate := by
          rintro w rfl
          rw [hB, List.drop_append_of_le_length hg]
          simp only [List.append_assoc]
        have hayl : (a ++ y.map e).length = a.length + d.estimate := by simp [hyl]
        have ht : (a ++ y.map e ++ B.drop d.estimate).take (a.length + (d.estimate + 1)) =
            a ++ y.map e ++ (B.drop d.estimate).take 1 := by
          rw [List.take_append, List.take_of_length_le (by omega), hayl]
          congr 2; omega
        have hd : (a ++ y.map e ++ B.drop d.estimate).drop (a.length + (d.estimate + 1) + 1) =
            B.drop (d.estimate + 1 + 1) := by
          rw [List.drop_append, List.drop_eq_nil_of_le (by omega), hayl, List.nil_append, List.drop_drop]
          congr 1; omega
        rcases Nat.lt_or_ge (d.estimate + 2) r.length with h | h
        · have hze : z = endByte := by rw [hz, if_pos ⟨hlt, h⟩]
          rw [tryResize_shrinks hpe (by rw [hpl]; omega)]
          have h1 := hBd endByte hze
          congr 3
          · rw [← ht, ← h1]; exact (List.take_append_of_le_length (by rw [hpl]; omega)).symm
          · rw [← hd, ← h1]; exact (List.drop_append_of_le_length (by rw [hpl]; omega)).symm
        · have hze : z = 0 := by rw [hz, if_neg (by omega)]
          rw [tryResize_fits hpe (by rw [raw_length, hpl]; omega) (by rw [hpl]; omega), hBd 0 hze, ht, hd]
      rw [hrs]
      simp only [Res.ok_bind]
      have h1l : ((B.drop d.estimate).take 1).length = 1 := by
        rw [List.length_take, List.length_drop]; omega
      have hmv2 : (ops .fixed).moveTail (raw (a ++ y.map e ++ (B.drop d.estimate).take 1) (B.drop (d.estimate + 1 + 1)))
          (a.length + d.estimate) (a.length + (d.estimate + 1)) = _ :=
        moveTail_rise _ _ (by omega) (by simp only [List.length_append, List.length_map, h1l, hyl]; omega)
      rw [hmv2]
      simp only [Res.ok_bind]
      rw [if_neg (by omega)]
      have hdl : (d.items.drop d.estimate).length = d.items.length - d.estimate := List.length_drop
      have loop := mainLoop_room a B ha r.length (r.length + rest.length) hBl d.items.length
        (d.items.drop d.estimate) y ((B.drop d.estimate).take 1) (d.estimate + 1) 2 k (by omega) (by omega)
        (by omega) (by omega)
        (by
          rw [List.drop_eq_nil_of_le (by omega), List.drop_eq_nil_of_le (by rw [List.length_take]; omega)])
        (by rw [hE, hpow] at hroom; omega)
        (by rw [hyl, hdl]; rw [hE, hpow] at hk; omega)
        (by
          intro j hj
          have := hleast (j + 1) (by omega)
          rw [hpow] at this
          rw [hyl, hdl]; omega)
      have hEk : d.estimate + 1 + 2 * (2 ^ k - 1) = E := by rw [hE, hpow]; omega
      have hyd : y ++ d.items.drop d.estimate = d.items := by rw [hy, List.take_append_drop]
      rw [hEk, hyd, hdl, hyl, show d.estimate + (d.items.length - d.estimate) = d.items.length by omega] at loop
      exact loop
  have hql : ((B.take E).drop d.items.length).length = E - d.items.length := by
    rw [List.length_drop, List.length_take]; omega
  obtain ⟨s1, s2⟩ := settle_end (a := a) (q' := (B.take E).drop d.items.length) (R := B.drop (E + 1)) ha d.items
  rw [hql, show d.items.length + (E - d.items.length) = E by omega] at s1 s2
  refine ⟨fun hcase hin => ?_, fun hn => ?_⟩
  · rw [hdet hcase, s1 hin]; rfl
  · by_cases hcase : r.length < d.estimate ∨ d.estimate < d.items.length
    · obtain ⟨m1, r2, m2, m3⟩ := s2 (fun h => hn ⟨hcase, h⟩)
      rw [hdet hcase, m1, Res.ok_bind, m2]
      refine ⟨r2, rfl, ?_⟩
      rw [m3, List.length_drop]; omega
    · -- no resize before the last one
      have hg : d.estimate ≤ r.length := by omega
      have hm : d.items.length ≤ d.estimate := by omega
      unfold SxOps.trySpliceDetail
      have hc : (ops .fixed).compact (raw (a ++ r) rest) = .ok (raw (a ++ r) rest) := rfl
      have hps : (ops .fixed).payloadSize (raw (a ++ r) rest) = .ok (a ++ r).length := payloadSize_raw hp
      rw [hc, Res.ok_bind, hps]
      simp only [Res.ok_bind]
      rw [Sx.spliceBegin_eq, Sx.spliceEnd_eq, hrb, hre, hal, usub_ok (by omega), Nat.add_sub_cancel_left]
      simp only [Res.ok_bind]
      unfold SxOps.firstGrow
      rw [usub_ok (by omega)]
      simp only [Res.ok_bind]
      rw [if_neg (by omega)]
      simp only [Res.ok_bind]
      rw [usub_ok (by omega), show a.length + r.length + d.estimate - r.length = a.length + d.estimate by omega]
      simp only [Res.ok_bind]
      have hmv : (ops .fixed).moveTail (raw (a ++ r) rest) (a.length + r.length) (a.length + d.estimate) =
          .ok (raw (a ++ r) rest) := by
        show moveTail _ _ _ = _
        rcases Nat.eq_or_lt_of_le hg with h | h
        · rw [h]; exact moveSame_raw hp _
        · rw [moveDown_raw hp (by omega) (by omega)]
          congr 2
          rw [hal, Nat.sub_self, Nat.add_zero, List.drop_eq_nil_of_le (show
              (a ++ r).length ≤ a.length + r.length by omega), List.append_nil, List.take_append_drop]
      rw [hmv]
      simp only [Res.ok_bind]
      have htl : (r.take d.estimate).length = d.estimate := by rw [List.length_take]; omega
      have hf := fill_at .fixed rest a (r.drop d.estimate) d.estimate d.items [] (r.take d.estimate)
        (by rw [htl]; simp)
      simp only [List.append_nil, List.length_nil, htl, Nat.zero_add, Nat.min_eq_right hm,
        List.take_of_length_le (show (d.items.map e).length ≤ d.estimate by simpa using hm)] at hf
      have hcut : a ++ r.take d.estimate ++ r.drop d.estimate = a ++ r := by
        rw [List.append_assoc, List.take_append_drop]
      rw [hcut] at hf
      have hjoin : a ++ d.items.map e ++ (r.take d.estimate).drop d.items.length ++ r.drop d.estimate =
          a ++ d.items.map e ++ r.drop d.items.length := by
        rw [List.append_assoc (a ++ d.items.map e)]
        congr 1
        have : r.drop d.items.length =
            (r.take d.estimate ++ r.drop d.estimate).drop d.items.length := by rw [List.take_append_drop]
        rw [this, List.drop_append_of_le_length (by omega)]
      rw [hjoin] at hf
      have hloop : (ops .fixed).mainLoop a.length (a.length + r.length) r.length (d.items.length + 1)
          (raw (a ++ r) rest) d.items 0 d.estimate 1 (a.length + d.estimate) =
          .ok (.done (raw (a ++ d.items.map e ++ r.drop d.items.length) rest) d.items.length
            (a.length + d.estimate)) := by
        simp only [SxOps.mainLoop, hf, Res.ok_bind]
        by_cases hlt : d.items.length < d.estimate
        · simp only [hlt, decide_true, if_true]
          rfl
        · have hb : (d.items.length == d.estimate) = true := by simp; omega
          simp only [hlt, decide_false, hb, Res.assert, if_true, Res.ok_bind,
            List.drop_eq_nil_of_le (show d.items.length ≤ d.estimate from hm), List.isEmpty_nil,
            Bool.false_eq_true, if_false]
          rfl
      rw [hloop]
      simp only [Res.ok_bind]
      have hall : endByte ∉ a ++ d.items.map e ++ r.drop d.items.length := by
        simp only [List.mem_append, not_or]
        exact ⟨⟨ha, end_notin _⟩, fun h => hr (List.mem_of_mem_drop h)⟩
      have hxl : (a ++ d.items.map e).length = a.length + d.items.length := by simp
      have hlall : (a ++ d.items.map e ++ r.drop d.items.length).length = a.length + r.length := by
        rw [List.length_append, hxl, List.length_drop]; omega
      obtain ⟨j, hj1, hj2⟩ : ∃ j, (ops .fixed).moveTail (raw (a ++ d.items.map e ++ r.drop d.items.length) rest)
          (a.length + d.estimate) (a.length + d.items.length) = .ok (raw (a ++ d.items.map e ++ j) rest) ∧
          (endByte ∉ j ∧ j.length = r.length - d.items.length) := by
        rcases Nat.eq_or_lt_of_le hm with h | h
        · refine ⟨r.drop d.items.length, ?_, fun h => hr (List.mem_of_mem_drop h), List.length_drop⟩
          rw [← h]; exact moveSame_raw hall _
        · have := moveDown_raw (rest := rest) hall (tail := a.length + d.estimate) (to := a.length + d.items.length)
            (by omega) (by omega)
          rw [← hxl, List.take_append_of_le_length (Nat.le_refl _), List.take_length, hxl,
            List.append_assoc (a ++ d.items.map e)] at this
          refine ⟨_, this, ?_, ?_⟩
          · rw [List.mem_append]
            exact fun h => h.elim (fun h => hall (List.mem_of_mem_drop h)) (fun h => hall (List.mem_of_mem_drop h))
          · simp only [List.length_append, List.length_drop, List.length_map]
            omega
      rw [hj1]
      simp only [Res.ok_bind]
      rw [usub_ok (by omega), show d.items.length + (a.length + r.length) - r.length = d.items.length + a.length by omega]
      simp only [Res.ok_bind]
      obtain ⟨r2, e1, _, e3⟩ := resize_settle (x := a ++ d.items.map e) (junk := j) (rest := rest) (some 0) (by
        rw [List.mem_append]
        exact fun h => h.elim (fun h => hall (List.mem_append_left _ h)) hj2.1)
      rw [hxl, Nat.add_comm a.length] at e1
      have e1' : (ops .fixed).resize (raw (a ++ d.items.map e ++ j) rest) (d.items.length + a.length) = _ := e1
      rw [e1']
      refine ⟨r2, rfl, ?_⟩
      rw [e3 rfl, hj2.2]; omega

end Sxb

end Midi2
