import Verif.Lemmas.SysexBytesExact

/-! # Replacing the payload of a byte message in a fixed buffer, with any size hint -/

namespace Midi2

namespace Sxb

/-- The room made for `m` items: from the guess `est`, growing by `add`, twice that and so on
until they fit, and never beyond `c`. -/
def Grown (est add m c E : Nat) : Prop :=
  ∃ k, E = min (est + add * (2 ^ k - 1)) c ∧ m ≤ est + add * (2 ^ k - 1) ∧
    ∀ j < k, est + add * (2 ^ j - 1) < m

theorem moveTail_rise (q rest : List (BitVec 8)) {tail to : Nat} (h : tail ≤ to) (h' : q.length = to) :
    moveTail (raw q rest) tail to = .ok (raw q rest) := by
  subst h'
  exact moveTail_none q rest h

/-- The main loop over bytes of which those behind the written ones are `B`. -/
theorem mainLoop_bytes (a B : List (BitVec 8)) (ha : endByte ∉ a) (c : Nat) (hB : B.length = c + 1) :
    ∀ (fuel : Nat) (data x : List (BitVec 7)) (q : List (BitVec 8)) (est add : Nat),
      est = x.length + q.length → est ≤ c → 0 < add → data.length + x.length + 1 ≤ fuel + est → 0 < fuel →
      q.drop data.length = (B.take est).drop (x.length + data.length) →
      (x.length + data.length ≤ c → ∃ E q',
        (ops .fixed).mainLoop a.length a.length 0 fuel (raw (a ++ x.map e ++ q) (B.drop (est + 1))) data x.length
            est add (a.length + est) =
          .ok (.done (raw (a ++ (x ++ data).map e ++ q') (B.drop (E + 1))) (x.length + data.length)
            (a.length + E)) ∧
        Grown est add (x.length + data.length) c E ∧ E = x.length + data.length + q'.length ∧
        q' = (B.take E).drop (x.length + data.length)) ∧
      (c < x.length + data.length → ∃ y : List (BitVec 7), y.length = c ∧
        (ops .fixed).mainLoop a.length a.length 0 fuel (raw (a ++ x.map e ++ q) (B.drop (est + 1))) data x.length
            est add (a.length + est) =
          .ok (.overflow (raw (a ++ y.map e) []))) := by
  intro fuel
  induction fuel with
  | zero => intro data x q est add _ _ _ _ h; omega
  | succ fuel ih =>
    intro data x q est add he hc hadd hfuel _ hq
    have hf := fill_at .fixed (B.drop (est + 1)) a [] est data (x.map e) q (by rw [List.length_map]; exact he)
    rw [List.length_map] at hf
    simp only [List.append_nil] at hf
    simp only [SxOps.mainLoop, hf, Res.ok_bind]
    by_cases hd : data.length ≤ q.length
    · refine ⟨fun _ => ?_, fun h => by omega⟩
      have key : raw (a ++ x.map e ++ (data.map e).take q.length ++ q.drop data.length) (B.drop (est + 1)) =
          raw (a ++ (x ++ data).map e ++ q.drop data.length) (B.drop (est + 1)) := by
        rw [List.take_of_length_le (by simpa using hd), List.map_append]
        simp only [List.append_assoc]
      have hm : x.length + min q.length data.length = x.length + data.length := by omega
      refine ⟨est, q.drop data.length, ?_, ⟨0, by simp; omega, by simp; omega, by omega⟩,
        by rw [List.length_drop]; omega, hq⟩
      rw [key, hm]
      by_cases hlt : data.length < q.length
      · simp only [hlt, decide_true, if_true]
        rfl
      · have ha : (x.length + data.length == est) = true := by simp; omega
        simp only [hlt, decide_false, ha, Res.assert, if_true, Res.ok_bind,
          List.drop_eq_nil_of_le (show data.length ≤ q.length from hd), List.isEmpty_nil,
          Bool.false_eq_true, if_false]
        rfl
    · have hlt : ¬ data.length < q.length := by omega
      have hw : x.length + min q.length data.length = est := by omega
      have hbeq : (est == est) = true := by simp
      have hne : (data.drop q.length).isEmpty = false := by
        rw [List.isEmpty_eq_false_iff]; intro h
        have := congrArg List.length h
        simp at this; omega
      simp only [hlt, decide_false, hw, hbeq, Res.assert, if_true, Res.ok_bind, hne,
        Bool.false_eq_true, if_false]
      rw [List.drop_eq_nil_of_le (show q.length ≤ data.length by omega), List.append_nil,
        ← List.map_take, List.append_assoc, ← List.map_append]
      -- the bytes written so far
      obtain ⟨z, hz⟩ : ∃ z, z = x ++ data.take q.length := ⟨_, rfl⟩
      have hzl : z.length = est := by rw [hz]; simp; omega
      have hze : endByte ∉ a ++ z.map e := by simp [ha, end_notin]
      have hazl : (a ++ z.map e).length = a.length + est := by rw [List.length_append, List.length_map, hzl]
      have hsplit : x ++ data = z ++ data.drop q.length := by
        rw [hz, List.append_assoc, List.take_append_drop]
      have hsum : z.length + (data.drop q.length).length = x.length + data.length := by
        have := congrArg List.length hsplit
        simp only [List.length_append] at this ⊢
        omega
      rw [← hz, hsplit]
      have hlen : (raw (a ++ z.map e) (B.drop (est + 1))).length = a.length + c + 2 := by
        rw [raw_length, hazl, List.length_drop]; omega
      unfold SxOps.growMore
      rw [if_pos (by omega), usub_ok (Nat.zero_le _)]
      simp only [Res.ok_bind, Nat.sub_zero]
      by_cases hfit : est + add ≤ c
      · have hr := tryResize_fits (p := a ++ z.map e) (rest := B.drop (est + 1)) hze (n := est + add + a.length)
          (by rw [hlen]; omega) (by rw [hazl]; omega)
        have hr' : (ops .fixed).resize (raw (a ++ z.map e) (B.drop (est + 1))) (est + add + a.length) = _ := hr
        rw [hr']
        simp only [Res.ok_bind, Res.pure_eq]
        have t1 : (a ++ z.map e ++ 0 :: B.drop (est + 1)).take (est + add + a.length) =
            a ++ z.map e ++ (0 :: B.drop (est + 1)).take add := by
          rw [List.take_append, hazl, List.take_of_length_le (by rw [hazl]; omega),
            show est + add + a.length - (a.length + est) = add by omega]
        have t2 : (a ++ z.map e ++ 0 :: B.drop (est + 1)).drop (est + add + a.length + 1) =
            B.drop (est + add + 1) := by
          rw [List.drop_append, hazl, List.drop_eq_nil_of_le (by rw [hazl]; omega),
            show est + add + a.length + 1 - (a.length + est) = add + 1 by omega, List.drop_succ_cons,
            List.drop_drop, List.nil_append]
          congr 1; omega
        rw [t1, t2]
        have hql : ((0 : BitVec 8) :: B.drop (est + 1)).length = c + 1 - est := by
          rw [List.length_cons, List.length_drop]; omega
        have hm : (ops .fixed).moveTail (raw (a ++ z.map e ++ (0 :: B.drop (est + 1)).take add)
            (B.drop (est + add + 1))) (a.length + est) (a.length + (est + add)) = _ :=
          moveTail_rise _ _ (by omega) (by rw [List.length_append, hazl, List.length_take, hql]; omega)
        rw [hm]
        simp only [Res.ok_bind]
        rw [if_neg (by omega)]
        have := ih (data.drop q.length) z ((0 :: B.drop (est + 1)).take add) (est + add) (add * 2)
          (by rw [List.length_take, hql]; omega) hfit (by omega) (by omega) (by omega) (by
            have hpos : 0 < (data.drop q.length).length := by rw [List.length_drop]; omega
            obtain ⟨j, hj⟩ : ∃ j, (data.drop q.length).length = j + 1 := ⟨(data.drop q.length).length - 1, by omega⟩
            rw [hj, hzl]
            obtain ⟨a, rfl⟩ : ∃ a, add = a + 1 := ⟨add - 1, by omega⟩
            rw [List.take_succ_cons, List.drop_succ_cons, List.drop_take, List.drop_take, List.drop_drop]
            congr 1
            · omega
            · congr 1; omega)
        rw [hzl] at this hsum
        rw [hsum] at this
        refine ⟨fun h => ?_, this.2⟩
        obtain ⟨E, q', a1, ⟨k, k1, k2, k3⟩, a3, a4⟩ := this.1 h
        refine ⟨E, q', a1, ⟨k + 1, ?_, ?_, ?_⟩, a3, a4⟩
        · rw [k1]; congr 1
          have := Nat.one_le_two_pow (n := k)
          rw [Nat.pow_succ, Nat.mul_assoc, show 2 ^ k * 2 - 1 = 2 * (2 ^ k - 1) + 1 by omega, Nat.mul_add]
          omega
        · have := Nat.one_le_two_pow (n := k)
          rw [Nat.pow_succ, show 2 ^ k * 2 - 1 = 2 * (2 ^ k - 1) + 1 by omega, Nat.mul_add]
          rw [Nat.mul_assoc] at k2
          omega
        · intro j hj
          cases j with
          | zero => simp; omega
          | succ j =>
            have k4 := k3 j (by omega)
            have := Nat.one_le_two_pow (n := j)
            rw [Nat.pow_succ, show 2 ^ j * 2 - 1 = 2 * (2 ^ j - 1) + 1 by omega, Nat.mul_add]
            rw [Nat.mul_assoc] at k4
            omega
      · have hr := tryResize_full (p := a ++ z.map e) (rest := B.drop (est + 1)) hze (n := est + add + a.length)
          (by rw [hlen]; omega)
        have hr' : (ops .fixed).resize (raw (a ++ z.map e) (B.drop (est + 1))) (est + add + a.length) = _ := hr
        rw [hr']
        simp only [Res.ok_bind, Res.pure_eq]
        rw [usub_ok (Nat.zero_le _)]
        simp only [Res.ok_bind, Nat.sub_zero]
        rw [usub_ok (Nat.zero_le _)]
        simp only [Res.ok_bind, Nat.sub_zero]
        have hcap : (a ++ z.map e).length + (B.drop (est + 1)).length = a.length + c := by
          rw [hazl, List.length_drop]; omega
        rw [hcap, Nat.add_sub_cancel_left]
        have t1 : (a ++ z.map e ++ 0 :: B.drop (est + 1)).take (a.length + c) =
            a ++ z.map e ++ (0 :: B.drop (est + 1)).take (c - est) := by
          rw [List.take_append, hazl, List.take_of_length_le (by rw [hazl]; omega),
            show a.length + c - (a.length + est) = c - est by omega]
        have t2 : ([] : List (BitVec 8)) = B.drop (c + 1) := (List.drop_eq_nil_of_le (by omega)).symm
        rw [t1, t2]
        have hql : ((0 : BitVec 8) :: B.drop (est + 1)).length = c + 1 - est := by
          rw [List.length_cons, List.length_drop]; omega
        have hm : (ops .fixed).moveTail (raw (a ++ z.map e ++ (0 :: B.drop (est + 1)).take (c - est))
            (B.drop (c + 1))) (a.length + est) (a.length + c) = _ :=
          moveTail_rise _ _ (by omega) (by rw [List.length_append, hazl, List.length_take, hql]; omega)
        rw [hm]
        simp only [Res.ok_bind]
        by_cases hfull : est = c
        · rw [if_pos (by omega)]
          refine ⟨fun h => by omega, fun _ => ⟨z, by omega, ?_⟩⟩
          rw [hfull]; simp
        · rw [if_neg (by omega)]
          have := ih (data.drop q.length) z ((0 :: B.drop (est + 1)).take (c - est)) c (add * 2)
            (by rw [List.length_take, hql]; omega) (Nat.le_refl _) (by omega) (by omega) (by omega) (by
              have hpos : 0 < (data.drop q.length).length := by rw [List.length_drop]; omega
              obtain ⟨j, hj⟩ : ∃ j, (data.drop q.length).length = j + 1 := ⟨(data.drop q.length).length - 1, by omega⟩
              rw [hj, hzl]
              obtain ⟨a, ha⟩ : ∃ a, c - est = a + 1 := ⟨c - est - 1, by omega⟩
              rw [ha, List.take_succ_cons, List.drop_succ_cons, List.drop_take, List.drop_take, List.drop_drop]
              congr 1
              · omega
              · congr 1; omega)
          rw [hzl] at this hsum
          rw [hsum] at this
          refine ⟨fun h => ?_, fun h => ?_⟩
          rotate_left
          · obtain ⟨y, y1, y2⟩ := this.2 h
            exact ⟨y, y1, by rw [y2, ← t2]⟩
          obtain ⟨E, q', a1, ⟨k, k1, k2, k3⟩, a3, a4⟩ := this.1 h
          refine ⟨E, q', a1, ⟨1, ?_, by simp; omega, ?_⟩, a3, a4⟩
          · rw [k1, show (2 : Nat) ^ 1 - 1 = 1 from rfl, Nat.mul_one,
              Nat.min_eq_right (show c ≤ est + add by omega), Nat.min_eq_right (Nat.le_add_right c _)]
          · intro j hj
            obtain rfl : j = 0 := by omega
            simp; omega

/-- Appending to a message in a fixed buffer, with any size hint. -/
theorem append_any {a r1 : List (BitVec 8)} (ha : endByte ∉ a) (d : Src (BitVec 7)) :
    (d.items.length ≤ r1.length → ∃ E,
      Grown (min d.estimate r1.length) 1 d.items.length r1.length E ∧
      (endByte ∈ ((0 :: r1).take E).drop d.items.length →
        (ops .fixed).tryInsert (raw a r1) d a.length = .panic) ∧
      (endByte ∉ ((0 :: r1).take E).drop d.items.length → ∃ r,
        (ops .fixed).tryInsert (raw a r1) d a.length = .ok (raw (a ++ d.items.map e) r, none) ∧
        d.items.length + r.length = r1.length)) ∧
    (r1.length < d.items.length → ∃ r,
      (ops .fixed).tryInsert (raw a r1) d a.length = .ok (raw [] r, some .bufferOverflow) ∧
        r.length = a.length + r1.length) := by
  obtain ⟨c, hl⟩ : ∃ c, r1.length = c := ⟨_, rfl⟩
  rw [hl]
  have hB : ((0 : BitVec 8) :: r1).length = c + 1 := by simp [hl]
  have hbig : (raw a r1).length = a.length + c + 2 := by rw [raw_length, hl]
  -- the first guess
  have hgrow : (ops .fixed).firstGrow (raw a r1) a.length a.length 0 d.estimate =
      .ok (raw (a ++ (0 :: r1).take (min d.estimate c)) ((0 :: r1).drop (min d.estimate c + 1)),
        min d.estimate c) := by
    unfold SxOps.firstGrow
    rw [usub_ok (Nat.zero_le _)]
    simp only [Res.ok_bind, Nat.sub_zero]
    by_cases h0 : 0 < d.estimate
    · rw [if_pos (by omega), usub_ok (Nat.zero_le _)]
      simp only [Res.ok_bind, Nat.sub_zero]
      show (tryResizeFixed _ _ >>= _) = _
      rcases Nat.lt_or_ge c d.estimate with h | h
      · rw [tryResize_full ha (by rw [hbig]; omega), Nat.min_eq_right (by omega)]
        simp only [Res.ok_bind]
        rw [usub_ok (Nat.zero_le _)]
        simp only [Res.ok_bind, Nat.sub_zero, hl, Nat.add_sub_cancel_left]
        rw [List.drop_eq_nil_of_le (show ((0 : BitVec 8) :: r1).length ≤ c + 1 by omega), List.take_append,
          List.take_of_length_le (show a.length ≤ a.length + c by omega), Nat.add_sub_cancel_left]
      · rw [tryResize_fits ha (by rw [hbig]; omega) (by omega), Nat.min_eq_left h]
        simp only [Res.ok_bind]
        rw [List.take_append, List.take_of_length_le (show a.length ≤ d.estimate + a.length by omega),
          List.drop_append, List.drop_eq_nil_of_le (show a.length ≤ d.estimate + a.length + 1 by omega),
          List.nil_append, Nat.add_sub_cancel, show d.estimate + a.length + 1 - a.length = d.estimate + 1 by omega]
    · rw [if_neg (by omega)]
      have : d.estimate = 0 := by omega
      rw [this]; simp
  have htl : (((0 : BitVec 8) :: r1).take (min d.estimate c)).length = min d.estimate c := by
    rw [List.length_take, hB]; omega
  have loop := mainLoop_bytes a (0 :: r1) ha c hB (d.items.length + 1) d.items []
    ((0 :: r1).take (min d.estimate c))
    (min d.estimate c) 1 (by rw [htl]; simp) (by omega) (by omega) (by simp) (by omega) (by simp)
  simp only [List.length_nil, Nat.zero_add, List.map_nil, List.append_nil, List.nil_append] at loop
  have hdet : (ops .fixed).trySpliceDetail (raw a r1) d (.included a.length) (.excluded a.length) =
      (do
        match ← (ops .fixed).mainLoop a.length a.length 0 (d.items.length + 1)
            (raw (a ++ (0 :: r1).take (min d.estimate c)) ((0 :: r1).drop (min d.estimate c + 1))) d.items 0
            (min d.estimate c) 1 (a.length + min d.estimate c) with
        | .overflow s => return (s, some .bufferOverflow)
        | .done s written tail => do
          let s ← moveTail s tail (a.length + written)
          let (s, r) ← tryResizeFixed s (written + a.length)
          return (s, r.map fun _ => .bufferOverflow)) := by
    unfold SxOps.trySpliceDetail
    have hc : (ops .fixed).compact (raw a r1) = .ok (raw a r1) := rfl
    have hps : (ops .fixed).payloadSize (raw a r1) = .ok a.length := payloadSize_raw ha
    rw [hc, Res.ok_bind, hps]
    simp only [Res.ok_bind, Bound.spliceBegin, Bound.spliceEnd]
    rw [usub_ok (Nat.le_refl _)]
    simp only [Res.ok_bind, Nat.sub_self, hgrow]
    rw [usub_ok (Nat.zero_le _)]
    simp only [Res.ok_bind, Nat.sub_zero]
    have hm : (ops .fixed).moveTail (raw (a ++ (0 :: r1).take (min d.estimate c))
        ((0 :: r1).drop (min d.estimate c + 1))) a.length (a.length + min d.estimate c) = _ :=
      moveTail_rise _ _ (by omega) (by rw [List.length_append, htl])
    rw [hm]
    simp only [Res.ok_bind]
    congr 1
    funext r
    cases r with
    | overflow s => rfl
    | done s w t =>
      simp only []
      rw [usub_ok (Nat.zero_le _)]
      rfl
  unfold SxOps.tryInsert SxOps.trySplice
  rw [hdet]
  refine ⟨fun hfit => ?_, fun hover => ?_⟩
  · obtain ⟨E, q', l1, l2, l3, l4⟩ := loop.1 hfit
    have hxl : (a ++ d.items.map e).length = a.length + d.items.length := by simp
    have hxe : endByte ∉ a ++ d.items.map e := by simp [ha, end_notin]
    refine ⟨E, l2, ?_, ?_⟩
    · rw [← l4]
      intro hin
      rw [l1]
      simp only [Res.ok_bind]
      obtain ⟨q1, q2, rfl, hq⟩ := List.eq_append_cons_of_mem hin
      have hps : payloadSize (raw (a ++ d.items.map e ++ (q1 ++ endByte :: q2)) ((0 :: r1).drop (E + 1))) =
          .ok (a.length + d.items.length + q1.length) := by
        have : raw (a ++ d.items.map e ++ (q1 ++ endByte :: q2)) ((0 :: r1).drop (E + 1)) =
            raw (a ++ d.items.map e ++ q1) (q2 ++ endByte :: (0 :: r1).drop (E + 1)) := by simp [raw]
        rw [this, payloadSize_raw (by rw [List.mem_append]; exact fun h => h.elim hxe hq),
          List.length_append, hxl]
      have hE : d.items.length + q1.length < E := by rw [l3]; simp
      have hm : moveTail (raw (a ++ d.items.map e ++ (q1 ++ endByte :: q2)) ((0 :: r1).drop (E + 1)))
          (a.length + E) (a.length + d.items.length) = .panic := by
        unfold moveTail
        rw [hps, Res.ok_bind, if_neg (by omega), if_pos (by omega)]
        unfold copyWithin
        rw [if_neg (by omega)]
      rw [hm]
      rfl
    · rw [← l4]
      intro hnot
      rw [l1]
      simp only [Res.ok_bind]
      have hall : endByte ∉ a ++ d.items.map e ++ q' := by
        rw [List.mem_append]; exact fun h => h.elim hxe hnot
      have hlall : (a ++ d.items.map e ++ q').length = a.length + E := by
        rw [List.length_append, hxl]; omega
      have hm : moveTail (raw (a ++ d.items.map e ++ q') ((0 :: r1).drop (E + 1))) (a.length + E)
          (a.length + d.items.length) = .ok (raw (a ++ d.items.map e ++ q') ((0 :: r1).drop (E + 1))) := by
        rcases Nat.eq_or_lt_of_le (show d.items.length ≤ E by omega) with h | h
        · rw [← h]; exact moveSame_raw hall _
        · rw [moveDown_raw hall (by omega) (by omega)]
          congr 2
          rw [hlall, Nat.sub_self, Nat.add_zero, List.drop_eq_nil_of_le (show
              (a ++ d.items.map e ++ q').length ≤ a.length + E by omega),
            List.append_nil, List.take_append_drop]
      rw [hm]
      simp only [Res.ok_bind]
      obtain ⟨r2, e1, _, e3⟩ := resize_settle (x := a ++ d.items.map e) (junk := q')
        (rest := (0 :: r1).drop (E + 1)) (some 0) hall
      rw [hxl, Nat.add_comm a.length] at e1
      have e1' : tryResizeFixed (raw (a ++ d.items.map e ++ q') ((0 :: r1).drop (E + 1)))
        (d.items.length + a.length) = _ := e1
      rw [e1']
      refine ⟨r2, rfl, ?_⟩
      rw [e3 rfl, List.length_drop, hB]
      obtain ⟨k, k1, _⟩ := l2
      omega
  · obtain ⟨y, hy, l1⟩ := loop.2 hover
    rw [l1]
    simp only [Res.ok_bind, Res.pure_eq]
    obtain ⟨r, hz, hrl, _⟩ := tryResize_zero (p := a ++ y.map e) (rest := []) (by simp [ha, end_notin])
    have hz' : (ops .fixed).resize (raw (a ++ y.map e) []) 0 = _ := hz
    rw [hz']
    exact ⟨r, rfl, by rw [hrl]; simp [hy]⟩

/-- What `try_resize(0)` leaves behind the message. -/
def leftover (p rest : List (BitVec 8)) : List (BitVec 8) :=
  if p.length = 1 then 0 :: rest else (p ++ endByte :: rest).drop 1

theorem tryResize_leftover {p rest : List (BitVec 8)} (hp : endByte ∉ p) :
    tryResizeFixed (raw p rest) 0 = .ok (raw [] (leftover p rest), none) := by
  unfold leftover
  rcases Nat.lt_or_ge p.length 2 with h | h
  · rw [tryResize_fits hp (by rw [raw_length]; omega) h]
    match p, h with
    | [], _ => rfl
    | [_], _ => rfl
  · rw [tryResize_shrinks hp h, if_neg (by omega)]
    cases p with
    | nil => simp at h
    | cons a p => rfl

theorem leftover_length (p rest : List (BitVec 8)) : (leftover p rest).length = p.length + rest.length := by
  unfold leftover
  split
  · rename_i h; rw [h, List.length_cons]; omega
  · simp

/-- `try_set_payload` on a fixed buffer, with any size hint. -/
theorem trySetPayload_any {p rest : List (BitVec 8)} (hp : endByte ∉ p) (d : Src (BitVec 7)) :
    (d.items.length ≤ p.length + rest.length → ∃ E,
      Grown (min d.estimate (p.length + rest.length)) 1 d.items.length (p.length + rest.length) E ∧
      (endByte ∈ ((0 :: leftover p rest).take E).drop d.items.length →
        (ops .fixed).trySetPayload (raw p rest) d = .panic) ∧
      (endByte ∉ ((0 :: leftover p rest).take E).drop d.items.length → ∃ r,
        (ops .fixed).trySetPayload (raw p rest) d = .ok (raw (d.items.map e) r, none) ∧
        d.items.length + r.length = p.length + rest.length)) ∧
    (p.length + rest.length < d.items.length → ∃ r,
      (ops .fixed).trySetPayload (raw p rest) d = .ok (raw [] r, some .bufferOverflow) ∧
        r.length = p.length + rest.length) := by
  have hset : (ops .fixed).trySetPayload (raw p rest) d =
      (ops .fixed).tryInsert (raw [] (leftover p rest)) d 0 := by
    unfold SxOps.trySetPayload
    show (tryResizeFixed _ 0 >>= _) = _
    rw [tryResize_leftover hp]; rfl
  rw [hset]
  have := append_any (a := []) (r1 := leftover p rest) (by simp) d
  rw [leftover_length] at this
  simpa only [List.nil_append, List.length_nil, Nat.zero_add] using this

end Sxb

end Midi2
