import Verif.Lemmas.SysexBytesRest

/-! # Splices of byte messages that run into an end byte left behind them -/

namespace Midi2

namespace Sxb

theorem replace_notin {l : List (BitVec 8)} (h : endByte ∉ l) (m : List (BitVec 8)) :
    (l ++ m).replace endByte 0 = l ++ m.replace endByte 0 := by
  rw [List.replace_append]
  rw [if_neg h]

/-- A resize to the size the message seems to have from its last end byte. -/
theorem resize_same (N : Option Nat) (q r2 : List (BitVec 8)) (hr : N = none → r2 = []) :
    resize (Sx.memOf N) (raw q r2) q.length = .ok (raw (q.replace endByte 0) r2, none) := by
  by_cases h : endByte ∈ q
  · obtain ⟨q1, q2, rfl, hq⟩ := List.eq_append_cons_of_mem h
    have e1 : raw (q1 ++ endByte :: q2) r2 = raw q1 (q2 ++ endByte :: r2) := by simp [raw]
    have e2 : (q1 ++ endByte :: q2).replace endByte 0 = q1 ++ 0 :: q2 := by
      rw [replace_notin hq, List.replace_cons_self]
    have hlen : (q1 ++ endByte :: q2).length = q1.length + q2.length + 1 := by simp; omega
    rw [e1, e2, hlen]
    cases N with
    | none =>
      rw [hr rfl]
      show (do return (← resizeVec _ _, none) : Res _) = _
      rw [resizeVec_grow hq (by omega)]
      have : vecResize (q1 ++ 0 :: (q2 ++ [endByte])) (q1.length + q2.length + 1) = q1 ++ 0 :: q2 := by
        unfold vecResize
        rw [show q1.length + q2.length + 1 - (q1 ++ 0 :: (q2 ++ [endByte])).length = 0 by simp; omega,
          show q1 ++ 0 :: (q2 ++ [endByte]) = (q1 ++ 0 :: q2) ++ [endByte] by simp,
          List.take_append_of_le_length (by simp; omega), List.take_of_length_le (by simp; omega)]
        simp
      rw [this]
      rfl
    | some N =>
      show tryResizeFixed _ _ = _
      rw [tryResize_fits hq (by rw [raw_length]; simp; omega) (by omega)]
      have e3 : q1 ++ 0 :: (q2 ++ endByte :: r2) = (q1 ++ 0 :: q2) ++ endByte :: r2 := by simp
      have e4 : q1.length + q2.length + 1 = (q1 ++ 0 :: q2).length := by simp; omega
      rw [e3, e4, List.take_left, List.drop_append, List.drop_eq_nil_of_le (by omega)]
      simp
  · have e2 : q.replace endByte 0 = q := List.replace_of_not_mem h
    rw [e2]
    cases N with
    | none =>
      rw [hr rfl]
      show (do return (← resizeVec _ _, none) : Res _) = _
      rw [resizeVec_shrink h (Nat.le_refl _), List.take_length]
      rfl
    | some N =>
      show tryResizeFixed _ _ = _
      rw [tryResize_fits h (by rw [raw_length]; omega) (by omega), List.take_left, List.drop_append,
        List.drop_eq_nil_of_le (by omega)]
      simp

/-- Moving a tail up when the message seems shorter than it is. -/
theorem moveUp_stale (q r2 : List (BitVec 8)) {S tail to : Nat} (hS : payloadSize (raw q r2) = .ok S)
    (hSq : S ≤ q.length) (h : tail < to) (h' : to ≤ q.length) :
    moveTail (raw q r2) tail to =
      .ok (raw (q.take to ++ (q.drop tail).take (S - to) ++ q.drop (max to S)) r2) := by
  unfold moveTail
  rw [hS, Res.ok_bind, if_pos h]
  unfold copyWithin
  rw [if_pos ⟨by omega, by rw [raw_length]; omega, by rw [raw_length]; omega⟩]
  congr 1
  have e1 : (startByte :: (q ++ endByte :: r2)).take (to + 1) = startByte :: q.take to := by
    rw [List.take_succ_cons, List.take_append_of_le_length h']
  have e2 : ((startByte :: (q ++ endByte :: r2)).take (1 + tail + (S - to))).drop (1 + tail) =
      (q.drop tail).take (S - to) := by
    rw [show 1 + tail + (S - to) = (tail + (S - to)) + 1 by omega, Nat.add_comm 1 tail,
      List.take_succ_cons, List.drop_succ_cons, List.take_append_of_le_length (by omega), List.drop_take,
      show tail + (S - to) - tail = S - to by omega]
  have e3 : (startByte :: (q ++ endByte :: r2)).drop (to + 1 + (1 + tail + (S - to) - (1 + tail))) =
      q.drop (max to S) ++ endByte :: r2 := by
    rw [show to + 1 + (1 + tail + (S - to) - (1 + tail)) = max to S + 1 by omega,
      List.drop_succ_cons, List.drop_append_of_le_length (by omega)]
  unfold raw
  rw [e1, e2, e3]
  simp

/-- What `resize` does to a message that grows, in full. -/
theorem resize_grow_eq {p rest : List (BitVec 8)} (N : Option Nat) (hp : endByte ∉ p) {g : Nat}
    (hg : 0 < g) (hN : N.isSome = true → g ≤ rest.length) :
    ∃ r2, resize (Sx.memOf N) (raw p rest) (p.length + g) =
        .ok (raw (p ++ 0 :: (rest ++ List.replicate g 0).take (g - 1)) r2, none) ∧
      (N = none → r2 = []) ∧ (N.isSome = true → r2 = rest.drop g) := by
  obtain ⟨j, rfl⟩ : ∃ j, g = j + 1 := ⟨g - 1, by omega⟩
  cases N with
  | none =>
    refine ⟨[], ?_, fun _ => rfl, fun h => by cases h⟩
    show (do return (← resizeVec _ _, none) : Res _) = _
    rw [resizeVec_grow hp (by omega)]
    have : vecResize (p ++ 0 :: rest) (p.length + (j + 1)) =
        p ++ 0 :: (rest ++ List.replicate (j + 1) 0).take (j + 1 - 1) := by
      unfold vecResize
      rw [List.take_append, List.take_of_length_le (by omega), Nat.add_sub_cancel_left, List.take_succ_cons,
        List.append_assoc, List.cons_append, Nat.add_sub_cancel, List.take_append, List.take_replicate]
      congr 4
      simp only [List.length_append, List.length_cons]
      omega
    rw [this]
    rfl
  | some N =>
    have hN := hN rfl
    refine ⟨rest.drop (j + 1), ?_, (fun h => by cases h), fun _ => rfl⟩
    show tryResizeFixed _ _ = _
    rw [tryResize_fits hp (by rw [raw_length]; omega) (by omega)]
    rw [List.take_append, List.take_of_length_le (by omega), Nat.add_sub_cancel_left, List.take_succ_cons,
      Nat.add_sub_cancel, List.take_append_of_le_length (by omega),
      show p.length + (j + 1) + 1 = p.length + (j + 2) by omega, List.drop_append]
    rw [List.drop_eq_nil_of_le (by omega), Nat.add_sub_cancel_left, List.drop_succ_cons, List.nil_append]

/-- An exact size hint, room for the result, a tail to be moved and an end byte in the way. -/
theorem splice_stale {a r t rest : List (BitVec 8)} (N : Option Nat) (hp : endByte ∉ a ++ r ++ t)
    (d : Src (BitVec 7)) (hd : d.estimate = d.items.length) (rb re : Bound)
    (hrb : rb.first = a.length) (hre : re.last (a ++ r ++ t).length = (a ++ r).length)
    (hfit : N.isSome = true → d.items.length - r.length ≤ rest.length) (g i k : Nat)
    (hgd : g = d.items.length - r.length) (hi : rest[i]? = some endByte) (hfirst : endByte ∉ rest.take i)
    (hlt : i + 1 < g) (hk : k = max ((a ++ r).length + g) ((a ++ r ++ t).length + 1 + i)) (ht : t ≠ []) :
    ∃ r2, (ops (Sx.memOf N)).trySpliceDetail (raw (a ++ r ++ t) rest) d rb re =
        .ok (raw (a ++ d.items.map e ++ t.take (k - ((a ++ r).length + g)) ++
          (((rest ++ List.replicate g 0).drop (k - ((a ++ r ++ t).length + 1))).take
            ((a ++ r ++ t).length + g - k)).replace endByte 0) r2, none) ∧
      (N = none → r2 = []) ∧ (N.isSome = true → r2 = rest.drop g) := by
  have ha : endByte ∉ a := fun h => hp (by simp [h])
  have htn : endByte ∉ t := fun h => hp (by simp [h])
  have hmid : endByte ∉ d.items.map e := end_notin _
  have hlp : (a ++ r ++ t).length = a.length + r.length + t.length := by simp; omega
  have hlar : (a ++ r).length = a.length + r.length := by simp
  have htl : 0 < t.length := List.length_pos_iff.mpr ht
  obtain ⟨r2, e1, e2, e3⟩ := resize_grow_eq (p := a ++ r ++ t) (rest := rest) N hp (g := g) (by omega)
    (fun h => by rw [hgd]; exact hfit h)
  refine ⟨r2, ?_, e2, e3⟩
  generalize hZ : (rest ++ List.replicate g 0).take (g - 1) = Z at e1
  have hZl : Z.length = g - 1 := by rw [← hZ]; simp; omega
  have hil : i < rest.length := by
    have := List.getElem?_eq_some_iff.mp hi
    exact this.1
  have hZi : Z = rest.take i ++ endByte :: Z.drop (i + 1) := by
    have h1 : Z.take i = rest.take i := by
      rw [← hZ, List.take_take, Nat.min_eq_left (by omega), List.take_append_of_le_length (by omega)]
    have h2 : Z[i]'(by omega) = endByte := by
      have : Z[i]? = some endByte := by
        rw [← hZ, List.getElem?_take, if_pos (by omega), List.getElem?_append_left hil, hi]
      exact (List.getElem?_eq_some_iff.mp this).2
    conv => lhs; rw [← List.take_append_drop i Z, h1, List.drop_eq_getElem_cons (by omega), h2]
  have hqraw : raw (a ++ r ++ t ++ 0 :: Z) r2 =
      raw (a ++ r ++ t ++ 0 :: rest.take i) (Z.drop (i + 1) ++ endByte :: r2) := by
    conv => lhs; rw [hZi]
    simp [raw]
  have hS : payloadSize (raw (a ++ r ++ t ++ 0 :: Z) r2) = .ok ((a ++ r ++ t).length + 1 + i) := by
    rw [hqraw, payloadSize_raw]
    · congr 1
      rw [List.length_append, List.length_cons, List.length_take]; omega
    · rw [List.mem_append, List.mem_cons, not_or, not_or]
      exact ⟨hp, by decide, hfirst⟩
  have hql : (a ++ r ++ t ++ 0 :: Z).length = (a ++ r ++ t).length + g := by
    rw [List.length_append, List.length_cons, hZl]; omega
  -- the tail is moved as far as the message seems to reach
  have hmv : (ops (Sx.memOf N)).moveTail (raw (a ++ r ++ t ++ 0 :: Z) r2) (a ++ r).length
      (a.length + d.items.length) =
      .ok (raw (a ++ ((a ++ r ++ t ++ 0 :: Z).take (a.length + d.items.length)).drop a.length ++
        (t.take (k - ((a ++ r).length + g)) ++ Z.drop (k - ((a ++ r ++ t).length + 1)))) r2) := by
    show moveTail _ _ _ = _
    rw [moveUp_stale _ r2 hS (by rw [hql]; omega) (by rw [hlar]; omega) (by rw [hql, hlp]; omega)]
    have f1 : (a ++ r ++ t ++ 0 :: Z).take (a.length + d.items.length) =
        a ++ ((a ++ r ++ t ++ 0 :: Z).take (a.length + d.items.length)).drop a.length := by
      conv => lhs; rw [← List.take_append_drop a.length ((a ++ r ++ t ++ 0 :: Z).take (a.length + d.items.length))]
      rw [List.take_take, Nat.min_eq_left (by omega)]
      congr 1
      simp [List.append_assoc]
    have f2 : ((a ++ r ++ t ++ 0 :: Z).drop (a ++ r).length).take
        ((a ++ r ++ t).length + 1 + i - (a.length + d.items.length)) =
        t.take (k - ((a ++ r).length + g)) := by
      rw [List.append_assoc (a ++ r), List.drop_left, List.take_append_of_le_length (by rw [hlp]; omega)]
      congr 1
      rw [hk, hlar]; omega
    have f3 : (a ++ r ++ t ++ 0 :: Z).drop (max (a.length + d.items.length) ((a ++ r ++ t).length + 1 + i)) =
        Z.drop (k - ((a ++ r ++ t).length + 1)) := by
      have : max (a.length + d.items.length) ((a ++ r ++ t).length + 1 + i) =
          (a ++ r ++ t).length + ((k - ((a ++ r ++ t).length + 1)) + 1) := by
        rw [hk, hlar]; omega
      rw [this, List.drop_append, List.drop_eq_nil_of_le (by omega), Nat.add_sub_cancel_left,
        List.drop_succ_cons, List.nil_append]
    rw [f2, f3]
    conv => lhs; rw [f1]
    simp
  generalize hx : ((a ++ r ++ t ++ 0 :: Z).take (a.length + d.items.length)).drop a.length = x at hmv
  have hxl : x.length = d.items.length := by
    rw [← hx, List.length_drop, List.length_take, hql, hlp]; omega
  have hJ : Z.drop (k - ((a ++ r ++ t).length + 1)) =
      ((rest ++ List.replicate g 0).drop (k - ((a ++ r ++ t).length + 1))).take
        ((a ++ r ++ t).length + g - k) := by
    rw [← hZ, List.drop_take]
    congr 1
    rw [hk]; omega
  rw [hJ] at hmv
  have hfg : (ops (Sx.memOf N)).firstGrow (raw (a ++ r ++ t) rest) (a ++ r).length
        (a ++ r ++ t).length r.length d.items.length =
      .ok (raw (a ++ r ++ t ++ 0 :: Z) r2, d.items.length) := by
    unfold SxOps.firstGrow
    rw [usub_ok (by rw [hlar]; omega)]
    simp only [Res.ok_bind]
    rw [if_pos (by rw [hlar]; omega), usub_ok (by rw [hlp]; omega)]
    simp only [Res.ok_bind]
    rw [show d.items.length + (a ++ r ++ t).length - r.length = (a ++ r ++ t).length + g by rw [hlp]; omega]
    have e1' : (ops (Sx.memOf N)).resize (raw (a ++ r ++ t) rest) ((a ++ r ++ t).length + g) = _ := e1
    rw [e1']
    rfl
  generalize hT : ((rest ++ List.replicate g 0).drop (k - ((a ++ r ++ t).length + 1))).take
    ((a ++ r ++ t).length + g - k) = T at hmv ⊢
  have hTl : T.length = (a ++ r ++ t).length + g - k := by
    rw [← hT, ← hJ, List.length_drop, hZl, hk]; omega
  unfold SxOps.trySpliceDetail
  have hc : (ops (Sx.memOf N)).compact (raw (a ++ r ++ t) rest) = .ok (raw (a ++ r ++ t) rest) := rfl
  have hps : (ops (Sx.memOf N)).payloadSize (raw (a ++ r ++ t) rest) = .ok (a ++ r ++ t).length :=
    payloadSize_raw hp
  rw [hc, Res.ok_bind, hps]
  simp only [Res.ok_bind]
  rw [Sx.spliceBegin_eq, Sx.spliceEnd_eq, hrb, hre, usub_ok (by rw [hlar]; omega)]
  simp only [Res.ok_bind]
  rw [show (a ++ r).length - a.length = r.length by rw [hlar]; omega, hd, hfg]
  simp only [Res.ok_bind]
  rw [usub_ok (by rw [hlar]; omega)]
  simp only [Res.ok_bind]
  rw [show (a ++ r).length + d.items.length - r.length = a.length + d.items.length by rw [hlar]; omega, hmv]
  simp only [Res.ok_bind]
  rw [mainLoop_once (Sx.memOf N) a (t.take (k - ((a ++ r).length + g)) ++ T) r2 x d.items hxl
    (a ++ r ++ t).length r.length 1 (a.length + d.items.length)]
  simp only [Res.ok_bind]
  have hm2 : (ops (Sx.memOf N)).moveTail
      (raw (a ++ d.items.map e ++ (t.take (k - ((a ++ r).length + g)) ++ T)) r2)
      (a.length + d.items.length) (a.length + d.items.length) =
      .ok (raw (a ++ d.items.map e ++ (t.take (k - ((a ++ r).length + g)) ++ T)) r2) := by
    show moveTail _ _ _ = _
    obtain ⟨S, hS, -⟩ := payloadSize_le (a ++ d.items.map e ++ (t.take (k - ((a ++ r).length + g)) ++ T)) r2
    unfold moveTail
    rw [hS, Res.ok_bind, if_neg (by omega), if_neg (by omega)]
  rw [hm2]
  simp only [Res.ok_bind]
  rw [usub_ok (by rw [hlp]; omega)]
  simp only [Res.ok_bind]
  rw [show d.items.length + (a ++ r ++ t).length - r.length =
    (a ++ d.items.map e ++ (t.take (k - ((a ++ r).length + g)) ++ T)).length by
    simp only [List.length_append, List.length_take, List.length_map, hTl, hlp]
    rw [hk, hlar, hlp]; omega]
  have hf : (ops (Sx.memOf N)).resize
      (raw (a ++ d.items.map e ++ (t.take (k - ((a ++ r).length + g)) ++ T)) r2)
      (a ++ d.items.map e ++ (t.take (k - ((a ++ r).length + g)) ++ T)).length = _ := resize_same N _ r2 e2
  rw [hf]
  simp only [Res.ok_bind, Option.map_none, Res.pure_eq]
  rw [← List.append_assoc, replace_notin (by
    simp only [List.mem_append, not_or]
    exact ⟨⟨ha, hmid⟩, fun h => htn (List.mem_of_mem_take h)⟩)]

end Sxb

end Midi2

namespace Midi2

namespace Sxb

/-- Splicing at the end of a message in a growable buffer, if the size hint is above the number of
bytes replaced: `x` is what the buffer holds where the new bytes go. -/
theorem end_vec {a r rest : List (BitVec 8)} (hp : endByte ∉ a ++ r) (d : Src (BitVec 7)) (rb re : Bound)
    (hrb : rb.first = a.length) (hre : re.last (a ++ r).length = (a ++ r).length)
    (hg : r.length < d.estimate) (x : List (BitVec 8))
    (hx : x = r ++ 0 :: (rest ++ List.replicate (d.estimate - r.length) 0).take (d.estimate - r.length - 1)) :
    (d.items.length < d.estimate → endByte ∈ x.drop d.items.length →
      (ops .vec).trySpliceDetail (raw (a ++ r) rest) d rb re = .panic) ∧
    (d.items.length < d.estimate → endByte ∉ x.drop d.items.length →
      (ops .vec).trySpliceDetail (raw (a ++ r) rest) d rb re = .ok (raw (a ++ d.items.map e) [], none)) ∧
    (d.estimate ≤ d.items.length → (ops .vec).trySpliceDetail (raw (a ++ r) rest) d rb re =
      ((ops .vec).mainLoop a.length (a ++ r).length r.length (d.items.length + 1)
        (raw (a ++ (d.items.map e).take d.estimate) []) d.items 0 d.estimate 1 (a.length + d.estimate) >>=
          (ops .vec).finish a.length (a ++ r).length r.length)) := by
  have ha : endByte ∉ a := fun h => hp (by simp [h])
  have hlar : (a ++ r).length = a.length + r.length := by simp
  obtain ⟨r2, e1, e2, -⟩ := resize_grow_eq (p := a ++ r) (rest := rest) none hp
    (g := d.estimate - r.length) (by omega) (fun h => by cases h)
  rw [e2 rfl, List.append_assoc, ← hx] at e1
  have hxl : x.length = d.estimate := by
    rw [hx]
    simp only [List.length_append, List.length_cons, List.length_take, List.length_replicate]
    omega
  have hfg : (ops .vec).firstGrow (raw (a ++ r) rest) (a ++ r).length (a ++ r).length r.length d.estimate =
      .ok (raw (a ++ x) [], d.estimate) := by
    unfold SxOps.firstGrow
    rw [usub_ok (by rw [hlar]; omega)]
    simp only [Res.ok_bind]
    rw [if_pos (by rw [hlar]; omega), usub_ok (by rw [hlar]; omega)]
    simp only [Res.ok_bind]
    rw [show d.estimate + (a ++ r).length - r.length = (a ++ r).length + (d.estimate - r.length) by
      rw [hlar]; omega]
    have e1' : (ops .vec).resize (raw (a ++ r) rest) ((a ++ r).length + (d.estimate - r.length)) = _ := e1
    rw [e1']
    rfl
  have hmv : (ops .vec).moveTail (raw (a ++ x) []) (a ++ r).length (a.length + d.estimate) =
      .ok (raw (a ++ x) []) := by
    rw [show a.length + d.estimate = (a ++ x).length by simp [hxl]]
    exact moveTail_none _ _ (by rw [hlar, List.length_append, hxl]; omega)
  have start : (ops .vec).trySpliceDetail (raw (a ++ r) rest) d rb re =
      ((ops .vec).mainLoop a.length (a ++ r).length r.length (d.items.length + 1)
        (raw (a ++ x) []) d.items 0 d.estimate 1 (a.length + d.estimate) >>=
          (ops .vec).finish a.length (a ++ r).length r.length) := by
    have hps : (ops .vec).payloadSize (raw (a ++ r) rest) = .ok (a ++ r).length := payloadSize_raw hp
    have hc : ∀ s, (ops .vec).compact s = .ok s := fun _ => rfl
    rw [SxOps.trySpliceDetail_eq]
    unfold SxOps.toLoop
    simp only [hc, Res.ok_bind, hps]
    rw [Sx.spliceBegin_eq, Sx.spliceEnd_eq, hrb, hre, usub_ok (by rw [hlar]; omega)]
    simp only [Res.ok_bind]
    rw [show (a ++ r).length - a.length = r.length by rw [hlar]; omega, hfg]
    simp only [Res.ok_bind]
    rw [usub_ok (by rw [hlar]; omega)]
    simp only [Res.ok_bind]
    rw [show (a ++ r).length + d.estimate - r.length = a.length + d.estimate by rw [hlar]; omega, hmv]
    simp only [Res.ok_bind, bind_assoc, pure_bind]
  have hfill := fill_at .vec [] a [] d.estimate d.items [] x (by simp [hxl])
  simp only [List.append_nil, List.length_nil, Nat.zero_add] at hfill
  have short : d.items.length < d.estimate → (ops .vec).trySpliceDetail (raw (a ++ r) rest) d rb re =
      (ops .vec).finish a.length (a ++ r).length r.length
        (.done (raw (a ++ d.items.map e ++ x.drop d.items.length) []) d.items.length (a.length + d.estimate)) := by
    intro hlt
    rw [start]
    unfold SxOps.mainLoop
    rw [hfill, List.take_of_length_le (by simp; omega)]
    simp only [Res.ok_bind]
    rw [if_pos (by simp; omega), Nat.min_eq_right (by omega)]
    rfl
  have hdl : (x.drop d.items.length).length = d.estimate - d.items.length := by
    rw [List.length_drop, hxl]
  refine ⟨fun hlt hm => ?_, fun hlt hm => ?_, fun hle => ?_⟩
  · rw [short hlt]
    unfold SxOps.finish
    show (moveTail _ _ _ >>= _) = _
    obtain ⟨q1, q2, hq, hq1⟩ := List.eq_append_cons_of_mem hm
    have hraw : raw (a ++ d.items.map e ++ x.drop d.items.length) [] =
        raw (a ++ d.items.map e ++ q1) (q2 ++ [endByte]) := by
      rw [hq]; simp [raw]
    have hl := congrArg List.length hq
    rw [hdl, List.length_append, List.length_cons] at hl
    unfold moveTail
    rw [hraw, payloadSize_raw (by
      simp only [List.mem_append, not_or]
      exact ⟨⟨ha, end_notin _⟩, hq1⟩)]
    simp only [Res.ok_bind]
    rw [if_neg (by omega), if_pos (by omega)]
    unfold copyWithin
    rw [if_neg (by
      rintro ⟨h, -⟩
      simp only [List.length_append, List.length_map] at h
      omega)]
    rfl
  · rw [short hlt]
    unfold SxOps.finish
    have hn : endByte ∉ a ++ d.items.map e ++ x.drop d.items.length := by
      simp only [List.mem_append, not_or]
      exact ⟨⟨ha, end_notin _⟩, hm⟩
    have hl : (a ++ d.items.map e ++ x.drop d.items.length).length = a.length + d.estimate := by
      rw [List.length_append, hdl, List.length_append, List.length_map]; omega
    have hmv2 : (ops .vec).moveTail (raw (a ++ d.items.map e ++ x.drop d.items.length) [])
        (a.length + d.estimate) (a.length + d.items.length) =
        .ok (raw (a ++ d.items.map e ++ x.drop d.items.length) []) := by
      have : (ops .vec).moveTail (raw (a ++ d.items.map e ++ x.drop d.items.length) [])
          (a.length + d.estimate) (a.length + d.items.length) = _ :=
        moveDown_raw hn (show a.length + d.items.length < a.length + d.estimate by omega) (by rw [hl]; omega)
      rw [this, ← hl, List.drop_length, Nat.sub_self, Nat.add_zero, List.append_nil, List.take_append_drop]
    simp only [hmv2, Res.ok_bind]
    rw [usub_ok (by rw [hlar]; omega)]
    simp only [Res.ok_bind]
    have hr : (ops .vec).resize (raw (a ++ d.items.map e ++ x.drop d.items.length) [])
        (d.items.length + (a ++ r).length - r.length) = .ok (raw (a ++ d.items.map e) [], none) := by
      show (do return (← resizeVec _ _, none) : Res _) = _
      rw [resizeVec_shrink hn (by rw [hl, hlar]; omega),
        show d.items.length + (a ++ r).length - r.length = (a ++ d.items.map e).length by
          rw [hlar]; simp; omega, List.take_left]
      rfl
    rw [hr]
    rfl
  · rw [start]
    have hfill2 := fill_at .vec [] a [] d.estimate d.items [] ((d.items.map e).take d.estimate)
      (by simp; omega)
    simp only [List.append_nil, List.length_nil, Nat.zero_add] at hfill2
    unfold SxOps.mainLoop
    rw [hfill, hfill2]
    have hl2 : ((d.items.map e).take d.estimate).length = d.estimate := by simp; omega
    have hl3 : x.drop d.items.length = ((d.items.map e).take d.estimate).drop d.items.length := by
      rw [List.drop_eq_nil_of_le (by omega), List.drop_eq_nil_of_le (by omega)]
    rw [hl2, hxl, hl3]

/-- If the iterator gives as much as its hint says, what lies behind the message is not seen. -/
theorem end_vec_rest {a r rest rest' : List (BitVec 8)} (hp : endByte ∉ a ++ r) (d : Src (BitVec 7))
    (rb re : Bound) (hrb : rb.first = a.length) (hre : re.last (a ++ r).length = (a ++ r).length)
    (hle : d.estimate ≤ d.items.length) :
    (ops .vec).trySpliceDetail (raw (a ++ r) rest) d rb re =
      (ops .vec).trySpliceDetail (raw (a ++ r) rest') d rb re := by
  rcases Nat.lt_or_ge r.length d.estimate with hg | hg
  · rw [(end_vec hp d rb re hrb hre hg _ rfl).2.2 hle, (end_vec hp d rb re hrb hre hg _ rfl).2.2 hle]
  · have h0 : a ++ r = a ++ r ++ [] := by simp
    rw [h0] at hp hre ⊢
    rw [detail_rest (rest := rest) hp d rb re hrb (by rw [hre]; simp),
      detail_rest (rest := rest') hp d rb re hrb (by rw [hre]; simp),
      show d.estimate - r.length - 1 = 0 by omega]
    rfl

end Sxb

end Midi2
