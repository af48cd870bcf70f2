import Verif.Lemmas.SysexBytesSet
import Verif.Lemmas.SysexOps

/-! # Splicing a byte message with an exact size hint, whatever lies behind it -/

namespace Midi2

namespace Sxb

/-- Writing items into the middle of a payload. -/
theorem fill_at (m : Sx.Mem) (rest a t : List (BitVec 8)) (est : Nat) :
    ∀ (data : List (BitVec 7)) (x q : List (BitVec 8)), est = x.length + q.length →
      (ops m).fill a.length est data (raw (a ++ x ++ q ++ t) rest) x.length =
        .ok (raw (a ++ x ++ (data.map e).take q.length ++ q.drop data.length ++ t) rest,
          data.drop q.length, x.length + min q.length data.length, decide (data.length < q.length)) := by
  intro data
  induction data with
  | nil =>
    intro x q he
    simp only [SxOps.fill, List.map_nil, List.take_nil, List.append_nil, List.length_nil,
      List.drop_zero, List.drop_nil, Nat.min_zero, Nat.add_zero]
    congr 4
    rw [he]
    rw [decide_eq_decide]
    omega
  | cons v data ih =>
    intro x q he
    unfold SxOps.fill
    cases q with
    | nil =>
      rw [if_neg (by simp at he; omega)]
      simp
    | cons c q =>
      rw [if_pos (by simp at he; omega)]
      have hw : (ops m).writeDatum (raw (a ++ x ++ c :: q ++ t) rest) v (a.length + x.length) =
          .ok (raw (a ++ (x ++ [e v]) ++ q ++ t) rest) := by
        show writeDatum _ _ _ = _
        rw [write_raw v (by simp)]
        congr 2
        rw [show a ++ x ++ c :: q ++ t = (a ++ x) ++ (c :: (q ++ t)) by simp,
          List.set_append_right _ _ (by simp)]
        simp
      rw [hw, Res.ok_bind]
      have := ih (x ++ [e v]) q (by simp at he ⊢; omega)
      rw [List.length_append, List.length_singleton] at this
      rw [this]
      simp only [List.map_cons, List.length_cons, List.take_succ_cons, List.drop_succ_cons,
        List.append_assoc, List.cons_append]
      have a1 : x.length + 1 + min q.length data.length =
          x.length + min (q.length + 1) (data.length + 1) := by omega
      have a2 : decide (data.length < q.length) = decide (data.length + 1 < q.length + 1) := by
        rw [decide_eq_decide]; omega
      rw [a1, a2]
      rfl

/-- What `resize` does to a message that grows. -/
theorem resize_grow {p rest : List (BitVec 8)} (N : Option Nat) (hp : endByte ∉ p) {n : Nat}
    (hn : p.length < n) (hN : N.isSome = true → n ≤ p.length + rest.length) :
    ∃ q r2, resize (Sx.memOf N) (raw p rest) n = .ok (raw q r2, none) ∧ q.length = n ∧
      q.take p.length = p ∧ (endByte ∉ rest.take (n - p.length - 1) → endByte ∉ q) ∧
      (N = none → r2 = []) ∧ (N.isSome = true → q.length + r2.length = p.length + rest.length) := by
  have hnot : ∀ c, endByte ∉ rest.take (n - p.length - 1) → endByte ∉ p ++ 0 :: (rest.take (n - p.length - 1) ++
      List.replicate c 0) := by
    intro c h hm
    simp only [List.mem_append, List.mem_cons, List.mem_replicate] at hm
    rcases hm with h1 | h1 | h1 | h1
    · exact hp h1
    · exact absurd h1 (by decide)
    · exact h h1
    · exact absurd h1.2 (by decide)
  obtain ⟨j, hj⟩ : ∃ j, n - p.length = j + 1 := ⟨n - p.length - 1, by omega⟩
  cases N with
  | none =>
    refine ⟨vecResize (p ++ 0 :: rest) n, [], ?_, vecResize_length _ _, ?_, ?_, fun _ => rfl, (fun h => by cases h)⟩
    · show (do return (← resizeVec _ n, none) : Res _) = _
      rw [resizeVec_grow hp hn]
      rfl
    · unfold vecResize
      rw [List.take_append_of_le_length (by simp; omega), List.take_take,
        Nat.min_eq_left (by omega), List.take_left]
    · intro h
      unfold vecResize
      rw [List.take_append, List.take_of_length_le (Nat.le_of_lt hn), hj, List.take_succ_cons,
        List.append_assoc, List.cons_append]
      have := hnot (n - (p ++ 0 :: rest).length) h
      rw [hj] at this
      exact this
  | some N =>
    have hN := hN rfl
    refine ⟨(p ++ 0 :: rest).take n, (p ++ 0 :: rest).drop (n + 1),
      tryResize_fits hp (by rw [raw_length]; omega) (by omega), by simp; omega, ?_, ?_,
      (fun h => by cases h), (fun _ => by simp; omega)⟩
    · rw [List.take_take, Nat.min_eq_left (by omega), List.take_left]
    · intro h
      rw [List.take_append, List.take_of_length_le (Nat.le_of_lt hn), hj, List.take_succ_cons]
      have := hnot 0 h
      rw [hj] at this
      simpa using this

/-- What it does to one that does not. -/
theorem resize_settle {x junk rest : List (BitVec 8)} (N : Option Nat) (hp : endByte ∉ x ++ junk) :
    ∃ r2, resize (Sx.memOf N) (raw (x ++ junk) rest) x.length = .ok (raw x r2, none) ∧
      (N = none → r2 = []) ∧
      (N.isSome = true → r2.length = junk.length + rest.length) := by
  cases N with
  | none =>
    refine ⟨[], ?_, fun _ => rfl, (fun h => by cases h)⟩
    show (do return (← resizeVec _ _, none) : Res _) = _
    rw [resizeVec_shrink hp (by simp)]
    simp
  | some N =>
    rcases Nat.lt_or_ge junk.length 2 with h | h
    · refine ⟨((x ++ junk) ++ 0 :: rest).drop (x.length + 1), ?_, fun h => (by cases h),
        fun _ => by simp⟩
      show tryResizeFixed _ _ = _
      rw [tryResize_fits hp (by rw [raw_length]; simp; omega) (by simp; omega)]
      simp
    · refine ⟨(x ++ junk).drop (x.length + 1) ++ endByte :: rest, ?_, fun h => (by cases h),
        fun _ => by simp; omega⟩
      show tryResizeFixed _ _ = _
      rw [tryResize_shrinks hp (by simp; omega)]
      simp

/-- The size of anything with an end byte. -/
theorem size_bounds (a q rest : List (BitVec 8)) (ha : endByte ∉ a) :
    ∃ s, payloadSize (raw (a ++ q) rest) = .ok s ∧ a.length ≤ s ∧ s ≤ a.length + q.length := by
  by_cases h : endByte ∈ q
  · obtain ⟨q1, q2, rfl, hq⟩ := List.eq_append_cons_of_mem h
    refine ⟨(a ++ q1).length, ?_, by simp, by simp⟩
    have : raw (a ++ (q1 ++ endByte :: q2)) rest = raw (a ++ q1) (q2 ++ endByte :: rest) := by simp [raw]
    rw [this]
    exact payloadSize_raw (by simp [ha, hq])
  · exact ⟨(a ++ q).length, payloadSize_raw (by simp [ha, h]), by simp, by simp⟩

/-- Moving an empty tail. -/
theorem moveTail_none (q rest : List (BitVec 8)) {tail : Nat} (h : tail ≤ q.length) :
    moveTail (raw q rest) tail q.length = .ok (raw q rest) := by
  obtain ⟨k, hk, hle⟩ := payloadSize_le q rest
  unfold moveTail
  rw [hk, Res.ok_bind]
  by_cases h0 : tail < q.length
  · rw [if_pos h0]
    unfold copyWithin
    rw [show k - q.length = 0 by omega]
    rw [if_pos ⟨by omega, by rw [raw_length]; omega, by rw [raw_length]; omega⟩]
    congr 1
    simp
  · rw [if_neg h0, if_neg (by omega)]

/-- One turn of the main loop. -/
theorem mainLoop_once (m : Sx.Mem) (a t rest x : List (BitVec 8)) (items : List (BitVec 7))
    (hx : x.length = items.length) (initial spliceSize add tail : Nat) :
    (ops m).mainLoop a.length initial spliceSize (items.length + 1) (raw (a ++ x ++ t) rest) items 0
      items.length add tail = .ok (.done (raw (a ++ items.map e ++ t) rest) items.length tail) := by
  unfold SxOps.mainLoop
  have := fill_at m rest a t items.length items [] x (by simp [hx])
  simp only [List.append_nil, List.length_nil, Nat.zero_add] at this
  rw [this]
  simp only [Res.ok_bind, hx, Nat.lt_irrefl, decide_false, Nat.min_self, beq_self_eq_true,
    Res.assert, if_true, Bool.false_eq_true, if_false]
  rw [List.drop_of_length_le (Nat.le_refl _), List.take_of_length_le (by simp),
    List.drop_of_length_le (by omega), List.append_nil]
  rfl

/-- An exact size hint, and room for the result. -/
theorem splice_exact {a r t rest : List (BitVec 8)} (N : Option Nat) (hp : endByte ∉ a ++ r ++ t)
    (d : Src (BitVec 7)) (hd : d.estimate = d.items.length) (rb re : Bound)
    (hrb : rb.first = a.length) (hre : re.last (a ++ r ++ t).length = (a ++ r).length)
    (hfit : N.isSome = true → a.length + d.items.length + t.length ≤ (a ++ r ++ t).length + rest.length)
    (hs : t = [] ∨ endByte ∉ rest.take (d.items.length - r.length - 1)) :
    ∃ r2, (ops (Sx.memOf N)).trySpliceDetail (raw (a ++ r ++ t) rest) d rb re =
        .ok (raw (a ++ d.items.map e ++ t) r2, none) ∧
      (N = none → r2 = []) ∧
      (N.isSome = true → a.length + d.items.length + t.length + r2.length =
        (a ++ r ++ t).length + rest.length) := by
  have ha : endByte ∉ a := fun h => hp (by simp [h])
  have ht : endByte ∉ t := fun h => hp (by simp [h])
  have hmid : endByte ∉ d.items.map e := end_notin _
  have hlp : (a ++ r ++ t).length = a.length + r.length + t.length := by simp; omega
  have hlar : (a ++ r).length = a.length + r.length := by simp
  -- the state in which the items are written
  have start : ∃ s1 x junk r1, (ops (Sx.memOf N)).firstGrow (raw (a ++ r ++ t) rest) (a ++ r).length
        (a ++ r ++ t).length r.length d.items.length = .ok (s1, d.items.length) ∧
      (ops (Sx.memOf N)).moveTail s1 (a ++ r).length (a.length + d.items.length) =
        .ok (raw (a ++ x ++ (t ++ junk)) r1) ∧ x.length = d.items.length ∧ endByte ∉ junk ∧
      (N.isSome = true → a.length + d.items.length + t.length + junk.length + r1.length =
        (a ++ r ++ t).length + rest.length) := by
    unfold SxOps.firstGrow
    rw [usub_ok (by rw [hlar]; omega)]
    simp only [Res.ok_bind]
    rcases Nat.lt_or_ge r.length d.items.length with hg | hg
    · rw [if_pos (by rw [hlar]; omega), usub_ok (by rw [hlp]; omega)]
      simp only [Res.ok_bind]
      have hn : d.items.length + (a ++ r ++ t).length - r.length = a.length + d.items.length + t.length := by
        rw [hlp]; omega
      rw [hn]
      obtain ⟨q, r2, e1, e2, e3, e4, e5, e6⟩ := resize_grow (p := a ++ r ++ t) (rest := rest) N hp
        (n := a.length + d.items.length + t.length) (by rw [hlp]; omega) hfit
      have e1' : (ops (Sx.memOf N)).resize (raw (a ++ r ++ t) rest) (a.length + d.items.length + t.length) = _ := e1
      rw [e1']
      simp only [Res.ok_bind]
      -- `q` begins with the old payload
      obtain ⟨z, rfl⟩ : ∃ z, q = a ++ r ++ t ++ z :=
        ⟨q.drop (a ++ r ++ t).length, by conv => lhs; rw [← List.take_append_drop (a ++ r ++ t).length q, e3]⟩
      have hz : z.length = d.items.length - r.length := by
        rw [List.length_append, hlp] at e2; omega
      rcases hs with rfl | hs
      · refine ⟨_, r ++ z, [], r2, rfl, ?_, by simp; omega, by simp, ?_⟩
        · show moveTail _ _ _ = _
          have hqq : a.length + d.items.length = (a ++ r ++ [] ++ z).length := by
            simp; omega
          rw [hqq, moveTail_none _ _ (by simp)]
          simp
        · intro hN
          have := e6 hN
          rw [e2] at this
          simpa using this
      · have hq := e4 (by
          rw [show a.length + d.items.length + t.length - (a ++ r ++ t).length - 1 =
            d.items.length - r.length - 1 by rw [hlp]; omega]
          exact hs)
        refine ⟨_, ((a ++ r ++ t ++ z).take (a.length + d.items.length)).drop a.length, [], r2, rfl, ?_, ?_,
          by simp, ?_⟩
        · show moveTail _ _ _ = _
          rw [moveUp_raw hq (by rw [hlar]; omega) (by rw [e2]; omega)]
          congr 2
          have h1 : (a ++ r ++ t ++ z).take (a.length + d.items.length) =
              a ++ ((a ++ r ++ t ++ z).take (a.length + d.items.length)).drop a.length := by
            conv => lhs; rw [← List.take_append_drop a.length ((a ++ r ++ t ++ z).take (a.length + d.items.length))]
            rw [List.take_take, Nat.min_eq_left (by omega)]
            congr 1
            simp [List.append_assoc]
          have h2 : ((a ++ r ++ t ++ z).drop (a ++ r).length).take
              ((a ++ r ++ t ++ z).length - (a.length + d.items.length)) = t := by
            rw [e2, show a.length + d.items.length + t.length - (a.length + d.items.length) = t.length by omega,
              List.append_assoc (a ++ r), List.drop_left, List.take_left]
          rw [h2, h1]
          simp
        · rw [List.length_drop, List.length_take, e2]; omega
        · intro hN
          have := e6 hN
          rw [e2] at this
          simpa using this
    · rw [if_neg (by rw [hlar]; omega)]
      refine ⟨_, r.take d.items.length, (t.drop (r.length - d.items.length)) |> fun _ =>
        ((a ++ r ++ t).drop (a.length + d.items.length + t.length)), rest, rfl, ?_, ?_, ?_, ?_⟩
      · show moveTail _ _ _ = _
        rcases Nat.eq_or_lt_of_le hg with h | h
        · rw [show a.length + d.items.length = (a ++ r).length by rw [hlar]; omega, moveSame_raw hp]
          congr 2
          rw [List.take_of_length_le (by omega), List.drop_of_length_le (by rw [hlp]; omega)]
          simp
        · rw [moveDown_raw hp (by rw [hlar]; omega) (by rw [hlp, hlar]; omega)]
          congr 2
          rw [List.drop_left, hlar, hlp, show a.length + d.items.length + (a.length + r.length + t.length -
            (a.length + r.length)) = a.length + d.items.length + t.length by omega]
          have : (a ++ r ++ t).take (a.length + d.items.length) = a ++ r.take d.items.length := by
            rw [List.append_assoc, List.take_append, List.take_of_length_le (by omega),
              show a.length + d.items.length - a.length = d.items.length by omega,
              List.take_append_of_le_length hg]
          rw [this]
          simp
      · simp; omega
      · intro h
        exact hp (List.mem_of_mem_drop h)
      · intro _
        simp only [List.length_drop, hlp]
        omega
  obtain ⟨s1, x, junk, r1, g1, g2, g3, g4, g5⟩ := start
  obtain ⟨r2, f1, f2, f3⟩ := resize_settle (x := a ++ d.items.map e ++ t) (junk := junk) (rest := r1) N (by
    simp only [List.mem_append, not_or]
    exact ⟨⟨⟨ha, hmid⟩, ht⟩, g4⟩)
  refine ⟨r2, ?_, f2, fun hN => ?_⟩
  · unfold SxOps.trySpliceDetail
    have hc : (ops (Sx.memOf N)).compact (raw (a ++ r ++ t) rest) = .ok (raw (a ++ r ++ t) rest) := rfl
    have hps : (ops (Sx.memOf N)).payloadSize (raw (a ++ r ++ t) rest) = .ok (a ++ r ++ t).length :=
      payloadSize_raw hp
    rw [hc, Res.ok_bind, hps]
    simp only [Res.ok_bind]
    rw [Sx.spliceBegin_eq, Sx.spliceEnd_eq, hrb, hre, usub_ok (by rw [hlar]; omega)]
    simp only [Res.ok_bind]
    rw [show (a ++ r).length - a.length = r.length by rw [hlar]; omega, hd, g1]
    simp only [Res.ok_bind]
    rw [usub_ok (by rw [hlar]; omega)]
    simp only [Res.ok_bind]
    rw [show (a ++ r).length + d.items.length - r.length = a.length + d.items.length by rw [hlar]; omega, g2]
    simp only [Res.ok_bind]
    have hloop := mainLoop_once (Sx.memOf N) a (t ++ junk) r1 x d.items g3 (a ++ r ++ t).length r.length 1
      (a.length + d.items.length)
    rw [hloop]
    simp only [Res.ok_bind]
    have hall : endByte ∉ a ++ d.items.map e ++ (t ++ junk) := by
      simp only [List.mem_append, not_or]
      exact ⟨⟨ha, hmid⟩, ht, g4⟩
    have hm2 : (ops (Sx.memOf N)).moveTail (raw (a ++ d.items.map e ++ (t ++ junk)) r1)
        (a.length + d.items.length) (a.length + d.items.length) = _ := moveSame_raw hall _
    rw [hm2]
    simp only [Res.ok_bind]
    rw [usub_ok (by rw [hlp]; omega)]
    simp only [Res.ok_bind]
    rw [show d.items.length + (a ++ r ++ t).length - r.length = (a ++ d.items.map e ++ t).length by
      rw [hlp]; simp; omega]
    have hf : (ops (Sx.memOf N)).resize (raw (a ++ d.items.map e ++ t ++ junk) r1)
        (a ++ d.items.map e ++ t).length = _ := f1
    rw [← List.append_assoc, hf]
    rfl
  · have h1 := g5 hN
    have h2 := f3 hN
    omega

/-! ### No room -/

/-- The first terminator. -/
theorem raw_first (q rest : List (BitVec 8)) :
    ∃ q1 r1, raw q rest = raw q1 r1 ∧ endByte ∉ q1 ∧ q1.length + r1.length = q.length + rest.length ∧
      q.take q1.length = q1 := by
  by_cases h : endByte ∈ q
  · obtain ⟨q1, q2, rfl, hq⟩ := List.eq_append_cons_of_mem h
    exact ⟨q1, q2 ++ endByte :: rest, by simp [raw], hq, by simp; omega, by simp⟩
  · exact ⟨q, rest, rfl, h, rfl, by simp⟩

theorem raw_inj_length {q q' r r' : List (BitVec 8)} (h : raw q r = raw q' r') :
    q.length + r.length = q'.length + r'.length := by
  have := congrArg List.length h
  rw [raw_length, raw_length] at this
  omega

/-- Moving a tail up inside a full buffer. -/
theorem moveUp_any (q : List (BitVec 8)) {tail to : Nat} (h : tail ≤ to) (h' : to ≤ q.length) :
    ∃ q', moveTail (raw q []) tail to = .ok (raw q' []) ∧ q'.length = q.length ∧ q'.take to = q.take to := by
  obtain ⟨k, hk, hle⟩ := payloadSize_le q []
  unfold moveTail
  rw [hk, Res.ok_bind]
  rcases Nat.eq_or_lt_of_le h with rfl | h
  · rw [if_neg (Nat.lt_irrefl _), if_neg (Nat.lt_irrefl _)]
    exact ⟨q, rfl, rfl, rfl⟩
  · rw [if_pos h]
    unfold copyWithin
    rw [if_pos ⟨by omega, by rw [raw_length]; simp; omega, by rw [raw_length]; simp; omega⟩]
    have hq : (raw q []) = startByte :: q ++ [endByte] := rfl
    have e1 : 1 + tail + (k - to) - (1 + tail) = k - to := by omega
    rw [e1]
    refine ⟨q.take to ++ (q.take (tail + (k - to))).drop tail ++ q.drop (to + (k - to)), ?_, ?_, ?_⟩
    · congr 1
      rw [hq]
      have t1 : (startByte :: q ++ [endByte]).take (to + 1) = startByte :: q.take to := by
        rw [List.cons_append, List.take_succ_cons, List.take_append_of_le_length h']
      have t2 : ((startByte :: q ++ [endByte]).take (1 + tail + (k - to))).drop (1 + tail) =
          (q.take (tail + (k - to))).drop tail := by
        rw [show 1 + tail + (k - to) = tail + (k - to) + 1 by omega, show 1 + tail = tail + 1 by omega,
          List.cons_append, List.take_succ_cons, List.drop_succ_cons,
          List.take_append_of_le_length (by omega)]
      have t3 : (startByte :: q ++ [endByte]).drop (to + 1 + (k - to)) = q.drop (to + (k - to)) ++ [endByte] := by
        rw [show to + 1 + (k - to) = to + (k - to) + 1 by omega, List.cons_append, List.drop_succ_cons,
          List.drop_append_of_le_length (by omega)]
      rw [t1, t2, t3]
      simp [raw]
    · simp only [List.length_append, List.length_take, List.length_drop]; omega
    · rw [List.append_assoc, List.take_append_of_le_length (by simp; omega), List.take_take, Nat.min_self]

/-- Moving a tail down inside a full buffer. -/
theorem moveDown_any (q : List (BitVec 8)) {tail to : Nat} (h : to ≤ tail)
    (h' : ∃ s, payloadSize (raw q []) = .ok s ∧ tail ≤ s) :
    ∃ q', moveTail (raw q []) tail to = .ok (raw q' []) ∧ q'.length = q.length := by
  obtain ⟨s, hs, hts⟩ := h'
  obtain ⟨k, hk, hle⟩ := payloadSize_le q []
  rw [hk] at hs
  cases hs
  unfold moveTail
  rw [hk, Res.ok_bind, if_neg (by omega)]
  rcases Nat.eq_or_lt_of_le h with rfl | h
  · rw [if_neg (Nat.lt_irrefl _)]
    exact ⟨q, rfl, rfl⟩
  · rw [if_pos h]
    unfold copyWithin
    rw [if_pos ⟨by omega, by rw [raw_length]; simp; omega, by rw [raw_length]; simp; omega⟩]
    have hq : (raw q []) = startByte :: q ++ [endByte] := rfl
    refine ⟨q.take to ++ (q.take s).drop tail ++ q.drop (to + (s - tail)), ?_, ?_⟩
    · congr 1
      rw [hq]
      have t1 : (startByte :: q ++ [endByte]).take (to + 1) = startByte :: q.take to := by
        rw [List.cons_append, List.take_succ_cons, List.take_append_of_le_length (by omega)]
      have t2 : ((startByte :: q ++ [endByte]).take (1 + s)).drop (1 + tail) = (q.take s).drop tail := by
        rw [show 1 + s = s + 1 by omega, show 1 + tail = tail + 1 by omega,
          List.cons_append, List.take_succ_cons, List.drop_succ_cons,
          List.take_append_of_le_length (by omega)]
      have t3 : (startByte :: q ++ [endByte]).drop (to + 1 + (1 + s - (1 + tail))) =
          q.drop (to + (s - tail)) ++ [endByte] := by
        rw [show to + 1 + (1 + s - (1 + tail)) = to + (s - tail) + 1 by omega, List.cons_append,
          List.drop_succ_cons, List.drop_append_of_le_length (by omega)]
      rw [t1, t2, t3]
      simp [raw]
    · simp only [List.length_append, List.length_take, List.length_drop]; omega

/-- Growing a message beyond the buffer. -/
theorem tryResize_over (q rest : List (BitVec 8)) {n : Nat} (h : q.length + rest.length < n) :
    ∃ q', tryResizeFixed (raw q rest) n = .ok (raw q' [], some (q.length + rest.length)) ∧
      q'.length = q.length + rest.length ∧
      ∀ a z, q = a ++ z → endByte ∉ a → q'.take a.length = a := by
  obtain ⟨q1, r1, e1, e2, e3, e4⟩ := raw_first q rest
  rw [e1, tryResize_full e2 (by rw [raw_length]; omega), e3]
  refine ⟨_, rfl, by simp; omega, ?_⟩
  rintro a z rfl ha
  have hal : a.length ≤ q1.length := by
    rcases Nat.lt_or_ge q1.length a.length with h | h
    · exfalso
      have : raw (a ++ z) rest = raw q1 r1 := e1
      unfold raw at this
      have h2 := congrArg (fun l => (l.drop 1)[q1.length]?) this
      simp only [List.drop_succ_cons, List.drop_zero, List.append_assoc] at h2
      rw [List.getElem?_append_left h] at h2
      rw [List.getElem?_append_right (Nat.le_refl _)] at h2
      simp at h2
      exact ha (List.mem_of_getElem? h2)
    · exact h
  have hq1 : q1.take a.length = a := by
    rw [← e4, List.take_take, Nat.min_eq_left hal, List.take_left]
  rw [List.take_take, Nat.min_eq_left (by omega), List.take_append_of_le_length hal, hq1]

/-- An exact size hint, and no room for the result. -/
theorem splice_over {a r t rest : List (BitVec 8)} (hp : endByte ∉ a ++ r ++ t)
    (d : Src (BitVec 7)) (hd : d.estimate = d.items.length) (rb re : Bound)
    (hrb : rb.first = a.length) (hre : re.last (a ++ r ++ t).length = (a ++ r).length)
    (hfit : (a ++ r ++ t).length + rest.length < a.length + d.items.length + t.length) :
    ∃ r2, (ops .fixed).trySplice (raw (a ++ r ++ t) rest) d rb re =
        .ok (raw [] r2, some .bufferOverflow) ∧
      r2.length = (a ++ r ++ t).length + rest.length := by
  have ha : endByte ∉ a := fun h => hp (by simp [h])
  have hlp : (a ++ r ++ t).length = a.length + r.length + t.length := by simp; omega
  have hlar : (a ++ r).length = a.length + r.length := by simp
  -- `k` items fit
  obtain ⟨k, hk⟩ : ∃ k, k = r.length + rest.length := ⟨_, rfl⟩
  have hkl : k < d.items.length := by rw [hlp] at hfit; omega
  obtain ⟨q0, g1, g2, g3⟩ := tryResize_over (a ++ r ++ t) rest
    (n := a.length + d.items.length + t.length) hfit
  have hgrow : (ops .fixed).firstGrow (raw (a ++ r ++ t) rest) (a ++ r).length (a ++ r ++ t).length
      r.length d.items.length = .ok (raw q0 [], k) := by
    unfold SxOps.firstGrow
    rw [usub_ok (by rw [hlar]; omega)]
    simp only [Res.ok_bind]
    rw [if_pos (by rw [hlar]; omega), usub_ok (by rw [hlp]; omega)]
    simp only [Res.ok_bind]
    rw [show d.items.length + (a ++ r ++ t).length - r.length = a.length + d.items.length + t.length by
      rw [hlp]; omega]
    have g1' : (ops .fixed).resize (raw (a ++ r ++ t) rest) (a.length + d.items.length + t.length) = _ := g1
    rw [g1']
    simp only [Res.ok_bind]
    rw [usub_ok (by rw [hlp]; omega)]
    simp only [Res.ok_bind]
    rw [show (a ++ r ++ t).length + rest.length - ((a ++ r ++ t).length - r.length) = k by rw [hlp]; omega]
  have hq0l : q0.length = a.length + k + t.length := by rw [g2, hlp]; omega
  obtain ⟨q1, m1, m2, m3⟩ := moveUp_any q0 (tail := (a ++ r).length) (to := a.length + k)
    (by rw [hlar]; omega) (by omega)
  have hq1 : q1.take a.length = a := by
    have : (q1.take (a.length + k)).take a.length = (q0.take (a.length + k)).take a.length := by rw [m3]
    rw [List.take_take, List.take_take, Nat.min_eq_left (by omega)] at this
    rw [this]
    exact g3 a (r ++ t) (by simp) ha
  obtain ⟨x, y, hx, hy, rfl⟩ : ∃ x y, x.length = k ∧ y.length = t.length ∧ q1 = a ++ [] ++ x ++ y := by
    refine ⟨(q1.drop a.length).take k, (q1.drop a.length).drop k, by simp; omega, by simp; omega, ?_⟩
    rw [List.append_nil, List.append_assoc, List.take_append_drop]
    conv => lhs; rw [← List.take_append_drop a.length q1, hq1]
  have hitems : endByte ∉ a ++ (d.items.map e).take k := by
    simp only [List.mem_append, not_or]
    exact ⟨ha, fun h => end_notin d.items (List.mem_of_mem_take h)⟩
  have hil : (a ++ (d.items.map e).take k).length = a.length + k := by simp; omega
  obtain ⟨q3, o1, o2, o3⟩ := tryResize_over (a ++ (d.items.map e).take k ++ y) []
    (n := k + 1 + (a ++ r ++ t).length - r.length) (by simp [hy]; omega)
  have hq3l : q3.length = a.length + k + t.length := by
    rw [o2, List.length_append, hil, hy]; simp
  have hq3 : q3.take (a.length + k) = a ++ (d.items.map e).take k := by
    have := o3 _ y rfl hitems
    rwa [hil] at this
  have hq3s : ∃ s, payloadSize (raw q3 []) = .ok s ∧ a.length + k ≤ s := by
    obtain ⟨s, s1, s2, _⟩ := size_bounds (a ++ (d.items.map e).take k) (q3.drop (a.length + k)) [] hitems
    refine ⟨s, ?_, by omega⟩
    rwa [← hq3, List.take_append_drop] at s1
  obtain ⟨q4, w1, w2⟩ := moveDown_any q3 (tail := a.length + k) (to := a.length + k - r.length)
    (by omega) hq3s
  have hloop : (ops .fixed).mainLoop a.length (a ++ r ++ t).length r.length (d.items.length + 1)
      (raw (a ++ [] ++ x ++ y) []) d.items 0 k 1 (a.length + k) = .ok (.overflow (raw q4 [])) := by
    unfold SxOps.mainLoop
    have := fill_at .fixed [] a y k d.items [] x (by simp [hx])
    simp only [List.length_nil, Nat.zero_add] at this
    rw [this]
    have hlt : ¬ d.items.length < k := by omega
    have hmin : min k d.items.length = k := by omega
    have hne : (d.items.drop k).isEmpty = false := by
      rw [List.isEmpty_eq_false_iff]; intro h
      have := congrArg List.length h
      simp at this; omega
    simp only [Res.ok_bind, hx, hlt, decide_false, hmin, beq_self_eq_true, hne,
      Res.assert, if_true, Bool.false_eq_true, if_false]
    rw [show x.drop d.items.length = [] from List.drop_of_length_le (by omega), List.append_nil,
      List.append_nil]
    unfold SxOps.growMore
    rw [if_pos (by omega), usub_ok (by rw [hlp]; omega)]
    simp only [Res.ok_bind]
    have hr : (ops .fixed).resize (raw (a ++ (d.items.map e).take k ++ y) [])
      (k + 1 + (a ++ r ++ t).length - r.length) = _ := o1
    rw [hr]
    simp only [Res.ok_bind]
    rw [usub_ok (by rw [hlp]; omega)]
    simp only [Res.ok_bind]
    have hsz : (a ++ (d.items.map e).take k ++ y).length + ([] : List (BitVec 8)).length -
        ((a ++ r ++ t).length - r.length) = k := by
      rw [List.length_append, hil, hy, hlp]; simp; omega
    rw [hsz, usub_ok (by omega)]
    simp only [Res.ok_bind]
    have hm : (ops .fixed).moveTail (raw q3 []) (a.length + k) (a.length + k - r.length) = _ := w1
    rw [hm]
    simp
  have hdet : (ops .fixed).trySpliceDetail (raw (a ++ r ++ t) rest) d rb re =
      .ok (raw q4 [], some .bufferOverflow) := by
    unfold SxOps.trySpliceDetail
    have hc : (ops .fixed).compact (raw (a ++ r ++ t) rest) = .ok (raw (a ++ r ++ t) rest) := rfl
    have hps : (ops .fixed).payloadSize (raw (a ++ r ++ t) rest) = .ok (a ++ r ++ t).length :=
      payloadSize_raw hp
    rw [hc, Res.ok_bind, hps]
    simp only [Res.ok_bind]
    rw [Sx.spliceBegin_eq, Sx.spliceEnd_eq, hrb, hre, usub_ok (by rw [hlar]; omega)]
    simp only [Res.ok_bind]
    rw [show (a ++ r).length - a.length = r.length by rw [hlar]; omega, hd, hgrow]
    simp only [Res.ok_bind]
    rw [usub_ok (by rw [hlar]; omega)]
    simp only [Res.ok_bind]
    rw [show (a ++ r).length + k - r.length = a.length + k by rw [hlar]; omega]
    have hm : (ops .fixed).moveTail (raw q0 []) (a ++ r).length (a.length + k) = _ := m1
    rw [hm]
    simp only [Res.ok_bind]
    rw [hloop]
    rfl
  obtain ⟨q5, r5, f1, f2, f3, _⟩ := raw_first q4 []
  obtain ⟨r6, z1, z2, _⟩ := tryResize_zero (rest := r5) f2
  refine ⟨r6, ?_, ?_⟩
  · unfold SxOps.trySplice
    rw [hdet]
    simp only [Res.ok_bind]
    have hz : (ops .fixed).resize (raw q4 []) 0 = .ok (raw [] r6, none) := by
      rw [f1]; exact z1
    rw [hz]
    rfl
  · rw [z2, f3, w2, hq3l, hlp]; simp; omega

end Sxb

end Midi2
