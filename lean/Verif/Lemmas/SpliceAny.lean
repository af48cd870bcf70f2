import Verif.Lemmas.Splice

/-!
# The splice algorithm with any size hint

Where a buffer is too small for the guesses of the algorithm, the tail goes to the wrong place.
What stays true is proved here: the bytes before the range are kept, the length is right, and
overflow is reported exactly when the result does not fit.
-/

namespace Midi2

namespace SxLawsAll

variable {S β : Type} {ops : SxOps S β} {R Q : S → List β → Prop} {lim : Option Nat}

theorem fill_any (L : SxLawsAll ops R Q lim) (begin est : Nat) :
    ∀ (data : List β) (s : S) (l : List β) (w : Nat), R s l → begin + est ≤ l.length → w ≤ est →
      ∃ s' l', ops.fill begin est data s w =
          .ok (s', data.drop (est - w), w + min (est - w) data.length,
            decide (w + data.length < est)) ∧
        R s' l' ∧ l'.length = l.length ∧ l'.take begin = l.take begin := by
  intro data
  induction data with
  | nil =>
    intro s l w hR he hw
    refine ⟨s, l, ?_, hR, rfl, rfl⟩
    simp [SxOps.fill]
  | cons v rest ih =>
    intro s l w hR he hw
    unfold SxOps.fill
    by_cases h : w < est
    · rw [if_pos h]
      obtain ⟨s1, e1, r1⟩ := L.write v (begin + w) hR (by omega)
      obtain ⟨s2, l2, e2, r2, h2, t2⟩ := ih s1 (l.set (begin + w) v) (w + 1) r1
        (by rw [List.length_set]; exact he) (by omega)
      rw [e1]
      simp only [Res.ok_bind]
      refine ⟨s2, l2, ?_, r2, by rw [h2, List.length_set], ?_⟩
      · rw [e2, show est - w = (est - (w + 1)) + 1 by omega, List.drop_succ_cons, List.length_cons,
          show w + 1 + min (est - (w + 1)) rest.length = w + min (est - (w + 1) + 1) (rest.length + 1) by omega,
          show w + 1 + rest.length = w + (rest.length + 1) by omega]
      · rw [t2, List.take_set_of_le (by omega)]
    · rw [if_neg h]
      refine ⟨s, l, ?_, hR, rfl, rfl⟩
      rw [show est - w = 0 by omega, Nat.zero_min, List.drop_zero, decide_eq_false (by omega)]
      rfl

theorem move_any (L : SxLawsAll ops R Q lim) {s : S} {l : List β} (begin tail to : Nat) (hR : R s l)
    (h1 : begin ≤ to) (h2 : tail ≤ l.length) (h3 : to ≤ l.length) :
    ∃ s' l', ops.moveTail s tail to = .ok s' ∧ R s' l' ∧ l'.length = l.length ∧
      l'.take begin = l.take begin := by
  rcases Nat.lt_trichotomy tail to with h | h | h
  · obtain ⟨s', e, r⟩ := L.up tail to hR h h3
    refine ⟨s', _, e, r, ?_, ?_⟩
    · simp only [List.length_append, List.length_take, List.length_drop]; omega
    · rw [List.take_append_of_le_length (by rw [List.length_take]; omega), List.take_take,
        Nat.min_eq_left h1]
  · subst h
    obtain ⟨s', e, r⟩ := L.same tail hR
    exact ⟨s', l, e, r, rfl, rfl⟩
  · obtain ⟨s', e, r⟩ := L.down tail to hR h h2
    refine ⟨s', _, e, r, ?_, ?_⟩
    · simp only [List.length_append, List.length_take, List.length_drop]; omega
    · rw [List.append_assoc, List.take_append_of_le_length (by rw [List.length_take]; omega),
        List.take_take, Nat.min_eq_left h1]

theorem take_le {l l' : List β} {n m : Nat} (h : l'.take l.length = l.take n) (h1 : m ≤ n)
    (h2 : m ≤ l.length) : l'.take m = l.take m := by
  have := congrArg (List.take m) h
  rwa [List.take_take, List.take_take, Nat.min_eq_left h2, Nat.min_eq_left h1] at this

theorem mainLoop_any (L : SxLawsAll ops R Q lim) (begin old post : Nat)
    (hi : Fits lim (begin + old + post)) :
    ∀ (fuel : Nat) (s : S) (data l : List β) (w est add : Nat), R s l →
      begin + est + post ≤ l.length → w ≤ est → 0 < add → data.length + w + 1 ≤ fuel + est → 0 < fuel →
      ∃ r, ops.mainLoop begin (begin + old + post) old fuel s data w est add (begin + est) = .ok r ∧
        (Fits lim (begin + w + data.length + post) → ∃ s' l' t, r = .done s' (w + data.length) t ∧
          R s' l' ∧ l'.take begin = l.take begin ∧ begin + w + data.length ≤ t ∧
          t + post ≤ l'.length) ∧
        (¬ Fits lim (begin + w + data.length + post) → ∃ s' l', r = .overflow s' ∧ R s' l') := by
  intro fuel
  induction fuel with
  | zero => intro s data l w est add _ _ _ _ _ h; omega
  | succ fuel ih =>
    intro s data l w est add hR hl hw hadd hfuel _
    obtain ⟨s1, l1, e1, r1, h1, t1⟩ := L.fill_any begin est data s l w hR (by omega) hw
    simp only [SxOps.mainLoop, e1, Res.ok_bind]
    by_cases hd : w + data.length ≤ est
    · have hfit : Fits lim (begin + w + data.length + post) := (L.bound hR).mono (by omega)
      have hm : w + min (est - w) data.length = w + data.length := by omega
      have key : ∃ s' l' t, LoopEnd.done s1 (w + min (est - w) data.length) (begin + est) =
          .done s' (w + data.length) t ∧ R s' l' ∧ l'.take begin = l.take begin ∧
          begin + w + data.length ≤ t ∧ t + post ≤ l'.length :=
        ⟨s1, l1, begin + est, by rw [hm], r1, t1, by omega, by omega⟩
      by_cases hlt : w + data.length < est
      · simp only [hlt, decide_true, if_true]
        exact ⟨_, rfl, fun _ => key, fun h => absurd hfit h⟩
      · have ha : (w + min (est - w) data.length == est) = true := by simp; omega
        simp only [hlt, decide_false, ha, Res.assert, if_true, Res.ok_bind,
          List.drop_eq_nil_of_le (show data.length ≤ est - w by omega), List.isEmpty_nil,
          Bool.false_eq_true, if_false]
        exact ⟨_, rfl, fun _ => key, fun h => absurd hfit h⟩
    · have hlt : ¬ w + data.length < est := by omega
      have ha : (w + min (est - w) data.length == est) = true := by simp; omega
      have hne : (data.drop (est - w)).isEmpty = false := by
        rw [List.isEmpty_eq_false_iff]; intro h
        have := congrArg List.length h
        simp at this; omega
      simp only [hlt, decide_false, ha, Res.assert, if_true, Res.ok_bind, hne,
        Bool.false_eq_true, if_false]
      have hw' : w + min (est - w) data.length = est := by omega
      rw [hw']
      have hdl : est + (data.drop (est - w)).length = w + data.length := by
        rw [List.length_drop]; omega
      unfold SxOps.growMore
      rw [if_pos (by omega), usub_ok (by omega),
        show est + add + (begin + old + post) - old = begin + est + add + post by omega]
      simp only [Res.ok_bind]
      by_cases hfit : Fits lim (begin + est + add + post)
      · obtain ⟨s2, l2, e2, q2, h2, t2⟩ := L.resize _ r1 hfit
        obtain ⟨s3, l3, e3, r3, h3, t3⟩ := L.move_any begin (begin + est) (begin + (est + add))
          (L.weaken q2) (by omega) (by omega) (by omega)
        rw [e2]
        simp only [Res.ok_bind, Res.pure_eq, e3]
        rw [if_neg (by omega)]
        obtain ⟨r, er, rf, rn⟩ := ih s3 (data.drop (est - w)) l3 est (est + add) (add * 2) r3
          (by omega) (by omega) (by omega) (by omega) (by omega)
        refine ⟨r, er, ?_, ?_⟩
        · intro h
          obtain ⟨s', l', t, a, b, c, d, e⟩ := rf (by
            rw [Nat.add_assoc begin, hdl, ← Nat.add_assoc]; exact h)
          refine ⟨s', l', t, by rw [a, hdl], b, ?_, by omega, e⟩
          rw [c, t3, take_le t2 (by omega) (by omega), t1]
        · intro h
          exact rn (by rw [Nat.add_assoc begin, hdl, ← Nat.add_assoc]; exact h)
      · obtain ⟨c, hc, hcn⟩ : ∃ c, lim = some c ∧ c < begin + est + add + post := by
          cases lim with
          | none => exact absurd (fun c hc => by cases hc) hfit
          | some c =>
            refine ⟨c, rfl, Nat.lt_of_not_le fun h => hfit fun c' hc' => ?_⟩
            cases hc'; exact h
        have hic := hi c hc
        have hlc := L.bound hR c hc
        obtain ⟨s2, l2, e2, q2, h2, t2⟩ := L.full _ _ r1 hc hcn
        rw [e2]
        simp only [Res.ok_bind]
        rw [usub_ok (by omega)]
        simp only [Res.ok_bind]
        rw [usub_ok (by omega)]
        simp only [Res.ok_bind]
        obtain ⟨s3, l3, e3, r3, h3, t3⟩ := L.move_any begin (begin + est)
          (begin + (c - (begin + old + post - old)) - old)
          (L.weaken q2) (by omega) (by omega) (by omega)
        rw [e3]
        simp only [Res.ok_bind]
        by_cases hz : est ≥ c - (begin + old + post - old)
        · rw [if_pos hz]
          have hnf : ¬ Fits lim (begin + w + data.length + post) := by
            intro h
            have := h c hc
            omega
          exact ⟨_, rfl, fun h => absurd h hnf, fun _ => ⟨s3, l3, rfl, r3⟩⟩
        · rw [if_neg hz]
          obtain ⟨r, er, rf, rn⟩ := ih s3 (data.drop (est - w)) l3 est (c - (begin + old + post - old))
            (add * 2) r3 (by omega) (by omega) (by omega) (by omega) (by omega)
          refine ⟨r, er, ?_, ?_⟩
          · intro h
            obtain ⟨s', l', t, a, b, c', d, e⟩ := rf (by
              rw [Nat.add_assoc begin, hdl, ← Nat.add_assoc]; exact h)
            refine ⟨s', l', t, by rw [a, hdl], b, ?_, by omega, e⟩
            have t2' := take_le (l := l1) (n := l1.length) (m := begin) (by rw [t2, List.take_length])
              (by omega) (by omega)
            rw [c', t3, t2', t1]
          · intro h
            exact rn (by rw [Nat.add_assoc begin, hdl, ← Nat.add_assoc]; exact h)

/-- Splicing with any size hint, up to the end of the main loop. -/
theorem toLoop_any (L : SxLawsAll ops R Q lim) {s s0 : S} (d : Src β) (rb re : Bound)
    (l : List β) (begin old post : Nat) (hc : ops.compact s = .ok s0) (hR : R s0 l)
    (hl : l.length = begin + old + post)
    (hb : rb.spliceBegin = begin) (he : re.spliceEnd l.length = begin + old) :
    ∃ r, ops.toLoop s d rb re = .ok (l.length, old, r) ∧
      (Fits lim (begin + d.items.length + post) → ∃ s' l' t, r = .done s' d.items.length t ∧
        R s' l' ∧ l'.take begin = l.take begin ∧ begin + d.items.length ≤ t ∧
        t + post ≤ l'.length) ∧
      (¬ Fits lim (begin + d.items.length + post) → ∃ s' l, r = .overflow s' ∧ R s' l) := by
  unfold SxOps.toLoop
  rw [hc]
  simp only [Res.ok_bind]
  rw [L.size hR]
  simp only [Res.ok_bind]
  rw [hb, he]
  rw [usub_ok (by omega)]
  simp only [Res.ok_bind]
  rw [show begin + old - begin = old by omega, hl]
  have hi : Fits lim (begin + old + post) := by rw [← hl]; exact L.bound hR
  have start : ∃ s1 est, ops.firstGrow s0 (begin + old) (begin + old + post) old d.estimate =
        .ok (s1, est) ∧
      ∃ s2 l2, ops.moveTail s1 (begin + old) (begin + est) = .ok s2 ∧ R s2 l2 ∧
        l2.take begin = l.take begin ∧ begin + est + post ≤ l2.length := by
    unfold SxOps.firstGrow
    rw [usub_ok (by omega)]
    simp only [Res.ok_bind]
    by_cases hg : old < d.estimate
    · rw [if_pos (by omega), usub_ok (by omega)]
      simp only [Res.ok_bind]
      by_cases hfit : Fits lim (d.estimate + (begin + old + post) - old)
      · obtain ⟨s1, l1, e1, q1, h1, t1⟩ := L.resize _ hR hfit
        obtain ⟨s2, l2, e2, r2, h2, t2⟩ := L.move_any begin (begin + old) (begin + d.estimate)
          (L.weaken q1) (by omega) (by omega) (by omega)
        rw [e1]
        refine ⟨s1, _, rfl, s2, l2, e2, r2, ?_, by omega⟩
        rw [t2, take_le t1 (by omega) (by omega)]
      · obtain ⟨c, hc, hcn⟩ : ∃ c, lim = some c ∧ c < d.estimate + (begin + old + post) - old := by
          cases lim with
          | none => exact absurd (fun c hc => by cases hc) hfit
          | some c =>
            refine ⟨c, rfl, Nat.lt_of_not_le fun h => hfit fun c' hc' => ?_⟩
            cases hc'; exact h
        have hic := hi c hc
        obtain ⟨s1, l1, e1, q1, h1, t1⟩ := L.full _ _ hR hc hcn
        obtain ⟨s2, l2, e2, r2, h2, t2⟩ := L.move_any begin (begin + old)
          (begin + (c - (begin + old + post - old))) (L.weaken q1) (by omega) (by omega) (by omega)
        rw [e1]
        simp only [Res.ok_bind]
        rw [usub_ok (by omega)]
        refine ⟨s1, _, rfl, s2, l2, e2, r2, ?_, by omega⟩
        have t1' := take_le (l := l) (n := l.length) (m := begin) (by rw [t1, List.take_length])
          (by omega) (by omega)
        rw [t2, t1']
    · rw [if_neg (by omega)]
      obtain ⟨s2, l2, e2, r2, h2, t2⟩ := L.move_any begin (begin + old) (begin + d.estimate) hR
        (by omega) (by omega) (by omega)
      exact ⟨s0, _, rfl, s2, l2, e2, r2, t2, by omega⟩
  obtain ⟨s1, est, e1, s2, l2, e2, r2, t2, h2⟩ := start
  rw [e1]
  simp only [Res.ok_bind]
  rw [usub_ok (by omega)]
  simp only [Res.ok_bind]
  rw [show begin + old + est - old = begin + est by omega, e2]
  simp only [Res.ok_bind]
  obtain ⟨r, er, rf, rn⟩ := L.mainLoop_any begin old post hi (d.items.length + 1) s2 d.items l2 0 est 1
    r2 h2 (by omega) (by omega) (by omega) (by omega)
  rw [er]
  simp only [Nat.add_zero, Nat.zero_add] at rf rn
  rw [t2] at rf
  exact ⟨r, rfl, rf, rn⟩

/-- Splicing with any size hint. -/
theorem detail_any (L : SxLawsAll ops R Q lim) {s s0 : S} (d : Src β) (rb re : Bound)
    (l : List β) (begin old post : Nat) (hc : ops.compact s = .ok s0) (hR : R s0 l)
    (hl : l.length = begin + old + post)
    (hb : rb.spliceBegin = begin) (he : re.spliceEnd l.length = begin + old) :
    ∃ s' r, ops.trySpliceDetail s d rb re = .ok (s', r) ∧
      (Fits lim (begin + d.items.length + post) → r = none ∧ ∃ t : List β,
        t.length = d.items.length + post ∧ Q s' (l.take begin ++ t)) ∧
      (¬ Fits lim (begin + d.items.length + post) → r = some .bufferOverflow ∧ ∃ l, R s' l) := by
  obtain ⟨r, er, rf, rn⟩ := L.toLoop_any d rb re l begin old post hc hR hl hb he
  rw [ops.trySpliceDetail_eq, er, hb]
  simp only [Res.ok_bind, SxOps.finish]
  rw [hl]
  by_cases hfit : Fits lim (begin + d.items.length + post)
  · obtain ⟨s3, l3, t, hr, r3, t3, h3, h4⟩ := rf hfit
    subst hr
    simp only
    obtain ⟨s4, l4, e4, r4, h5, t4⟩ := L.move_any begin t (begin + d.items.length) r3
      (by omega) (by omega) (by omega)
    rw [e4]
    simp only [Res.ok_bind]
    rw [usub_ok (by omega)]
    simp only [Res.ok_bind]
    rw [show d.items.length + (begin + old + post) - old = begin + d.items.length + post by omega]
    obtain ⟨s5, l5, e5, q5, h6, t5⟩ := L.resize _ r4 hfit
    rw [e5]
    refine ⟨s5, none, rfl, fun _ => ⟨rfl, l5.drop begin, ?_, ?_⟩, fun h => absurd hfit h⟩
    · rw [List.length_drop]; omega
    · rw [← t3, ← t4, ← take_le t5 (by omega) (by omega), List.take_append_drop]
      exact q5
  · obtain ⟨s3, l3, hr, r3⟩ := rn hfit
    subst hr
    exact ⟨s3, _, rfl, fun h => absurd h hfit, fun _ => ⟨rfl, l3, r3⟩⟩

theorem trySplice_any (L : SxLawsAll ops R Q lim) {s s0 : S} (d : Src β) (rb re : Bound)
    (l : List β) (begin old post : Nat) (hc : ops.compact s = .ok s0) (hR : R s0 l)
    (hl : l.length = begin + old + post)
    (hb : rb.spliceBegin = begin) (he : re.spliceEnd l.length = begin + old) :
    (Fits lim (begin + d.items.length + post) →
      ∃ s' t, ops.trySplice s d rb re = .ok (s', none) ∧ t.length = d.items.length + post ∧
        Q s' (l.take begin ++ t)) ∧
    (¬ Fits lim (begin + d.items.length + post) →
      ∃ s', ops.trySplice s d rb re = .ok (s', some .bufferOverflow) ∧ Q s' []) := by
  obtain ⟨s', r, e, h1, h2⟩ := L.detail_any d rb re l begin old post hc hR hl hb he
  unfold SxOps.trySplice
  rw [e]
  constructor
  · intro hf
    obtain ⟨hr, t, ht, hq⟩ := h1 hf
    subst hr
    exact ⟨s', t, rfl, ht, hq⟩
  · intro hf
    obtain ⟨hr, l, hr'⟩ := h2 hf
    subst hr
    obtain ⟨s5, e5, q5⟩ := L.toLaws.shrink 0 hr' (Nat.zero_le _)
    rw [List.take_zero] at q5
    refine ⟨s5, ?_, q5⟩
    simp only [Res.ok_bind, e5]
    rfl

end SxLawsAll

end Midi2
