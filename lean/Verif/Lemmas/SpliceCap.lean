import Verif.Lemmas.Splice

/-! The splice over buffers which grow up to a capacity: a request for more reports what
fits into the present length. -/

namespace Midi2

/-- Laws as in `SxLawsAll`, but a resize that fails reports the present room. -/
structure SxLawsCap {S β : Type} (ops : SxOps S β) (R Q : S → List β → Prop) (lim : Nat) : Prop where
  weaken : ∀ {s l}, Q s l → R s l
  bound : ∀ {s l}, R s l → l.length ≤ lim
  size : ∀ {s l}, R s l → ops.payloadSize s = .ok l.length
  write : ∀ {s l} (v : β) (i : Nat), R s l → i < l.length →
    ∃ s', ops.writeDatum s v i = .ok s' ∧ R s' (l.set i v)
  same : ∀ {s l} (i : Nat), R s l → ∃ s', ops.moveTail s i i = .ok s' ∧ R s' l
  up : ∀ {s l} (tail to : Nat), R s l → tail < to → to ≤ l.length →
    ∃ s', ops.moveTail s tail to = .ok s' ∧
      R s' (l.take to ++ (l.drop tail).take (l.length - to))
  down : ∀ {s l} (tail to : Nat), R s l → to < tail → tail ≤ l.length →
    ∃ s', ops.moveTail s tail to = .ok s' ∧
      R s' (l.take to ++ l.drop tail ++ l.drop (to + (l.length - tail)))
  resize : ∀ {s l} (n : Nat), R s l → n ≤ lim →
    ∃ s' l', ops.resize s n = .ok (s', none) ∧ Q s' l' ∧ l'.length = n ∧
      l'.take l.length = l.take n
  full : ∀ {s l} (n : Nat), R s l → lim < n →
    ∃ s' l', ops.resize s n = .ok (s', some l'.length) ∧ R s' l' ∧ l.length ≤ l'.length ∧
      l'.take l.length = l

namespace SxLawsCap

variable {S β : Type} {ops : SxOps S β} {R Q : S → List β → Prop} {lim : Nat}

/-- The operations of a buffer which never says how much it can take: enough for the
lemmas which do not resize. -/
theorem fill_spec (L : SxLawsCap ops R Q lim) (pre y : List β) (est : Nat) :
    ∀ (data : List β) (s : S) (x mid : List β), R s (pre ++ x ++ mid ++ y) →
      est = x.length + mid.length →
      ∃ s', ops.fill pre.length est data s x.length =
          .ok (s', data.drop mid.length, x.length + min mid.length data.length,
            decide (data.length < mid.length)) ∧
        R s' (pre ++ (x ++ data.take mid.length) ++ mid.drop data.length ++ y) := by
  intro data
  induction data with
  | nil =>
    intro s x mid hR he
    refine ⟨s, ?_, ?_⟩
    · simp only [SxOps.fill, List.drop_nil, List.length_nil, Nat.min_zero, Nat.add_zero]
      congr 4
      apply decide_eq_decide.mpr
      omega
    · simpa using hR
  | cons v rest ih =>
    intro s x mid hR he
    cases mid with
    | nil =>
      refine ⟨s, ?_, ?_⟩
      · simp only [SxOps.fill]
        rw [if_neg (by simp at he; omega)]
        simp
      · simpa using hR
    | cons m mid =>
      simp only [List.length_cons] at he
      obtain ⟨s1, e1, h1⟩ := L.write v (pre.length + x.length) hR (by simp)
      rw [SxLaws.set_mid] at h1
      obtain ⟨s2, e2, h2⟩ := ih s1 (x ++ [v]) mid h1 (by simp; omega)
      refine ⟨s2, ?_, ?_⟩
      · simp only [SxOps.fill]
        rw [if_pos (by omega), e1]
        simp only [Res.ok_bind]
        rw [List.length_append, List.length_singleton] at e2
        rw [e2]
        simp only [List.length_cons, List.drop_succ_cons]
        congr 4
        · omega
        · apply decide_eq_decide.mpr; omega
      · simpa using h2

/-- Growing while there is no gap before the tail, then moving the tail. -/
theorem grow (L : SxLawsCap ops R Q lim) {s : S} {a post rest : List β} {add : Nat}
    (hR : R s (a ++ post ++ rest)) (hadd : 0 < add)
    (hf : a.length + add + post.length ≤ lim) :
    ∃ s1, ops.resize s (a.length + add + post.length) = .ok (s1, none) ∧
      ∃ s2, ops.moveTail s1 a.length (a.length + add) = .ok s2 ∧
        ∃ mid, mid.length = add ∧ R s2 (a ++ mid ++ post) := by
  obtain ⟨s1, l1, e1, q1, n1, t1⟩ := L.resize _ hR hf
  obtain ⟨junk, hj⟩ := SxLaws.take_prefix (a := a ++ post) t1 (List.prefix_append _ _) (by simp)
  subst hj
  obtain ⟨s2, e2, r2⟩ := L.up a.length (a.length + add) (L.weaken q1) (by omega) (by omega)
  obtain ⟨mid, hm, he⟩ := SxLaws.up_lists a post junk (a.length + add) (by omega) (by omega)
  rw [he] at r2
  exact ⟨s1, e1, s2, e2, mid, by omega, r2⟩

/-- A request for more than the capacity. -/
theorem growFull (L : SxLawsCap ops R Q lim) {s : S} {a post rest : List β} {n : Nat}
    (hR : R s (a ++ post ++ rest)) (hc : lim < n) :
    ∃ s1 l1, ops.resize s n = .ok (s1, some (a.length + post.length + l1.length)) ∧
      R s1 (a ++ post ++ l1) := by
  obtain ⟨s1, l1, e1, q1, n1, t1⟩ := L.full _ hR hc
  obtain ⟨junk, hj⟩ := SxLaws.take_prefix (n := (a ++ post ++ rest).length) (l := a ++ post ++ rest)
    (a := a ++ post) (by rw [t1, List.take_length]) (List.prefix_append _ _) (by simp)
  subst hj
  refine ⟨s1, junk, ?_, q1⟩
  rw [e1]
  simp only [List.length_append]

/-- Moving the tail up to the very end. -/
theorem fillUp (L : SxLawsCap ops R Q lim) {s : S} {a post rest : List β}
    (hR : R s (a ++ post ++ rest)) :
    ∃ s2, ops.moveTail s a.length (a.length + rest.length) = .ok s2 ∧
      ∃ mid, mid.length = rest.length ∧ R s2 (a ++ mid ++ post) := by
  by_cases h : rest.length = 0
  · obtain ⟨s2, e2, r2⟩ := L.same a.length hR
    refine ⟨s2, by simpa [h] using e2, [], by simp [h], ?_⟩
    have : rest = [] := by simpa using h
    subst this
    simpa using r2
  · obtain ⟨s2, e2, r2⟩ := L.up a.length (a.length + rest.length) hR (by omega) (by simp)
    obtain ⟨mid, hm, he⟩ := SxLaws.up_lists a post rest (a.length + rest.length) (by omega)
      (by simp; omega)
    rw [he] at r2
    exact ⟨s2, e2, mid, by omega, r2⟩

/-- Any move within the payload keeps its length. -/
theorem move (L : SxLawsCap ops R Q lim) {s : S} {l : List β} (hR : R s l) (tail to : Nat)
    (h1 : tail ≤ l.length) (h2 : to ≤ l.length) :
    ∃ s' l', ops.moveTail s tail to = .ok s' ∧ R s' l' ∧ l'.length = l.length := by
  rcases Nat.lt_trichotomy tail to with h | h | h
  · obtain ⟨s', e, r⟩ := L.up tail to hR h h2
    exact ⟨s', _, e, r, by simp; omega⟩
  · subst h
    obtain ⟨s', e, r⟩ := L.same tail hR
    exact ⟨s', _, e, r, rfl⟩
  · obtain ⟨s', e, r⟩ := L.down tail to hR h h1
    exact ⟨s', _, e, r, by simp; omega⟩

/-- The loop when the data cannot fit, by lengths alone: it ends with an overflow. -/
theorem mainLoop_overflow (L : SxLawsCap ops R Q lim) (begin old post : Nat) :
    ∀ (fuel : Nat) (s : S) (data l : List β) (w est add : Nat),
      R s l → l.length = begin + est + post → w ≤ est → old ≤ est → 0 < add → 0 < fuel →
      data.length + 1 ≤ fuel + (est - w) → lim < begin + w + data.length + post →
      ∃ s' l', ops.mainLoop begin (begin + old + post) old fuel s data w est add (begin + est) =
        .ok (.overflow s') ∧ R s' l' := by
  intro fuel
  induction fuel with
  | zero => intro s data l w est add _ _ _ _ _ h; omega
  | succ fuel ih =>
    intro s data l w est add hR hl hw ho hadd _ hfuel hbig
    have hb := L.bound hR
    -- cut the payload at the fill position
    have hcut : l = (l.take begin) ++ ((l.drop begin).take w) ++ ((l.drop (begin + w)).take (est - w)) ++
        l.drop (begin + est) := by
      rw [List.append_assoc, List.append_assoc]
      conv => lhs; rw [← List.take_append_drop begin l]
      congr 1
      conv => lhs; rw [← List.take_append_drop w (l.drop begin)]
      congr 1
      rw [List.drop_drop]
      conv => lhs; rw [← List.take_append_drop (est - w) (l.drop (begin + w))]
      congr 1
      rw [List.drop_drop]; congr 1; omega
    have h1 : (l.take begin).length = begin := by simp; omega
    have h2 : ((l.drop begin).take w).length = w := by simp; omega
    have h3 : ((l.drop (begin + w)).take (est - w)).length = est - w := by simp; omega
    obtain ⟨s1, e1, r1⟩ := L.fill_spec (l.take begin) (l.drop (begin + est)) est data s
      ((l.drop begin).take w) ((l.drop (begin + w)).take (est - w)) (by rw [← hcut]; exact hR)
      (by omega)
    rw [h1, h2, h3] at e1
    have hlt : ¬ data.length < est - w := by omega
    simp only [SxOps.mainLoop, e1, Res.ok_bind, hlt, decide_false, Bool.false_eq_true, if_false]
    have hmin : w + min (est - w) data.length = est := by omega
    rw [hmin]
    have hne : (data.drop (est - w)).isEmpty = false := by
      rw [List.isEmpty_eq_false_iff]; intro h
      have := congrArg List.length h
      simp at this; omega
    simp only [beq_self_eq_true, Res.assert, if_true, Res.ok_bind, hne, Bool.false_eq_true, if_false]
    -- the new payload
    obtain ⟨l1, hl1, r1⟩ : ∃ l1, l1.length = begin + est + post ∧ R s1 l1 := by
      refine ⟨_, ?_, r1⟩
      simp only [List.length_append, h1, h2, List.length_drop, List.length_take]
      omega
    unfold SxOps.growMore
    rw [if_pos (by omega), usub_ok (by omega)]
    simp only [Res.ok_bind]
    rw [show est + add + (begin + old + post) - old = begin + est + add + post by omega]
    by_cases hf : begin + est + add + post ≤ lim
    · obtain ⟨s2, l2, e2, q2, n2, _⟩ := L.resize _ r1 hf
      rw [e2]
      simp only [Res.ok_bind]
      obtain ⟨s3, l3, e3, r3, n3⟩ := L.move (L.weaken q2) (begin + est) (begin + (est + add))
        (by omega) (by omega)
      rw [e3]
      simp only [Res.ok_bind]
      rw [if_neg (by omega)]
      exact ih s3 _ l3 est (est + add) (add * 2) r3 (by omega) (by omega) (by omega) (by omega)
        (by simp at *; omega) (by simp at *; omega) (by simp; omega)
    · obtain ⟨s2, l2, e2, r2, n2, _⟩ := L.full _ r1 (by omega : lim < begin + est + add + post)
      rw [e2]
      simp only [Res.ok_bind]
      rw [usub_ok (by omega)]
      simp only [Res.ok_bind]
      rw [show begin + old + post - old = begin + post by omega, usub_ok (by omega)]
      simp only [Res.ok_bind]
      obtain ⟨s3, l3, e3, r3, n3⟩ := L.move r2 (begin + est)
        (begin + (l2.length - (begin + post)) - old) (by omega) (by omega)
      rw [e3]
      simp only [Res.ok_bind]
      by_cases hz : est ≥ l2.length - (begin + post)
      · rw [if_pos hz]
        exact ⟨s3, l3, rfl, r3⟩
      · rw [if_neg hz]
        exact ih s3 _ l3 est (l2.length - (begin + post)) (add * 2) r3 (by omega) (by omega)
          (by omega) (by omega) (by simp at *; omega) (by simp at *; omega) (by simp; omega)

/-- The loop when nothing is replaced: all items are written, or it ends with an overflow. -/
theorem mainLoop_insert (L : SxLawsCap ops R Q lim) (pre post : List β) :
    ∀ (fuel : Nat) (s : S) (data x mid : List β) (add : Nat),
      R s (pre ++ x ++ mid ++ post) → 0 < add → 0 < fuel →
      data.length + 1 ≤ fuel + mid.length →
      ∃ r, ops.mainLoop pre.length (pre ++ post).length 0 fuel s data x.length
          (x.length + mid.length) add (pre.length + x.length + mid.length) = .ok r ∧
        ((∃ s' mid', r = .done s' (x ++ data).length
              (pre.length + (x ++ data).length + mid'.length) ∧
            R s' (pre ++ (x ++ data) ++ mid' ++ post)) ∨
          ∃ s' l, r = .overflow s' ∧ R s' l) := by
  intro fuel
  induction fuel with
  | zero => intro s data x mid add _ _ h; omega
  | succ fuel ih =>
    intro s data x mid add hR hadd _ hfuel
    obtain ⟨s1, e1, r1⟩ := L.fill_spec pre post (x.length + mid.length) data s x mid hR rfl
    simp only [SxOps.mainLoop, e1, Res.ok_bind]
    by_cases hd : data.length ≤ mid.length
    · -- the data ends here
      have et : data.take mid.length = data := List.take_of_length_le hd
      have ed : data.drop mid.length = [] := List.drop_of_length_le hd
      rw [et] at r1
      have key : ∃ s' mid', LoopEnd.done s1 (x.length + min mid.length data.length)
          (pre.length + x.length + mid.length) = .done s' (x ++ data).length
              (pre.length + (x ++ data).length + mid'.length) ∧
            R s' (pre ++ (x ++ data) ++ mid' ++ post) := by
        refine ⟨s1, _, ?_, r1⟩
        simp only [List.length_append, List.length_drop]
        congr 1 <;> omega
      by_cases hlt : data.length < mid.length
      · simp only [hlt, decide_true, if_true]
        exact ⟨_, rfl, .inl key⟩
      · have ha : (x.length + min mid.length data.length == x.length + mid.length) = true := by
          simp; omega
        simp only [hlt, decide_false, ha, Res.assert, if_true, Res.ok_bind, ed, List.isEmpty_nil,
          Bool.false_eq_true, if_false]
        exact ⟨_, rfl, .inl key⟩
    · have hlt : ¬ data.length < mid.length := by omega
      have ha : (x.length + min mid.length data.length == x.length + mid.length) = true := by
        simp; omega
      have hne : (data.drop mid.length).isEmpty = false := by
        rw [List.isEmpty_eq_false_iff]; intro h
        have := congrArg List.length h
        simp at this; omega
      have em : mid.drop data.length = [] := List.drop_of_length_le (by omega)
      rw [em, List.append_nil] at r1
      have hx : (x ++ data.take mid.length).length = x.length + mid.length := by
        simp; omega
      have hsplit : x ++ data = (x ++ data.take mid.length) ++ data.drop mid.length := by
        simp [List.append_assoc]
      have hpl : (pre ++ (x ++ data.take mid.length)).length = pre.length + x.length + mid.length := by
        rw [List.length_append, hx]; omega
      simp only [hlt, decide_false, ha, Res.assert, if_true, Res.ok_bind, hne,
        Bool.false_eq_true, if_false]
      unfold SxOps.growMore
      rw [if_pos (by omega)]
      have hsz : x.length + mid.length + add + (pre ++ post).length - 0 =
          (pre ++ (x ++ data.take mid.length)).length + add + post.length := by
        rw [hpl, List.length_append]; omega
      rw [usub_ok (by omega), hsz]
      simp only [Res.ok_bind]
      have r1' : R s1 ((pre ++ (x ++ data.take mid.length)) ++ post ++ []) := by
        simpa using r1
      by_cases hfit : (pre ++ (x ++ data.take mid.length)).length + add + post.length ≤ lim
      · obtain ⟨s2, e2, s3, e3, mid', hm, r3⟩ := L.grow r1' hadd hfit
        rw [e2]
        simp only [Res.ok_bind]
        rw [hpl] at e3
        rw [show pre.length + (x.length + mid.length + add) =
          pre.length + x.length + mid.length + add by omega, e3]
        simp only [Res.ok_bind]
        rw [if_neg (by omega)]
        obtain ⟨r, er, rf⟩ := ih s3 (data.drop mid.length) (x ++ data.take mid.length) mid'
          (add * 2) (by simpa using r3) (by omega) (by simp at *; omega)
          (by simp; omega)
        refine ⟨r, ?_, ?_⟩
        · rw [hx, hm] at er
          rw [show x.length + min mid.length data.length = x.length + mid.length by omega]
          rw [← er]
          congr 1
          omega
        · rw [hsplit]; exact rf
      · obtain ⟨s2, junk, e2, r2⟩ := L.growFull r1' (by omega :
          lim < (pre ++ (x ++ data.take mid.length)).length + add + post.length)
        rw [e2]
        simp only [Res.ok_bind]
        rw [usub_ok (Nat.zero_le _)]
        have hest : (pre ++ (x ++ data.take mid.length)).length + post.length + junk.length -
            ((pre ++ post).length - 0) = x.length + mid.length + junk.length := by
          rw [hpl, List.length_append]; omega
        simp only [Res.ok_bind, hest]
        rw [usub_ok (Nat.zero_le _)]
        simp only [Res.ok_bind]
        obtain ⟨s3, e3, mid', hm, r3⟩ := L.fillUp r2
        rw [hpl] at e3
        rw [show pre.length + (x.length + mid.length + junk.length) - 0 =
          pre.length + x.length + mid.length + junk.length by omega, e3]
        simp only [Res.ok_bind]
        by_cases hz : junk.length = 0
        · rw [if_pos (by omega)]
          exact ⟨_, rfl, .inr ⟨s3, _, rfl, r3⟩⟩
        · rw [if_neg (by omega)]
          obtain ⟨r, er, rf⟩ := ih s3 (data.drop mid.length) (x ++ data.take mid.length) mid'
            (add * 2) (by simpa using r3) (by omega) (by simp at *; omega)
            (by simp; omega)
          refine ⟨r, ?_, ?_⟩
          · rw [hx, hm] at er
            rw [show x.length + min mid.length data.length = x.length + mid.length by omega]
            rw [← er]
            congr 1
            omega
          · rw [hsplit]; exact rf

/-- The loop when all items have room. -/
theorem mainLoop_done (L : SxLawsCap ops R Q lim) (pre post rest : List β) (initial spliceSize : Nat)
    (fuel : Nat) (s : S) (data mid : List β) (add : Nat)
    (hR : R s (pre ++ mid ++ (post ++ rest))) (hd : data.length ≤ mid.length) :
    ∃ s' mid', ops.mainLoop pre.length initial spliceSize (fuel + 1) s data 0 mid.length add
        (pre.length + mid.length) =
          .ok (.done s' data.length (pre.length + data.length + mid'.length)) ∧
      R s' (pre ++ data ++ mid' ++ (post ++ rest)) := by
  obtain ⟨s1, e1, r1⟩ := L.fill_spec pre (post ++ rest) mid.length data s [] mid (by simpa using hR)
    (by simp)
  simp only [List.length_nil, Nat.zero_add, List.nil_append] at e1 r1
  simp only [SxOps.mainLoop, e1, Res.ok_bind]
  have et : data.take mid.length = data := List.take_of_length_le hd
  have ed : data.drop mid.length = [] := List.drop_of_length_le hd
  have em : min mid.length data.length = data.length := by omega
  rw [et] at r1
  rw [ed, em]
  refine ⟨s1, mid.drop data.length, ?_, r1⟩
  have ht : pre.length + data.length + (mid.drop data.length).length = pre.length + mid.length := by
    simp; omega
  rw [ht]
  by_cases hlt : data.length < mid.length
  · simp only [hlt, decide_true, if_true]
    rfl
  · have ha : (data.length == mid.length) = true := by simp; omega
    simp only [hlt, decide_false, ha, Res.assert, if_true, Res.ok_bind, List.isEmpty_nil,
      Bool.false_eq_true, if_false]
    rfl

/-- The last step of a splice: closing the gap and shrinking. -/
theorem finish (L : SxLawsCap ops R Q lim) (pre data mid post rest : List β) (initial old : Nat)
    {s : S} (hR : R s (pre ++ data ++ mid ++ (post ++ rest))) (hi : initial = pre.length + old + post.length) :
    ∃ s5, (do
        let s ← ops.moveTail s (pre.length + data.length + mid.length) (pre.length + data.length)
        let (s, r) ← ops.resize s (← usub (data.length + initial) old)
        return (s, r.map fun _ => Error.bufferOverflow) : Res (S × Option Error)) = .ok (s5, none) ∧
      Q s5 (pre ++ data ++ post) := by
  have hmv : ∃ s4 l4, ops.moveTail s (pre.length + data.length + mid.length)
      (pre.length + data.length) = .ok s4 ∧ R s4 (pre ++ data ++ post ++ l4) := by
    by_cases hz : mid.length = 0
    · have : mid = [] := by simpa using hz
      subst this
      obtain ⟨s4, e4, r4⟩ := L.same (pre.length + data.length) hR
      exact ⟨s4, rest, e4, by simpa using r4⟩
    · obtain ⟨s4, e4, r4⟩ := L.down (pre.length + data.length + mid.length)
        (pre.length + data.length) hR (by omega) (by simp; omega)
      refine ⟨s4, rest ++ (pre ++ data ++ mid ++ (post ++ rest)).drop
        (pre.length + data.length + ((pre ++ data ++ mid ++ (post ++ rest)).length -
          (pre.length + data.length + mid.length))), e4, ?_⟩
      have e : (pre ++ data ++ mid ++ (post ++ rest)).take (pre.length + data.length) =
          pre ++ data := by
        rw [List.append_assoc (pre ++ data), show pre.length + data.length =
          (pre ++ data).length by simp]
        exact List.take_left
      have e' : (pre ++ data ++ mid ++ (post ++ rest)).drop
          (pre.length + data.length + mid.length) = post ++ rest := by
        rw [show pre.length + data.length + mid.length = (pre ++ data ++ mid).length by
          simp only [List.length_append]]
        exact List.drop_left
      rw [e, e'] at r4
      rw [← List.append_assoc, List.append_assoc _ rest] at r4
      exact r4
  obtain ⟨s4, l4, e4, r4⟩ := hmv
  rw [e4]
  simp only [Res.ok_bind]
  rw [usub_ok (by omega)]
  simp only [Res.ok_bind]
  have hn : data.length + initial - old = (pre ++ data ++ post).length := by
    simp only [List.length_append]; omega
  rw [hn]
  have hb := L.bound r4
  obtain ⟨s5, l5, e5, q5, n5, t5⟩ := L.resize (pre ++ data ++ post).length r4 (by
    simp only [List.length_append] at hb ⊢; omega)
  rw [e5]
  refine ⟨s5, rfl, ?_⟩
  rw [List.take_left, List.take_of_length_le (by rw [n5]; simp)] at t5
  rw [← t5]; exact q5

/-- `try_splice_sysex_data` of `mod detail`. -/
theorem detail_spec (L : SxLawsCap ops R Q lim) {s s0 : S} (d : Src β) (rb re : Bound)
    (pre old post : List β) (hc : ops.compact s = .ok s0) (hR : R s0 (pre ++ old ++ post))
    (hb : rb.spliceBegin = pre.length)
    (he : re.spliceEnd (pre ++ old ++ post).length = pre.length + old.length)
    (hh : old = [] ∨ d.items.length = d.estimate) :
    ∃ s' r, ops.trySpliceDetail s d rb re = .ok (s', r) ∧
      ((r = none ∧ Q s' (pre ++ d.items ++ post)) ∨ (r = some .bufferOverflow ∧ ∃ l, R s' l)) ∧
      (d.items.length = d.estimate → (pre ++ d.items ++ post).length ≤ lim → r = none) := by
  unfold SxOps.trySpliceDetail
  rw [hc]
  simp only [Res.ok_bind]
  rw [L.size hR]
  simp only [Res.ok_bind]
  rw [hb, he]
  rw [usub_ok (by omega)]
  simp only [Res.ok_bind]
  rw [show pre.length + old.length - pre.length = old.length by omega]
  -- the state before the main loop
  have start : ∃ s1 est, ops.firstGrow s0 (pre.length + old.length) (pre ++ old ++ post).length
        old.length d.estimate = .ok (s1, est) ∧
      ∃ s2 mid rest, ops.moveTail s1 (pre.length + old.length) (pre.length + est) = .ok s2 ∧
        mid.length = est ∧ R s2 (pre ++ mid ++ (post ++ rest)) ∧
        (est = d.estimate ∨ (lim < pre.length + d.estimate + post.length ∧ old.length ≤ est ∧ rest = [])) ∧
        (old = [] → rest = []) := by
    unfold SxOps.firstGrow
    rw [usub_ok (by omega)]
    simp only [Res.ok_bind]
    by_cases hg : old.length < d.estimate
    · rw [if_pos (by omega), usub_ok (by simp only [List.length_append]; omega)]
      simp only [Res.ok_bind]
      have hsz : d.estimate + (pre ++ old ++ post).length - old.length =
          (pre ++ old).length + (d.estimate - old.length) + post.length := by
        simp only [List.length_append]; omega
      rw [hsz]
      have hR' : R s0 ((pre ++ old) ++ post ++ []) := by simpa using hR
      by_cases hfit : (pre ++ old).length + (d.estimate - old.length) + post.length ≤ lim
      · obtain ⟨s1, e1, s2, e2, mid, hm, r2⟩ := L.grow hR' (by omega) hfit
        rw [e1]
        simp only [Res.ok_bind]
        refine ⟨s1, _, rfl, s2, old ++ mid, [], ?_, ?_, ?_, Or.inl rfl, fun _ => rfl⟩
        · rw [← e2]; congr 1 <;> simp only [List.length_append] <;> omega
        · simp; omega
        · simpa using r2
      · obtain ⟨s1, junk, e1, r1⟩ := L.growFull hR' (Nat.lt_of_not_le hfit)
        rw [e1]
        simp only [Res.ok_bind]
        rw [usub_ok (by simp only [List.length_append]; omega)]
        simp only [Res.ok_bind]
        have hest : (pre ++ old).length + post.length + junk.length -
            ((pre ++ old ++ post).length - old.length) = old.length + junk.length := by
          simp only [List.length_append]; omega
        rw [hest]
        obtain ⟨s2, e2, mid, hm, r2⟩ := L.fillUp r1
        refine ⟨s1, _, rfl, s2, old ++ mid, [], ?_, ?_, ?_, Or.inr ⟨?_, by omega, rfl⟩, fun _ => rfl⟩
        · rw [← e2]; congr 1 <;> simp only [List.length_append] <;> omega
        · simp; omega
        · simpa using r2
        · simp only [List.length_append] at hfit; omega
    · rw [if_neg (by omega)]
      refine ⟨s0, _, rfl, ?_⟩
      by_cases hz : d.estimate = old.length
      · obtain ⟨s2, e2, r2⟩ := L.same (pre.length + old.length) hR
        refine ⟨s2, old, [], by rw [hz]; exact e2, hz.symm, by simpa using r2, Or.inl rfl,
          fun _ => rfl⟩
      · obtain ⟨s2, e2, r2⟩ := L.down (pre.length + old.length) (pre.length + d.estimate) hR
          (by omega) (by simp)
        refine ⟨s2, old.take d.estimate, (pre ++ old ++ post).drop
          (pre.length + d.estimate + ((pre ++ old ++ post).length - (pre.length + old.length))),
          e2, by simp; omega, ?_, Or.inl rfl, fun h => absurd (by rw [h] at hg ⊢; simp only [List.length_nil] at hg ⊢; omega) hz⟩
        have e : (pre ++ old ++ post).take (pre.length + d.estimate) = pre ++ old.take d.estimate := by
          rw [List.append_assoc, List.take_append, List.take_of_length_le (by omega),
            show pre.length + d.estimate - pre.length = d.estimate by omega,
            List.take_append_of_le_length (by omega)]
        have e' : (pre ++ old ++ post).drop (pre.length + old.length) = post := by
          rw [show pre.length + old.length = (pre ++ old).length by simp]
          exact List.drop_left
        rw [e, e'] at r2
        simpa using r2
  obtain ⟨s1, est, e1, s2, mid, rest, e2, hm, r2, hest, hrest⟩ := start
  rw [e1]
  simp only [Res.ok_bind]
  rw [usub_ok (by omega)]
  simp only [Res.ok_bind]
  rw [show pre.length + old.length + est - old.length = pre.length + est by omega, e2]
  simp only [Res.ok_bind]
  have hinit : (pre ++ old ++ post).length = pre.length + old.length + post.length := by simp; omega
  by_cases hd : d.items.length ≤ mid.length
  · obtain ⟨s3, mid', e3, r3⟩ := L.mainLoop_done pre post rest (pre ++ old ++ post).length old.length
      d.items.length s2 d.items mid 1 r2 hd
    rw [hm] at e3
    rw [e3]
    simp only [Res.ok_bind]
    obtain ⟨s5, e5, q5⟩ := L.finish pre d.items mid' post rest (pre ++ old ++ post).length old.length r3 hinit
    exact ⟨s5, none, e5, .inl ⟨rfl, q5⟩, fun _ _ => rfl⟩
  · rcases hh with hh | hh
    · have hr := hrest hh
      subst hh hr
      obtain ⟨r, er, rf⟩ := L.mainLoop_insert pre post (d.items.length + 1) s2 d.items [] mid 1
        (by simpa using r2) (by omega) (by omega) (by omega)
      have er' : ops.mainLoop pre.length (pre ++ [] ++ post).length ([] : List β).length
          (d.items.length + 1) s2 d.items 0 est 1 (pre.length + est) = .ok r := by
        rw [← er]; congr 1 <;> simp <;> omega
      rw [er']
      simp only [Res.ok_bind]
      rcases rf with ⟨s3, mid', hr, r3⟩ | ⟨s3, l, hr, r3⟩
      · subst hr
        obtain ⟨s5, e5, q5⟩ := L.finish pre d.items mid' post [] (pre ++ [] ++ post).length 0
          (by simpa using r3) hinit
        exact ⟨s5, none, e5, .inl ⟨rfl, q5⟩, fun _ _ => rfl⟩
      · subst hr
        refine ⟨s3, _, rfl, .inr ⟨rfl, l, r3⟩, fun h1 h2 => ?_⟩
        rcases hest with h | h
        · omega
        · simp only [List.length_append] at h2; omega
    · rcases hest with h | h
      · omega
      · obtain ⟨h1, h2, h3⟩ := h
        subst h3
        obtain ⟨s3, l3, e3, r3⟩ := L.mainLoop_overflow pre.length old.length post.length
          (d.items.length + 1) s2 d.items _ 0 est 1 r2 (by simp; omega) (by omega) h2 (by omega) (by omega)
          (by omega) (by omega)
        rw [hinit, e3]
        refine ⟨s3, _, rfl, .inr ⟨rfl, l3, r3⟩, fun _ h => ?_⟩
        simp only [List.length_append] at h; omega

/-- `try_splice_sysex_data`: all or nothing. -/
theorem trySplice_spec (L : SxLawsCap ops R Q lim) {s s0 : S} (d : Src β) (rb re : Bound)
    (pre old post : List β) (hc : ops.compact s = .ok s0) (hR : R s0 (pre ++ old ++ post))
    (hb : rb.spliceBegin = pre.length)
    (he : re.spliceEnd (pre ++ old ++ post).length = pre.length + old.length)
    (hh : old = [] ∨ d.items.length = d.estimate) :
    ((∃ s', ops.trySplice s d rb re = .ok (s', none) ∧ Q s' (pre ++ d.items ++ post)) ∨
      ((d.items.length = d.estimate → lim < (pre ++ d.items ++ post).length) ∧
        ∃ s', ops.trySplice s d rb re = .ok (s', some .bufferOverflow) ∧ Q s' [])) := by
  obtain ⟨s', r, e, h1, h2⟩ := L.detail_spec d rb re pre old post hc hR hb he hh
  unfold SxOps.trySplice
  rw [e]
  rcases h1 with ⟨hr, hq⟩ | ⟨hr, l, hr'⟩
  · subst hr
    exact .inl ⟨s', rfl, hq⟩
  · subst hr
    obtain ⟨s5, l5, e5, q5, n5, _⟩ := L.resize 0 hr' (Nat.zero_le _)
    have : l5 = [] := List.eq_nil_of_length_eq_zero n5
    subst this
    refine .inr ⟨fun hx => ?_, s5, ?_, q5⟩
    · exact Nat.lt_of_not_le fun h => nomatch h2 hx h
    · simp only [Res.ok_bind, e5]
      rfl

end SxLawsCap

end Midi2
