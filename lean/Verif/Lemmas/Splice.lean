import Verif.Model.Splice

/-! The splice algorithm over any implementation which satisfies pointwise laws. -/

namespace Midi2

theorem usub_ok {a b : Nat} (h : b ≤ a) : usub a b = .ok (a - b) := if_pos h

/-- A payload of `n` bytes fits. -/
def Fits (lim : Option Nat) (n : Nat) : Prop := ∀ c, lim = some c → n ≤ c

theorem Fits.mono {lim : Option Nat} {n m : Nat} (h : Fits lim n) (hm : m ≤ n) : Fits lim m :=
  fun c hc => Nat.le_trans hm (h c hc)

/-- Laws of an implementation of `SysexInternal`: `R s l` says that the message `s` holds the
payload `l` without gaps; `Q` is the stronger relation established by growing; `P` the
relation established by the final resize of a splice, which never grows; `lim` is the
largest payload the buffer can take. -/
structure SxLaws {S β : Type} (ops : SxOps S β) (R Q P : S → List β → Prop)
    (lim : Option Nat) : Prop where
  weaken : ∀ {s l}, Q s l → R s l
  bound : ∀ {s l}, R s l → Fits lim l.length
  size : ∀ {s l}, R s l → ops.payloadSize s = .ok l.length
  write : ∀ {s l} (v : β) (i : Nat), R s l → i < l.length →
    ∃ s', ops.writeDatum s v i = .ok s' ∧ R s' (l.set i v)
  same : ∀ {s l} (i : Nat), R s l → ∃ s', ops.moveTail s i i = .ok s' ∧ R s' l
  up : ∀ {s l} (tail to : Nat), R s l → tail < to → to ≤ l.length →
    ∃ s', ops.moveTail s tail to = .ok s' ∧
      R s' (l.take to ++ (l.drop tail).take (l.length - to))
  down : ∀ {s l} (tail to : Nat), R s l → to < tail → tail ≤ l.length →
    ∃ s', ops.moveTail s tail to = .ok s' ∧
      R s' (l.take to ++ l.drop tail ++ l.drop (to + (l.length - tail)))
  resize : ∀ {s l} (n : Nat), R s l → Fits lim n → lim = none ∨ l.length ≤ n →
    ∃ s' l', ops.resize s n = .ok (s', none) ∧ Q s' l' ∧ l'.length = n ∧
      l'.take l.length = l.take n
  shrink : ∀ {s l} (n : Nat), R s l → n ≤ l.length →
    ∃ s', ops.resize s n = .ok (s', none) ∧ P s' (l.take n)
  full : ∀ {s l} (n c : Nat), R s l → lim = some c → c < n →
    ∃ s' l', ops.resize s n = .ok (s', some c) ∧ Q s' l' ∧ l'.length = c ∧
      l'.take l.length = l

/-- The message can be resized to every size that fits, also to smaller ones. -/
def SxFree {S β : Type} (ops : SxOps S β) (R Q : S → List β → Prop) (lim : Option Nat) : Prop :=
  ∀ {s l} (n : Nat), R s l → Fits lim n →
    ∃ s' l', ops.resize s n = .ok (s', none) ∧ Q s' l' ∧ l'.length = n ∧ l'.take l.length = l.take n

/-- The laws of an implementation for which every resize establishes `Q`. -/
structure SxLawsAll {S β : Type} (ops : SxOps S β) (R Q : S → List β → Prop)
    (lim : Option Nat) : Prop where
  weaken : ∀ {s l}, Q s l → R s l
  bound : ∀ {s l}, R s l → Fits lim l.length
  size : ∀ {s l}, R s l → ops.payloadSize s = .ok l.length
  write : ∀ {s l} (v : β) (i : Nat), R s l → i < l.length →
    ∃ s', ops.writeDatum s v i = .ok s' ∧ R s' (l.set i v)
  same : ∀ {s l} (i : Nat), R s l → ∃ s', ops.moveTail s i i = .ok s' ∧ R s' l
  up : ∀ {s l} (tail to : Nat), R s l → tail < to → to ≤ l.length →
    ∃ s', ops.moveTail s tail to = .ok s' ∧
      R s' (l.take to ++ (l.drop tail).take (l.length - to))
  down : ∀ {s l} (tail to : Nat), R s l → to < tail → tail ≤ l.length →
    ∃ s', ops.moveTail s tail to = .ok s' ∧
      R s' (l.take to ++ l.drop tail ++ l.drop (to + (l.length - tail)))
  resize : ∀ {s l} (n : Nat), R s l → Fits lim n →
    ∃ s' l', ops.resize s n = .ok (s', none) ∧ Q s' l' ∧ l'.length = n ∧
      l'.take l.length = l.take n
  full : ∀ {s l} (n c : Nat), R s l → lim = some c → c < n →
    ∃ s' l', ops.resize s n = .ok (s', some c) ∧ Q s' l' ∧ l'.length = c ∧
      l'.take l.length = l

theorem SxLawsAll.toLaws {S β : Type} {ops : SxOps S β} {R Q : S → List β → Prop}
    {lim : Option Nat} (L : SxLawsAll ops R Q lim) : SxLaws ops R Q Q lim where
  weaken := L.weaken
  bound := L.bound
  size := L.size
  write := L.write
  same := L.same
  up := L.up
  down := L.down
  resize n h hf _ := L.resize n h hf
  shrink := by
    intro s l n h hn
    obtain ⟨s', l', e, q, h1, h2⟩ := L.resize n h ((L.bound h).mono hn)
    refine ⟨s', e, ?_⟩
    rw [← h2, List.take_of_length_le (by omega)]
    exact q
  full := L.full

/-- `try_splice_sysex_data` of `mod detail`, up to the end of its main loop: the size of the
payload before, the size of the range, and how the loop ended. -/
def SxOps.toLoop {S β : Type} (ops : SxOps S β) (s : S) (d : Src β) (rb re : Bound) :
    Res (Nat × Nat × LoopEnd S) := do
  let s ← ops.compact s
  let initial ← ops.payloadSize s
  let begin := rb.spliceBegin
  let end' := re.spliceEnd initial
  let spliceSize ← usub end' begin
  let est := d.estimate
  let (s, est) ← ops.firstGrow s end' initial spliceSize est
  let tail ← usub (end' + est) spliceSize
  let s ← ops.moveTail s end' tail
  let e ← ops.mainLoop begin initial spliceSize (d.items.length + 1) s d.items 0 est 1 tail
  return (initial, spliceSize, e)

/-- `try_splice_sysex_data` of `mod detail`, after its main loop. -/
def SxOps.finish {S β : Type} (ops : SxOps S β) (begin initial spliceSize : Nat) :
    LoopEnd S → Res (S × Option Error)
  | .overflow s => .ok (s, some .bufferOverflow)
  | .done s written tail => do
    let s ← ops.moveTail s tail (begin + written)
    let (s, r) ← ops.resize s (← usub (written + initial) spliceSize)
    return (s, r.map fun _ => .bufferOverflow)

theorem SxOps.trySpliceDetail_eq {S β : Type} (ops : SxOps S β) (s : S) (d : Src β)
    (rb re : Bound) : ops.trySpliceDetail s d rb re =
      (ops.toLoop s d rb re >>= fun x => ops.finish rb.spliceBegin x.1 x.2.1 x.2.2) := by
  unfold SxOps.trySpliceDetail SxOps.toLoop
  simp only [bind_assoc, pure_bind]
  rfl

namespace SxLaws

variable {S β : Type} {ops : SxOps S β} {R Q P : S → List β → Prop} {lim : Option Nat}

theorem set_mid (pre x mid y : List β) (m v : β) :
    (pre ++ x ++ m :: mid ++ y).set (pre.length + x.length) v =
      pre ++ (x ++ [v]) ++ mid ++ y := by
  rw [List.append_assoc, List.set_append_right _ _ (by simp)]
  simp

theorem fill_spec (L : SxLaws ops R Q P lim) (pre y : List β) (est : Nat) :
    ∀ (data : List β) (s : S) (x mid : List β), R s (pre ++ x ++ mid ++ y) →
      est = x.length + mid.length →
      ∃ s', ops.fill pre.length est data s x.length =
          .ok (s', data.drop mid.length, x.length + min mid.length data.length,
            decide (data.length < mid.length)) ∧
        R s' (pre ++ (x ++ data.take mid.length) ++ mid.drop data.length ++ y) := by
  intro data
  induction data with
  | nil =>
    intro s x mid hR he
    refine ⟨s, ?_, ?_⟩
    · simp only [SxOps.fill, List.drop_nil, List.length_nil, Nat.min_zero, Nat.add_zero]
      congr 4
      apply decide_eq_decide.mpr
      omega
    · simpa using hR
  | cons v rest ih =>
    intro s x mid hR he
    cases mid with
    | nil =>
      refine ⟨s, ?_, ?_⟩
      · simp only [SxOps.fill]
        rw [if_neg (by simp at he; omega)]
        simp
      · simpa using hR
    | cons m mid =>
      simp only [List.length_cons] at he
      obtain ⟨s1, e1, h1⟩ := L.write v (pre.length + x.length) hR (by simp)
      rw [set_mid] at h1
      obtain ⟨s2, e2, h2⟩ := ih s1 (x ++ [v]) mid h1 (by simp; omega)
      refine ⟨s2, ?_, ?_⟩
      · simp only [SxOps.fill]
        rw [if_pos (by omega), e1]
        simp only [Res.ok_bind]
        rw [List.length_append, List.length_singleton] at e2
        rw [e2]
        simp only [List.length_cons, List.drop_succ_cons]
        congr 4
        · omega
        · apply decide_eq_decide.mpr; omega
      · simpa using h2

/-- What a move upwards does to prefix, tail and the junk after it. -/
theorem up_lists (a post junk : List β) (to : Nat) (h1 : a.length < to)
    (h2 : to + post.length = (a ++ post ++ junk).length) :
    ∃ mid, mid.length = to - a.length ∧
      (a ++ post ++ junk).take to ++
        ((a ++ post ++ junk).drop a.length).take ((a ++ post ++ junk).length - to) =
      a ++ mid ++ post := by
  have e : (a ++ post ++ junk).drop a.length = post ++ junk := by simp
  have e2 : (a ++ post ++ junk).length - to = post.length := by omega
  refine ⟨(post ++ junk).take (to - a.length), ?_, ?_⟩
  · simp only [List.length_append] at h2
    simp; omega
  · rw [e, e2, List.append_assoc a, List.take_append]
    have : a.take to = a := List.take_of_length_le (by omega)
    rw [this]; simp

theorem take_prefix {l l' a : List β} {n : Nat} (h : l'.take l.length = l.take n)
    (ha : a <+: l) (hn : a.length ≤ n) : ∃ junk, l' = a ++ junk := by
  obtain ⟨t, rfl⟩ := ha
  have : a <+: l' := by
    have h1 : a <+: (a ++ t).take n := by
      rw [List.take_append, List.take_of_length_le hn]
      exact List.prefix_append _ _
    rw [← h] at h1
    exact h1.trans (List.take_prefix _ _)
  obtain ⟨j, hj⟩ := this
  exact ⟨j, hj.symm⟩

/-- Growing while there is no gap before the tail, then moving the tail. -/
theorem grow (L : SxLaws ops R Q P lim) {s : S} {a post rest : List β} {add : Nat}
    (hR : R s (a ++ post ++ rest)) (hadd : 0 < add)
    (hf : Fits lim (a.length + add + post.length))
    (hn : lim = none ∨ rest.length ≤ add ∨ SxFree ops R Q lim) :
    ∃ s1, ops.resize s (a.length + add + post.length) = .ok (s1, none) ∧
      ∃ s2, ops.moveTail s1 a.length (a.length + add) = .ok s2 ∧
        ∃ mid, mid.length = add ∧ R s2 (a ++ mid ++ post) := by
  have hres : ∃ s' l', ops.resize s (a.length + add + post.length) = .ok (s', none) ∧ Q s' l' ∧
      l'.length = a.length + add + post.length ∧
      l'.take (a ++ post ++ rest).length = (a ++ post ++ rest).take (a.length + add + post.length) := by
    rcases hn with h | h | h
    · exact L.resize _ hR hf (.inl h)
    · exact L.resize _ hR hf (.inr (by simp only [List.length_append]; omega))
    · exact h _ hR hf
  obtain ⟨s1, l1, e1, q1, n1, t1⟩ := hres
  obtain ⟨junk, hj⟩ := take_prefix (a := a ++ post) t1 (List.prefix_append _ _) (by simp)
  subst hj
  obtain ⟨s2, e2, r2⟩ := L.up a.length (a.length + add) (L.weaken q1) (by omega) (by omega)
  obtain ⟨mid, hm, he⟩ := up_lists a post junk (a.length + add) (by omega) (by omega)
  rw [he] at r2
  exact ⟨s1, e1, s2, e2, mid, by omega, r2⟩

/-- Growing as far as a too small buffer allows. -/
theorem growFull (L : SxLaws ops R Q P lim) {s : S} {a post rest : List β} {n c : Nat}
    (hR : R s (a ++ post ++ rest)) (hl : lim = some c) (hc : c < n) :
    ∃ s1 l1, ops.resize s n = .ok (s1, some c) ∧ R s1 (a ++ post ++ l1) ∧
      a.length + post.length + l1.length = c := by
  obtain ⟨s1, l1, e1, q1, n1, t1⟩ := L.full _ _ hR hl hc
  obtain ⟨junk, hj⟩ := take_prefix (n := (a ++ post ++ rest).length) (l := a ++ post ++ rest)
    (a := a ++ post) (by rw [t1, List.take_length]) (List.prefix_append _ _) (by simp)
  subst hj
  refine ⟨s1, junk, e1, L.weaken q1, ?_⟩
  simp only [List.length_append] at n1; omega

/-- Moving the tail up to the very end. -/
theorem fillUp (L : SxLaws ops R Q P lim) {s : S} {a post rest : List β}
    (hR : R s (a ++ post ++ rest)) :
    ∃ s2, ops.moveTail s a.length (a.length + rest.length) = .ok s2 ∧
      ∃ mid, mid.length = rest.length ∧ R s2 (a ++ mid ++ post) := by
  by_cases h : rest.length = 0
  · obtain ⟨s2, e2, r2⟩ := L.same a.length hR
    refine ⟨s2, by simpa [h] using e2, [], by simp [h], ?_⟩
    have : rest = [] := by simpa using h
    subst this
    simpa using r2
  · obtain ⟨s2, e2, r2⟩ := L.up a.length (a.length + rest.length) hR (by omega) (by simp)
    obtain ⟨mid, hm, he⟩ := up_lists a post rest (a.length + rest.length) (by omega)
      (by simp; omega)
    rw [he] at r2
    exact ⟨s2, e2, mid, by omega, r2⟩

theorem mainLoop_spec (L : SxLaws ops R Q P lim) (pre old post : List β) :
    ∀ (fuel : Nat) (s : S) (data x mid rest : List β) (add : Nat),
      R s (pre ++ x ++ mid ++ (post ++ rest)) → 0 < add → 0 < fuel →
      data.length + 1 ≤ fuel + mid.length →
      (lim = none ∨ (old = [] ∧ rest = []) ∨ data.length ≤ mid.length ∨
        (lim = some (pre.length + x.length + mid.length + post.length) ∧
          old.length ≤ x.length + mid.length) ∨
        ((rest = [] ∨ SxFree ops R Q lim) ∧ add ≤ x.length + mid.length + 1 ∧
          Fits lim (pre.length + 2 * (x.length + data.length) + post.length))) →
      ∃ r, ops.mainLoop pre.length (pre ++ old ++ post).length old.length fuel s data x.length
          (x.length + mid.length) add (pre.length + x.length + mid.length) = .ok r ∧
        (Fits lim (pre ++ (x ++ data) ++ post).length →
          ∃ s' mid' rest', r = .done s' (x ++ data).length
              (pre.length + (x ++ data).length + mid'.length) ∧
            R s' (pre ++ (x ++ data) ++ mid' ++ (post ++ rest'))) ∧
        (¬ Fits lim (pre ++ (x ++ data) ++ post).length →
          ∃ s' l, r = .overflow s' ∧ R s' l) := by
  intro fuel
  induction fuel with
  | zero => intro s data x mid rest add _ _ h; omega
  | succ fuel ih =>
    intro s data x mid rest add hR hadd _ hfuel hcase
    obtain ⟨s1, e1, r1⟩ := L.fill_spec pre (post ++ rest) (x.length + mid.length) data s x mid hR rfl
    simp only [SxOps.mainLoop, e1, Res.ok_bind]
    by_cases hd : data.length ≤ mid.length
    · -- the data ends here
      have hfit : Fits lim (pre ++ (x ++ data) ++ post).length :=
        (L.bound hR).mono (by simp; omega)
      have et : data.take mid.length = data := List.take_of_length_le hd
      have ed : data.drop mid.length = [] := List.drop_of_length_le hd
      rw [et] at r1
      have key : ∃ s' mid' rest', LoopEnd.done s1 (x.length + min mid.length data.length)
          (pre.length + x.length + mid.length) = .done s' (x ++ data).length
              (pre.length + (x ++ data).length + mid'.length) ∧
            R s' (pre ++ (x ++ data) ++ mid' ++ (post ++ rest')) := by
        refine ⟨s1, _, rest, ?_, r1⟩
        simp only [List.length_append, List.length_drop]
        congr 1 <;> omega
      by_cases hlt : data.length < mid.length
      · simp only [hlt, decide_true, if_true]
        exact ⟨_, rfl, fun _ => key, fun h => absurd hfit h⟩
      · have ha : (x.length + min mid.length data.length == x.length + mid.length) = true := by
          simp; omega
        simp only [hlt, decide_false, ha, Res.assert, if_true, Res.ok_bind, ed, List.isEmpty_nil,
          Bool.false_eq_true, if_false]
        exact ⟨_, rfl, fun _ => key, fun h => absurd hfit h⟩
    · have hlt : ¬ data.length < mid.length := by omega
      have ha : (x.length + min mid.length data.length == x.length + mid.length) = true := by
        simp; omega
      have hne : (data.drop mid.length).isEmpty = false := by
        rw [List.isEmpty_eq_false_iff]; intro h
        have := congrArg List.length h
        simp at this; omega
      have em : mid.drop data.length = [] := List.drop_of_length_le (by omega)
      rw [em, List.append_nil] at r1
      have hx : (x ++ data.take mid.length).length = x.length + mid.length := by
        simp; omega
      have hsplit : x ++ data = (x ++ data.take mid.length) ++ data.drop mid.length := by
        simp [List.append_assoc]
      simp only [hlt, decide_false, ha, Res.assert, if_true, Res.ok_bind, hne,
        Bool.false_eq_true, if_false]
      unfold SxOps.growMore
      rw [if_pos (by omega)]
      have hsz : x.length + mid.length + add + (pre ++ old ++ post).length - old.length =
          (pre ++ (x ++ data.take mid.length)).length + add + post.length := by
        simp only [List.length_append] at hx ⊢; omega
      rw [usub_ok (by simp only [List.length_append]; omega), hsz]
      simp only [Res.ok_bind]
      have r1' : R s1 ((pre ++ (x ++ data.take mid.length)) ++ post ++ rest) := by
        simpa using r1
      by_cases hfit : Fits lim ((pre ++ (x ++ data.take mid.length)).length + add + post.length)
      · obtain ⟨s2, e2, s3, e3, mid', hm, r3⟩ := L.grow r1' hadd hfit (by
          rcases hcase with h | h | h | h | ⟨h, -, -⟩
          · exact .inl h
          · right; left; rw [h.2]; exact Nat.zero_le _
          · exact absurd h hd
          · exact absurd (hfit _ h.1) (by rw [List.length_append, hx]; omega)
          · right
            rcases h with h | h
            · left; rw [h]; exact Nat.zero_le _
            · exact .inr h)
        rw [e2]
        simp only [Res.ok_bind, Res.pure_eq]
        have hpl : (pre ++ (x ++ data.take mid.length)).length = pre.length + x.length + mid.length := by
          rw [List.length_append, hx]; omega
        rw [hpl] at e3
        rw [show pre.length + (x.length + mid.length + add) =
          pre.length + x.length + mid.length + add by omega, e3]
        simp only [Res.ok_bind]
        rw [if_neg (by omega)]
        obtain ⟨r, er, rf, rn⟩ := ih s3 (data.drop mid.length) (x ++ data.take mid.length) mid' []
          (add * 2) (by simpa using r3) (by omega) (by simp at *; omega)
          (by simp; omega) (by
            rcases hcase with h | h | h | h | ⟨-, h1, h2⟩
            · exact Or.inl h
            · exact Or.inr (Or.inl ⟨h.1, rfl⟩)
            · exact absurd h hd
            · exact absurd (hfit _ h.1) (by rw [hpl]; omega)
            · refine Or.inr (Or.inr (Or.inr (Or.inr ⟨Or.inl rfl, by omega, h2.mono ?_⟩)))
              rw [hx, List.length_drop]; omega)
        refine ⟨r, ?_, ?_, ?_⟩
        · rw [hx, hm] at er
          rw [show x.length + min mid.length data.length = x.length + mid.length by omega]
          rw [← er]
          congr 1
          omega
        · rw [hsplit]; exact rf
        · rw [hsplit]; exact rn
      · -- the buffer is too small
        obtain ⟨c, hc, hcn⟩ : ∃ c, lim = some c ∧
            c < (pre ++ (x ++ data.take mid.length)).length + add + post.length := by
          cases lim with
          | none => exact absurd (fun c hc => by cases hc) hfit
          | some c =>
            refine ⟨c, rfl, Nat.lt_of_not_le fun h => hfit fun c' hc' => ?_⟩
            cases hc'; exact h
        obtain ⟨s2, junk, e2, r2, hj⟩ := L.growFull r1' hc hcn
        have hpl : (pre ++ (x ++ data.take mid.length)).length = pre.length + x.length + mid.length := by
          rw [List.length_append, hx]; omega
        rw [e2]
        rw [hpl] at hj
        simp only [Res.ok_bind]
        rw [usub_ok (by simp only [List.length_append]; omega)]
        have hest : c - ((pre ++ old ++ post).length - old.length) =
            x.length + mid.length + junk.length := by
          simp only [List.length_append]; omega
        simp only [Res.ok_bind, hest]
        have notnone : lim ≠ none := by simp [hc]
        have hcase : lim = none ∨ (old = [] ∧ rest = []) ∨ data.length ≤ mid.length ∨
            (lim = some (pre.length + x.length + mid.length + post.length) ∧
              old.length ≤ x.length + mid.length) := by
          rcases hcase with h | h | h | h | ⟨-, h1, h2⟩
          · exact .inl h
          · exact .inr (.inl h)
          · exact absurd h hd
          · exact .inr (.inr (.inr h))
          · have := h2 c hc
            rw [hpl] at hcn
            omega
        have hold : old.length ≤ x.length + mid.length + junk.length := by
          rcases hcase with h | h | h | h
          · exact absurd h notnone
          · simp [h.1]
          · exact absurd h hd
          · omega
        rw [usub_ok (by omega)]
        simp only [Res.ok_bind]
        by_cases hz : junk.length = 0
        · -- nothing gained: overflow
          have hnf : ¬ Fits lim (pre ++ (x ++ data) ++ post).length := by
            intro h
            have := h c hc
            simp only [List.length_append] at this
            omega
          have hjn : junk = [] := by simpa using hz
          subst hjn
          have hmv : ∃ s3 l3, ops.moveTail s2 (pre.length + x.length + mid.length)
              (pre.length + (x.length + mid.length + ([] : List β).length) - old.length) = .ok s3 ∧
              R s3 l3 := by
            by_cases ho : old.length = 0
            · obtain ⟨s3, e3, r3⟩ := L.same (pre.length + x.length + mid.length) r2
              refine ⟨s3, _, ?_, r3⟩
              rw [← e3]; congr 1; simp; omega
            · obtain ⟨s3, e3, r3⟩ := L.down (pre.length + x.length + mid.length)
                (pre.length + (x.length + mid.length + ([] : List β).length) - old.length) r2
                (by simp; omega) (by rw [List.length_append, List.length_append, hpl]; omega)
              exact ⟨s3, _, e3, r3⟩
          obtain ⟨s3, l3, e3, r3⟩ := hmv
          rw [e3]
          simp only [Res.ok_bind]
          rw [if_pos (by simp; omega)]
          exact ⟨_, rfl, fun h => absurd h hnf, fun _ => ⟨s3, l3, rfl, r3⟩⟩
        · -- some space gained, and nothing is replaced
          have ho : old = [] := by
            rcases hcase with h | h | h | h
            · exact absurd h notnone
            · exact h.1
            · exact absurd h hd
            · have := h.1.symm.trans hc
              simp at this; omega
          subst ho
          obtain ⟨s3, e3, mid', hm, r3⟩ := L.fillUp r2
          rw [hpl] at e3
          rw [show pre.length + (x.length + mid.length + junk.length) - ([] : List β).length =
            pre.length + x.length + mid.length + junk.length by simp; omega, e3]
          simp only [Res.ok_bind]
          rw [if_neg (by omega)]
          obtain ⟨r, er, rf, rn⟩ := ih s3 (data.drop mid.length) (x ++ data.take mid.length) mid' []
            (add * 2) (by simpa using r3) (by omega) (by simp at *; omega)
            (by simp; omega) (Or.inr (Or.inl ⟨rfl, rfl⟩))
          refine ⟨r, ?_, ?_, ?_⟩
          · rw [hx, hm] at er
            rw [show x.length + min mid.length data.length = x.length + mid.length by omega]
            rw [← er]
            congr 1
            omega
          · rw [hsplit]; exact rf
          · rw [hsplit]; exact rn

/-- `try_splice_sysex_data` of `mod detail`, up to the end of its main loop. -/
theorem toLoop_spec (L : SxLaws ops R Q P lim) {s s0 : S} (d : Src β) (rb re : Bound)
    (pre old post : List β) (hc : ops.compact s = .ok s0) (hR : R s0 (pre ++ old ++ post))
    (hb : rb.spliceBegin = pre.length)
    (he : re.spliceEnd (pre ++ old ++ post).length = pre.length + old.length)
    (hh : lim = none ∨ old = [] ∨ d.items.length ≤ d.estimate ∨
      ((old.length ≤ d.estimate ∨ SxFree ops R Q lim) ∧
        Fits lim (pre.length + 2 * d.items.length + post.length))) :
    ∃ r, ops.toLoop s d rb re = .ok ((pre ++ old ++ post).length, old.length, r) ∧
      (Fits lim (pre ++ d.items ++ post).length → ∃ s' mid rest,
        r = .done s' d.items.length (pre.length + d.items.length + mid.length) ∧
        R s' (pre ++ d.items ++ mid ++ (post ++ rest))) ∧
      (¬ Fits lim (pre ++ d.items ++ post).length → ∃ s' l, r = .overflow s' ∧ R s' l) := by
  unfold SxOps.toLoop
  rw [hc]
  simp only [Res.ok_bind]
  rw [L.size hR]
  simp only [Res.ok_bind]
  rw [hb, he]
  rw [usub_ok (by omega)]
  simp only [Res.ok_bind]
  rw [show pre.length + old.length - pre.length = old.length by omega]
  -- the state before the main loop
  have start : ∃ s1 est, ops.firstGrow s0 (pre.length + old.length) (pre ++ old ++ post).length
        old.length d.estimate = .ok (s1, est) ∧
      ∃ s2 mid rest, ops.moveTail s1 (pre.length + old.length) (pre.length + est) = .ok s2 ∧
        mid.length = est ∧ R s2 (pre ++ [] ++ mid ++ (post ++ rest)) ∧
        (est = d.estimate ∨ (lim = some (pre.length + est + post.length) ∧ old.length ≤ est)) ∧
        (old.length ≤ d.estimate → rest = []) := by
    unfold SxOps.firstGrow
    rw [usub_ok (by omega)]
    simp only [Res.ok_bind]
    by_cases hg : old.length < d.estimate
    · rw [if_pos (by omega), usub_ok (by simp only [List.length_append]; omega)]
      simp only [Res.ok_bind]
      have hsz : d.estimate + (pre ++ old ++ post).length - old.length =
          (pre ++ old).length + (d.estimate - old.length) + post.length := by
        simp only [List.length_append]; omega
      rw [hsz]
      have hR' : R s0 ((pre ++ old) ++ post ++ []) := by simpa using hR
      by_cases hfit : Fits lim ((pre ++ old).length + (d.estimate - old.length) + post.length)
      · obtain ⟨s1, e1, s2, e2, mid, hm, r2⟩ := L.grow hR' (by omega) hfit (.inr (.inl (Nat.zero_le _)))
        rw [e1]
        simp only [Res.ok_bind]
        refine ⟨s1, _, rfl, s2, old ++ mid, [], ?_, ?_, ?_, Or.inl rfl, fun _ => rfl⟩
        · rw [← e2]; congr 1 <;> simp only [List.length_append] <;> omega
        · simp; omega
        · simpa using r2
      · obtain ⟨c, hc, hcn⟩ : ∃ c, lim = some c ∧
            c < (pre ++ old).length + (d.estimate - old.length) + post.length := by
          cases lim with
          | none => exact absurd (fun c hc => by cases hc) hfit
          | some c =>
            refine ⟨c, rfl, Nat.lt_of_not_le fun h => hfit fun c' hc' => ?_⟩
            cases hc'; exact h
        obtain ⟨s1, junk, e1, r1, hj⟩ := L.growFull hR' hc hcn
        rw [e1]
        simp only [Res.ok_bind]
        rw [usub_ok (by simp only [List.length_append]; omega)]
        simp only [Res.ok_bind]
        have hest : c - ((pre ++ old ++ post).length - old.length) = old.length + junk.length := by
          simp only [List.length_append] at hj ⊢; omega
        rw [hest]
        obtain ⟨s2, e2, mid, hm, r2⟩ := L.fillUp r1
        refine ⟨s1, _, rfl, s2, old ++ mid, [], ?_, ?_, ?_, Or.inr ⟨?_, by omega⟩, fun _ => rfl⟩
        · rw [← e2]; congr 1 <;> simp only [List.length_append] <;> omega
        · simp; omega
        · simpa using r2
        · rw [hc]; simp only [List.length_append] at hj; congr 1; omega
    · rw [if_neg (by omega)]
      refine ⟨s0, _, rfl, ?_⟩
      by_cases hz : d.estimate = old.length
      · obtain ⟨s2, e2, r2⟩ := L.same (pre.length + old.length) hR
        refine ⟨s2, old, [], by rw [hz]; exact e2, hz.symm, by simpa using r2, Or.inl rfl,
          fun _ => rfl⟩
      · obtain ⟨s2, e2, r2⟩ := L.down (pre.length + old.length) (pre.length + d.estimate) hR
          (by omega) (by simp)
        refine ⟨s2, old.take d.estimate, (pre ++ old ++ post).drop
          (pre.length + d.estimate + ((pre ++ old ++ post).length - (pre.length + old.length))),
          e2, by simp; omega, ?_, Or.inl rfl, fun h => absurd (by omega) hz⟩
        have e : (pre ++ old ++ post).take (pre.length + d.estimate) = pre ++ old.take d.estimate := by
          rw [List.append_assoc, List.take_append, List.take_of_length_le (by omega),
            show pre.length + d.estimate - pre.length = d.estimate by omega,
            List.take_append_of_le_length (by omega)]
        have e' : (pre ++ old ++ post).drop (pre.length + old.length) = post := by
          rw [show pre.length + old.length = (pre ++ old).length by simp]
          exact List.drop_left
        rw [e, e'] at r2
        simpa using r2
  obtain ⟨s1, est, e1, s2, mid, rest, e2, hm, r2, hest, hrest⟩ := start
  rw [e1]
  simp only [Res.ok_bind]
  rw [usub_ok (by omega)]
  simp only [Res.ok_bind]
  rw [show pre.length + old.length + est - old.length = pre.length + est by omega, e2]
  simp only [Res.ok_bind]
  obtain ⟨r, er, rf, rn⟩ := L.mainLoop_spec pre old post (d.items.length + 1) s2 d.items [] mid rest 1
    r2 (by omega) (by omega) (by omega) (by
      rcases hh with h | h | h | ⟨h, h'⟩
      · exact Or.inl h
      · exact Or.inr (Or.inl ⟨h, hrest (by rw [h]; exact Nat.zero_le _)⟩)
      · rcases hest with h' | h'
        · exact Or.inr (Or.inr (Or.inl (by omega)))
        · refine Or.inr (Or.inr (Or.inr (Or.inl ⟨?_, ?_⟩)))
          · rw [h'.1]; congr 1; simp; omega
          · simp; omega
      · exact Or.inr (Or.inr (Or.inr (Or.inr ⟨h.imp_left hrest, by simp,
          h'.mono (by simp)⟩))))
  have er' : ops.mainLoop pre.length (pre ++ old ++ post).length old.length (d.items.length + 1) s2
      d.items 0 est 1 (pre.length + est) = .ok r := by
    rw [← er]; congr 1 <;> simp <;> omega
  rw [er']
  simp only [List.nil_append] at rf rn
  exact ⟨r, rfl, rf, rn⟩

/-- `try_splice_sysex_data` of `mod detail`. -/
theorem detail_spec (L : SxLaws ops R Q P lim) {s s0 : S} (d : Src β) (rb re : Bound)
    (pre old post : List β) (hc : ops.compact s = .ok s0) (hR : R s0 (pre ++ old ++ post))
    (hb : rb.spliceBegin = pre.length)
    (he : re.spliceEnd (pre ++ old ++ post).length = pre.length + old.length)
    (hh : lim = none ∨ old = [] ∨ d.items.length ≤ d.estimate ∨
      ((old.length ≤ d.estimate ∨ SxFree ops R Q lim) ∧
        Fits lim (pre.length + 2 * d.items.length + post.length))) :
    ∃ s' r, ops.trySpliceDetail s d rb re = .ok (s', r) ∧
      (Fits lim (pre ++ d.items ++ post).length → r = none ∧ P s' (pre ++ d.items ++ post)) ∧
      (¬ Fits lim (pre ++ d.items ++ post).length → r = some .bufferOverflow ∧ ∃ l, R s' l) := by
  obtain ⟨r, er, rf, rn⟩ := L.toLoop_spec d rb re pre old post hc hR hb he hh
  rw [ops.trySpliceDetail_eq, er, hb]
  simp only [Res.ok_bind, SxOps.finish]
  by_cases hfit : Fits lim (pre ++ d.items ++ post).length
  · obtain ⟨s3, mid', rest', hr, r3⟩ := rf hfit
    subst hr
    simp only
    have hmv : ∃ s4 l4, ops.moveTail s3 (pre.length + d.items.length + mid'.length)
        (pre.length + d.items.length) = .ok s4 ∧ R s4 (pre ++ d.items ++ post ++ l4) := by
      by_cases hz : mid'.length = 0
      · have : mid' = [] := by simpa using hz
        subst this
        obtain ⟨s4, e4, r4⟩ := L.same (pre.length + d.items.length) r3
        exact ⟨s4, rest', e4, by simpa using r4⟩
      · obtain ⟨s4, e4, r4⟩ := L.down (pre.length + d.items.length + mid'.length)
          (pre.length + d.items.length) r3 (by omega) (by simp; omega)
        refine ⟨s4, rest' ++ (pre ++ d.items ++ mid' ++ (post ++ rest')).drop
          (pre.length + d.items.length + ((pre ++ d.items ++ mid' ++ (post ++ rest')).length -
            (pre.length + d.items.length + mid'.length))), e4, ?_⟩
        have e : (pre ++ d.items ++ mid' ++ (post ++ rest')).take (pre.length + d.items.length) =
            pre ++ d.items := by
          rw [List.append_assoc (pre ++ d.items), show pre.length + d.items.length =
            (pre ++ d.items).length by simp]
          exact List.take_left
        have e' : (pre ++ d.items ++ mid' ++ (post ++ rest')).drop
            (pre.length + d.items.length + mid'.length) = post ++ rest' := by
          rw [show pre.length + d.items.length + mid'.length = (pre ++ d.items ++ mid').length by
            simp only [List.length_append]]
          exact List.drop_left
        rw [e, e'] at r4
        rw [← List.append_assoc, List.append_assoc _ rest'] at r4
        exact r4
    obtain ⟨s4, l4, e4, r4⟩ := hmv
    rw [e4]
    simp only [Res.ok_bind]
    rw [usub_ok (by simp only [List.length_append]; omega)]
    simp only [Res.ok_bind]
    have hn : d.items.length + (pre ++ old ++ post).length - old.length =
        (pre ++ d.items ++ post).length := by
      simp only [List.length_append]; omega
    rw [hn]
    obtain ⟨s5, e5, q5⟩ := L.shrink (pre ++ d.items ++ post).length r4 (by
      simp only [List.length_append]; omega)
    rw [e5]
    rw [List.take_left] at q5
    exact ⟨s5, none, rfl, fun _ => ⟨rfl, q5⟩, fun h => absurd hfit h⟩
  · obtain ⟨s3, l3, hr, r3⟩ := rn hfit
    subst hr
    exact ⟨s3, _, rfl, fun h => absurd h hfit, fun _ => ⟨rfl, l3, r3⟩⟩

/-- `splice_sysex_data`: unlimited buffers. -/
theorem splice_spec (L : SxLaws ops R Q P none) {s s0 : S} (d : Src β) (rb re : Bound)
    (pre old post : List β) (hc : ops.compact s = .ok s0) (hR : R s0 (pre ++ old ++ post))
    (hb : rb.spliceBegin = pre.length)
    (he : re.spliceEnd (pre ++ old ++ post).length = pre.length + old.length) :
    ∃ s', ops.splice s d rb re = .ok s' ∧ P s' (pre ++ d.items ++ post) := by
  obtain ⟨s', r, e, h, _⟩ := L.detail_spec d rb re pre old post hc hR hb he (Or.inl rfl)
  obtain ⟨hr, hq⟩ := h (fun c hc => by cases hc)
  subst hr
  refine ⟨s', ?_, hq⟩
  unfold SxOps.splice
  rw [e]; rfl

/-- `try_splice_sysex_data`. -/
theorem trySplice_spec (L : SxLaws ops R Q P lim) {s s0 : S} (d : Src β) (rb re : Bound)
    (pre old post : List β) (hc : ops.compact s = .ok s0) (hR : R s0 (pre ++ old ++ post))
    (hb : rb.spliceBegin = pre.length)
    (he : re.spliceEnd (pre ++ old ++ post).length = pre.length + old.length)
    (hh : lim = none ∨ old = [] ∨ d.items.length ≤ d.estimate ∨
      ((old.length ≤ d.estimate ∨ SxFree ops R Q lim) ∧
        Fits lim (pre.length + 2 * d.items.length + post.length))) :
    (Fits lim (pre ++ d.items ++ post).length →
      ∃ s', ops.trySplice s d rb re = .ok (s', none) ∧ P s' (pre ++ d.items ++ post)) ∧
    (¬ Fits lim (pre ++ d.items ++ post).length →
      ∃ s', ops.trySplice s d rb re = .ok (s', some .bufferOverflow) ∧ P s' []) := by
  obtain ⟨s', r, e, h1, h2⟩ := L.detail_spec d rb re pre old post hc hR hb he hh
  unfold SxOps.trySplice
  rw [e]
  constructor
  · intro hf
    obtain ⟨hr, hq⟩ := h1 hf
    subst hr
    exact ⟨s', rfl, hq⟩
  · intro hf
    obtain ⟨hr, l, hr'⟩ := h2 hf
    subst hr
    obtain ⟨s5, e5, q5⟩ := L.shrink 0 hr' (Nat.zero_le _)
    rw [List.take_zero] at q5
    refine ⟨s5, ?_, q5⟩
    simp only [Res.ok_bind, e5]
    rfl

end SxLaws

end Midi2
