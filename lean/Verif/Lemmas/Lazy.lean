import Verif.Spec.Lazy
import Verif.Lemmas.SpliceAny

/-!
# The splice called by call follows the splice of a list

As long as the iterator returns items, the code that calls it does what the code over a list
does.  The list must be one the iterator starts with.
-/

namespace Midi2

namespace Run

variable {S α γ : Type}

@[simp] theorem ok_bind (a : α) (f : α → Run S γ) : (Run.ok a >>= f) = f a := rfl
@[simp] theorem crashed_bind (s : S) (c : Nat) (f : α → Run S γ) :
    (Run.crashed s c >>= f) = .crashed s c := rfl
@[simp] theorem running_bind (f : α → Run S γ) : (Run.running >>= f) = .running := rfl
theorem pure_eq (a : α) : (pure a : Run S α) = .ok a := rfl
@[simp] theorem of_ok (a : α) : (Run.of (.ok a) : Run S α) = .ok a := rfl

end Run

variable {S β : Type}

/-- The list still to come, where the iterator stands. -/
def Feed.At (l : List β) (p : Peek β) (data : List β) : Prop :=
  p.calls ≤ l.length ∧ ((p.peeked = none ∧ data = l.drop p.calls) ∨
    ∃ v, p.peeked = some (some v) ∧ data = v :: l.drop p.calls)

theorem Feed.At.start (l : List β) : Feed.At l ⟨0, none⟩ l := ⟨Nat.zero_le _, Or.inl ⟨rfl, rfl⟩⟩

theorem Feed.At.next {f : Feed β} {l : List β} (hy : f.Yields l) {p : Peek β} {v : β}
    {rest : List β} (h : Feed.At l p (v :: rest)) :
    ∃ p', f.next p = (.item v, p') ∧ Feed.At l p' rest := by
  obtain ⟨hc, ⟨hp, hd⟩ | ⟨u, hp, hd⟩⟩ := h
  · have hlt : p.calls < l.length := by
      refine Nat.lt_of_not_le fun hle => ?_
      rw [List.drop_eq_nil_of_le hle] at hd
      cases hd
    rw [List.drop_eq_getElem_cons hlt] at hd
    cases hd
    refine ⟨⟨p.calls + 1, none⟩, ?_, hlt, Or.inl ⟨rfl, rfl⟩⟩
    unfold Feed.next
    rw [hp]
    simp only [hy _ hlt]
  · cases hd
    refine ⟨⟨p.calls, none⟩, ?_, hc, Or.inl ⟨rfl, rfl⟩⟩
    unfold Feed.next
    rw [hp]

theorem Feed.At.nil {l : List β} {p : Peek β} (h : Feed.At l p []) :
    p = ⟨l.length, none⟩ := by
  obtain ⟨hc, ⟨hp, hd⟩ | ⟨u, hp, hd⟩⟩ := h
  · have := congrArg List.length hd
    simp only [List.length_nil, List.length_drop] at this
    obtain ⟨calls, peeked⟩ := p
    simp only at hp hc this ⊢
    subst hp
    congr 1
    omega
  · cases hd

theorem Feed.At.peek {f : Feed β} {l : List β} (hy : f.Yields l) {p : Peek β} {v : β}
    {rest : List β} (h : Feed.At l p (v :: rest)) :
    ∃ p', f.peek p = (.item v, p') ∧ Feed.At l p' (v :: rest) := by
  obtain ⟨hc, ⟨hp, hd⟩ | ⟨u, hp, hd⟩⟩ := h
  · have hlt : p.calls < l.length := by
      refine Nat.lt_of_not_le fun hle => ?_
      rw [List.drop_eq_nil_of_le hle] at hd
      cases hd
    rw [List.drop_eq_getElem_cons hlt] at hd
    cases hd
    refine ⟨⟨p.calls + 1, some (some l[p.calls])⟩, ?_, hlt, Or.inr ⟨_, rfl, rfl⟩⟩
    unfold Feed.peek
    rw [hp]
    simp only [hy _ hlt]
  · cases hd
    refine ⟨p, ?_, hc, Or.inr ⟨_, hp, rfl⟩⟩
    unfold Feed.peek
    rw [hp]

namespace SxOps

variable (ops : SxOps S β) {f : Feed β} {l : List β}

theorem feedFill_sim (hy : f.Yields l) (begin est : Nat) :
    ∀ (data : List β) (s : S) (w : Nat) (p : Peek β) (s' : S) (data' : List β) (w' : Nat)
      (ex : Bool), Feed.At l p data → ops.fill begin est data s w = .ok (s', data', w', ex) →
      (ex = false → ∃ p', ops.feedFill f begin (est - w) s w p = .ok (s', p', w', false) ∧
        Feed.At l p' data') ∧
      (ex = true →
        (f.poll l.length = .none → ∃ p', ops.feedFill f begin (est - w) s w p =
          .ok (s', p', w', true) ∧ p'.calls = l.length + 1) ∧
        (f.poll l.length = .panic → ops.feedFill f begin (est - w) s w p =
          .crashed s' (l.length + 1))) := by
  intro data
  induction data with
  | nil =>
    intro s w p s' data' w' ex hat h
    have hp := hat.nil
    simp only [SxOps.fill, Res.ok.injEq, Prod.mk.injEq] at h
    obtain ⟨rfl, rfl, rfl, hex⟩ := h
    by_cases hw : w < est
    · rw [decide_eq_true hw] at hex
      subst hex
      refine ⟨fun h => (by cases h), fun _ => ?_⟩
      rw [show est - w = (est - w - 1) + 1 by omega]
      refine ⟨fun he => ⟨⟨l.length + 1, none⟩, ?_, rfl⟩, fun he => ?_⟩ <;>
        simp only [SxOps.feedFill, Feed.next, hp, he]
    · rw [decide_eq_false hw] at hex
      subst hex
      refine ⟨fun _ => ⟨p, ?_, hat⟩, fun h => (by cases h)⟩
      rw [show est - w = 0 by omega]
      rfl
  | cons v rest ih =>
    intro s w p s' data' w' ex hat h
    unfold SxOps.fill at h
    by_cases hw : w < est
    · rw [if_pos hw] at h
      obtain ⟨p1, hn, hat1⟩ := hat.next hy
      cases hwr : ops.writeDatum s v (begin + w) with
      | ok s1 =>
        rw [hwr] at h
        simp only [Res.ok_bind] at h
        have := ih s1 (w + 1) p1 s' data' w' ex hat1 h
        rw [show est - w = (est - (w + 1)) + 1 by omega]
        simp only [SxOps.feedFill, hn, hwr, Run.of_ok, Run.ok_bind]
        exact this
      | err e => rw [hwr] at h; cases h
      | panic => rw [hwr] at h; cases h
    · rw [if_neg hw] at h
      simp only [Res.ok.injEq, Prod.mk.injEq] at h
      obtain ⟨rfl, rfl, rfl, rfl⟩ := h
      refine ⟨fun _ => ⟨p, ?_, hat⟩, fun h => (by cases h)⟩
      rw [show est - w = 0 by omega]
      rfl

theorem feedFill_fail (hy : f.Yields l) (begin est : Nat) :
    ∀ (data : List β) (s : S) (w : Nat) (p : Peek β), Feed.At l p data →
      (ops.fill begin est data s w = .panic →
        ops.feedFill f begin (est - w) s w p = .panic) ∧
      (∀ e, ops.fill begin est data s w = .err e →
        ops.feedFill f begin (est - w) s w p = .err e) := by
  intro data
  induction data with
  | nil =>
    intro s w p _
    exact ⟨fun h => (by cases h), fun e h => (by cases h)⟩
  | cons v rest ih =>
    intro s w p hat
    unfold SxOps.fill
    by_cases hw : w < est
    · rw [if_pos hw]
      obtain ⟨p1, hn, hat1⟩ := hat.next hy
      rw [show est - w = (est - (w + 1)) + 1 by omega]
      simp only [SxOps.feedFill, hn]
      cases hwr : ops.writeDatum s v (begin + w) with
      | ok s1 => exact ih s1 (w + 1) p1 hat1
      | err e => exact ⟨fun h => (by cases h), fun e' h => (by cases h; rfl)⟩
      | panic => exact ⟨fun _ => rfl, fun e h => (by cases h)⟩
    · rw [if_neg hw]
      exact ⟨fun h => (by cases h), fun e h => (by cases h)⟩

theorem fill_count (begin est : Nat) :
    ∀ (data : List β) (s : S) (w : Nat) (s' : S) (data' : List β) (w' : Nat) (ex : Bool), w ≤ est →
      ops.fill begin est data s w = .ok (s', data', w', ex) →
      w' + data'.length = w + data.length ∧ (ex = false → w' = est) := by
  intro data
  induction data with
  | nil =>
    intro s w s' data' w' ex hw h
    simp only [SxOps.fill, Res.ok.injEq, Prod.mk.injEq] at h
    obtain ⟨rfl, rfl, rfl, rfl⟩ := h
    exact ⟨rfl, fun h => Nat.le_antisymm hw (Nat.le_of_not_lt (of_decide_eq_false h))⟩
  | cons v rest ih =>
    intro s w s' data' w' ex hw h
    unfold SxOps.fill at h
    by_cases hlt : w < est
    · rw [if_pos hlt] at h
      cases hwr : ops.writeDatum s v (begin + w) with
      | ok s1 =>
        rw [hwr] at h
        obtain ⟨h1, h2⟩ := ih s1 (w + 1) s' data' w' ex (by omega) h
        exact ⟨by rw [h1, List.length_cons]; omega, h2⟩
      | err e => rw [hwr] at h; cases h
      | panic => rw [hwr] at h; cases h
    · rw [if_neg hlt] at h
      simp only [Res.ok.injEq, Prod.mk.injEq] at h
      obtain ⟨rfl, rfl, rfl, rfl⟩ := h
      exact ⟨rfl, fun _ => by omega⟩

theorem feedLoop_sim (hy : f.Yields l) (begin initial spliceSize : Nat) :
    ∀ (fuel : Nat) (s : S) (data : List β) (p : Peek β) (w est add tail : Nat) (r : LoopEnd S),
      Feed.At l p data →
      ops.mainLoop begin initial spliceSize fuel s data w est add tail = .ok r →
      (∀ s', r = .overflow s' → ∃ calls, calls ≤ l.length ∧
        ops.feedLoop f begin initial spliceSize fuel s p w est add tail =
          .ok (.overflow s', calls)) ∧
      (∀ s' w' t, r = .done s' w' t →
        (f.poll l.length = .none →
          ops.feedLoop f begin initial spliceSize fuel s p w est add tail =
            .ok (.done s' w' t, l.length + 1)) ∧
        (f.poll l.length = .panic →
          ops.feedLoop f begin initial spliceSize fuel s p w est add tail =
            .crashed s' (l.length + 1))) := by
  intro fuel
  induction fuel with
  | zero => intro s data p w est add tail r _ h; cases h
  | succ fuel ih =>
    intro s data p w est add tail r hat h
    unfold SxOps.mainLoop at h
    cases hf : ops.fill begin est data s w with
    | err e => rw [hf] at h; cases h
    | panic => rw [hf] at h; cases h
    | ok x =>
      obtain ⟨s1, data1, w1, ex⟩ := x
      rw [hf] at h
      simp only [Res.ok_bind] at h
      obtain ⟨hno, hyes⟩ := ops.feedFill_sim hy begin est data s w p s1 data1 w1 ex hat hf
      unfold SxOps.feedLoop
      cases ex with
      | true =>
        simp only [if_true, Res.pure_eq, Res.ok.injEq] at h
        subst h
        obtain ⟨hn, hp⟩ := hyes rfl
        refine ⟨fun s' h => (by cases h), fun s' w' t h => ?_⟩
        cases h
        refine ⟨fun he => ?_, fun he => ?_⟩
        · obtain ⟨p', e, hc⟩ := hn he
          rw [e]
          simp only [Run.ok_bind, if_true, Run.pure_eq, hc]
        · rw [hp he]
          rfl
      | false =>
        obtain ⟨p1, e1, hat1⟩ := hno rfl
        rw [e1]
        simp only [Run.ok_bind, Bool.false_eq_true, if_false] at h ⊢
        cases ha : (Res.assert (w1 == est)) with
        | err e => rw [ha] at h; cases h
        | panic => rw [ha] at h; cases h
        | ok u =>
          rw [ha] at h
          simp only [Res.ok_bind, Run.of_ok, Run.ok_bind] at h ⊢
          cases data1 with
          | nil =>
            simp only [List.isEmpty_nil, if_true, Res.pure_eq, Res.ok.injEq] at h
            subst h
            have hp := hat1.nil
            subst hp
            refine ⟨fun s' h => (by cases h), fun s' w' t h => ?_⟩
            cases h
            refine ⟨fun he => ?_, fun he => ?_⟩ <;> simp only [Feed.peek, he] <;> rfl
          | cons v rest =>
            obtain ⟨p2, e2, hat2⟩ := hat1.peek hy
            simp only [List.isEmpty_cons, Bool.false_eq_true, if_false] at h
            simp only [e2]
            cases hg : ops.growMore s1 begin tail initial spliceSize (est + add) with
            | err e => rw [hg] at h; cases h
            | panic => rw [hg] at h; cases h
            | ok x =>
              obtain ⟨s2, est2, to⟩ := x
              rw [hg] at h
              simp only [Res.ok_bind, Run.of_ok, Run.ok_bind] at h ⊢
              cases hm : ops.moveTail s2 tail to with
              | err e => rw [hm] at h; cases h
              | panic => rw [hm] at h; cases h
              | ok s3 =>
                rw [hm] at h
                simp only [Res.ok_bind, Run.of_ok, Run.ok_bind] at h ⊢
                by_cases hw : w1 ≥ est2
                · rw [if_pos hw] at h ⊢
                  simp only [Res.pure_eq, Res.ok.injEq] at h
                  subst h
                  refine ⟨fun s' h => ?_, fun s' w' t h => (by cases h)⟩
                  cases h
                  exact ⟨p2.calls, hat2.1, rfl⟩
                · rw [if_neg hw] at h ⊢
                  exact ih s3 (v :: rest) p2 w1 est2 (add * 2) (begin + est2) r hat2 h

/-- Where the code over a list fails inside its main loop, the code over the iterator fails in the
same way. -/
theorem feedLoop_fail (hy : f.Yields l) (begin initial spliceSize : Nat) :
    ∀ (fuel : Nat) (s : S) (data : List β) (p : Peek β) (w est add tail : Nat),
      Feed.At l p data → w ≤ est → data.length + w + 1 ≤ fuel + est → 0 < fuel →
      (ops.mainLoop begin initial spliceSize fuel s data w est add tail = .panic →
        ops.feedLoop f begin initial spliceSize fuel s p w est add tail = .panic) ∧
      (∀ e, ops.mainLoop begin initial spliceSize fuel s data w est add tail = .err e →
        ops.feedLoop f begin initial spliceSize fuel s p w est add tail = .err e) := by
  intro fuel
  induction fuel with
  | zero => intro s data p w est add tail _ _ _ h; omega
  | succ fuel ih =>
    intro s data p w est add tail hat hle hfuel _
    unfold SxOps.mainLoop SxOps.feedLoop
    cases hf : ops.fill begin est data s w with
    | err e =>
      rw [(ops.feedFill_fail hy begin est data s w p hat).2 e hf]
      exact ⟨fun h => (by cases h), fun e' h => (by cases h; rfl)⟩
    | panic =>
      rw [(ops.feedFill_fail hy begin est data s w p hat).1 hf]
      exact ⟨fun _ => rfl, fun e h => (by cases h)⟩
    | ok x =>
      obtain ⟨s1, data1, w1, ex⟩ := x
      obtain ⟨hno, -⟩ := ops.feedFill_sim hy begin est data s w p s1 data1 w1 ex hat hf
      obtain ⟨hw1, hlen⟩ := ops.fill_count begin est data s w s1 data1 w1 ex hle hf
      simp only [Res.ok_bind]
      cases ex with
      | true => exact ⟨fun h => (by cases h), fun e h => (by cases h)⟩
      | false =>
        obtain ⟨p1, e1, hat1⟩ := hno rfl
        rw [e1]
        simp only [Run.ok_bind, Bool.false_eq_true, if_false]
        cases ha : (Res.assert (w1 == est)) with
        | err e => exact ⟨fun h => (by cases h), fun e' h => (by cases h; rfl)⟩
        | panic => exact ⟨fun _ => rfl, fun e h => (by cases h)⟩
        | ok u =>
          simp only [Res.ok_bind, Run.of_ok, Run.ok_bind]
          cases data1 with
          | nil => exact ⟨fun h => (by cases h), fun e h => (by cases h)⟩
          | cons v rest =>
            obtain ⟨p2, e2, hat2⟩ := hat1.peek hy
            simp only [List.isEmpty_cons, Bool.false_eq_true, if_false, e2]
            cases hg : ops.growMore s1 begin tail initial spliceSize (est + add) with
            | err e => exact ⟨fun h => (by cases h), fun e' h => (by cases h; rfl)⟩
            | panic => exact ⟨fun _ => rfl, fun e h => (by cases h)⟩
            | ok x =>
              obtain ⟨s2, est2, to⟩ := x
              simp only [Res.ok_bind, Run.of_ok, Run.ok_bind]
              cases hm : ops.moveTail s2 tail to with
              | err e => exact ⟨fun h => (by cases h), fun e' h => (by cases h; rfl)⟩
              | panic => exact ⟨fun _ => rfl, fun e h => (by cases h)⟩
              | ok s3 =>
                simp only [Res.ok_bind, Run.of_ok, Run.ok_bind]
                by_cases hw : w1 ≥ est2
                · rw [if_pos hw, if_pos hw]
                  exact ⟨fun h => (by cases h), fun e h => (by cases h)⟩
                · rw [if_neg hw, if_neg hw]
                  have hlen := hlen rfl
                  have hc : (v :: rest).length = rest.length + 1 := rfl
                  exact ih s3 (v :: rest) p2 w1 est2 (add * 2) (begin + est2) hat2 (by omega)
                    (by omega) (by omega)

/-- More turns do not change the outcome of the main loop. -/
theorem feedLoop_more (begin initial spliceSize : Nat) :
    ∀ (turns : Nat) (s : S) (p : Peek β) (w est add tail more : Nat),
      ops.feedLoop f begin initial spliceSize turns s p w est add tail ≠ .running →
      ops.feedLoop f begin initial spliceSize (turns + more) s p w est add tail =
        ops.feedLoop f begin initial spliceSize turns s p w est add tail := by
  intro turns
  induction turns with
  | zero => intro s p w est add tail more h; exact absurd rfl h
  | succ turns ih =>
    intro s p w est add tail more h
    rw [show turns + 1 + more = (turns + more) + 1 by omega]
    unfold SxOps.feedLoop at h ⊢
    cases hf : ops.feedFill f begin (est - w) s w p with
    | err e => rfl
    | panic => rfl
    | crashed s' c => rfl
    | running => rfl
    | ok x =>
      obtain ⟨s1, p1, w1, ex⟩ := x
      rw [hf] at h
      simp only [Run.ok_bind] at h ⊢
      cases ex with
      | true => rfl
      | false =>
        simp only [Bool.false_eq_true, if_false] at h ⊢
        cases ha : (Run.of (Res.assert (w1 == est)) : Run S Unit) with
        | err e => rfl
        | panic => rfl
        | crashed s' c => rfl
        | running => rfl
        | ok u =>
          rw [ha] at h
          simp only [Run.ok_bind] at h ⊢
          obtain ⟨r2, p2, e2⟩ : ∃ r2 p2, f.peek p1 = (r2, p2) := ⟨_, _, rfl⟩
          rw [e2] at h ⊢
          cases r2 with
          | none => rfl
          | panic => rfl
          | item v =>
            simp only at h ⊢
            cases hg : (Run.of (ops.growMore s1 begin tail initial spliceSize (est + add)) :
                Run S _) with
            | err e => rfl
            | panic => rfl
            | crashed s' c => rfl
            | running => rfl
            | ok x =>
              obtain ⟨s2, est2, to⟩ := x
              rw [hg] at h
              simp only [Run.ok_bind] at h ⊢
              cases hm : (Run.of (ops.moveTail s2 tail to) : Run S _) with
              | err e => rfl
              | panic => rfl
              | crashed s' c => rfl
              | running => rfl
              | ok s3 =>
                rw [hm] at h
                simp only [Run.ok_bind] at h ⊢
                by_cases hw : w1 ≥ est2
                · rw [if_pos hw, if_pos hw]
                · rw [if_neg hw] at h ⊢
                  rw [if_neg hw]
                  exact ih s3 p2 w1 est2 (add * 2) (begin + est2) more h

/-- Where the list loop ended well or in an overflow, with enough turns. -/
theorem feedDetail_loop (hy : f.Yields l) {h : Nat × Option Nat} (hh : f.hint = some h)
    {turns : Nat} (ht : l.length < turns) {s : S} {rb re : Bound} {initial spliceSize : Nat}
    {r : LoopEnd S} (hl : ops.toLoop s ⟨l, h.1, h.2⟩ rb re = .ok (initial, spliceSize, r)) :
    (∀ s', r = .overflow s' → ∃ calls, calls ≤ l.length ∧
      ops.feedDetail turns s f rb re = .ok (s', some .bufferOverflow, calls)) ∧
    (∀ s' w t, r = .done s' w t →
      (f.poll l.length = .none → ops.feedDetail turns s f rb re =
        Run.of (ops.finish rb.spliceBegin initial spliceSize r) >>= fun x =>
          .ok (x.1, x.2, l.length + 1)) ∧
      (f.poll l.length = .panic →
        ops.feedDetail turns s f rb re = .crashed s' (l.length + 1))) := by
  unfold SxOps.toLoop at hl
  unfold SxOps.feedDetail
  cases h1 : ops.compact s with
  | err e => rw [h1] at hl; cases hl
  | panic => rw [h1] at hl; cases hl
  | ok s1 =>
  rw [h1] at hl
  simp only [Res.ok_bind, Run.of_ok, Run.ok_bind] at hl ⊢
  cases h2 : ops.payloadSize s1 with
  | err e => rw [h2] at hl; cases hl
  | panic => rw [h2] at hl; cases hl
  | ok n =>
  rw [h2] at hl
  simp only [Res.ok_bind, Run.of_ok, Run.ok_bind] at hl ⊢
  cases h3 : usub (re.spliceEnd n) rb.spliceBegin with
  | err e => rw [h3] at hl; cases hl
  | panic => rw [h3] at hl; cases hl
  | ok sp =>
  rw [h3] at hl
  simp only [Res.ok_bind, Run.of_ok, Run.ok_bind, hh] at hl ⊢
  rw [show Src.estimate ⟨l, h.1, h.2⟩ = hintEstimate h by
    obtain ⟨lo, up⟩ := h; cases up <;> rfl] at hl
  cases h4 : ops.firstGrow s1 (re.spliceEnd n) n sp (hintEstimate h) with
  | err e => rw [h4] at hl; cases hl
  | panic => rw [h4] at hl; cases hl
  | ok x =>
  obtain ⟨s2, est⟩ := x
  rw [h4] at hl
  simp only [Res.ok_bind, Run.of_ok, Run.ok_bind] at hl ⊢
  cases h5 : usub (re.spliceEnd n + est) sp with
  | err e => rw [h5] at hl; cases hl
  | panic => rw [h5] at hl; cases hl
  | ok tail =>
  rw [h5] at hl
  simp only [Res.ok_bind, Run.of_ok, Run.ok_bind] at hl ⊢
  cases h6 : ops.moveTail s2 (re.spliceEnd n) tail with
  | err e => rw [h6] at hl; cases hl
  | panic => rw [h6] at hl; cases hl
  | ok s3 =>
  rw [h6] at hl
  simp only [Res.ok_bind, Run.of_ok, Run.ok_bind] at hl ⊢
  cases h7 : ops.mainLoop rb.spliceBegin n sp (l.length + 1) s3 l 0 est 1 tail with
  | err e => rw [h7] at hl; cases hl
  | panic => rw [h7] at hl; cases hl
  | ok r' =>
  rw [h7] at hl
  simp only [Res.ok_bind, Res.pure_eq, Res.ok.injEq, Prod.mk.injEq] at hl
  obtain ⟨rfl, rfl, rfl⟩ := hl
  obtain ⟨ho, hd⟩ := ops.feedLoop_sim hy rb.spliceBegin n sp (l.length + 1) s3 l ⟨0, none⟩ 0 est 1
    tail r' (.start l) h7
  obtain ⟨more, rfl⟩ : ∃ more, turns = l.length + 1 + more := ⟨turns - (l.length + 1), by omega⟩
  refine ⟨fun s' hr => ?_, fun s' w t hr => ⟨fun he => ?_, fun he => ?_⟩⟩
  · obtain ⟨calls, hc, e⟩ := ho s' hr
    refine ⟨calls, hc, ?_⟩
    rw [ops.feedLoop_more _ _ _ _ _ _ _ _ _ _ _ (by rw [e]; exact fun h => (by cases h)), e]
    rfl
  · have e := (hd s' w t hr).1 he
    rw [ops.feedLoop_more _ _ _ _ _ _ _ _ _ _ _ (by rw [e]; exact fun h => (by cases h)), e, hr]
    simp only [Run.ok_bind, SxOps.finish]
    cases ops.moveTail s' t (rb.spliceBegin + w) with
    | err e => rfl
    | panic => rfl
    | ok s4 =>
    simp only [Res.ok_bind, Run.of_ok, Run.ok_bind]
    cases usub (w + n) sp with
    | err e => rfl
    | panic => rfl
    | ok m =>
    simp only [Res.ok_bind, Run.of_ok, Run.ok_bind]
    cases ops.resize s4 m with
    | err e => rfl
    | panic => rfl
    | ok x => rfl
  · have e := (hd s' w t hr).2 he
    rw [ops.feedLoop_more _ _ _ _ _ _ _ _ _ _ _ (by rw [e]; exact fun h => (by cases h)), e]
    rfl

/-- Where the list loop was not reached, or failed. -/
theorem feedDetail_fail (hy : f.Yields l) {h : Nat × Option Nat} (hh : f.hint = some h)
    {turns : Nat} (ht : l.length < turns) (s : S) (rb re : Bound) :
    (ops.toLoop s ⟨l, h.1, h.2⟩ rb re = .panic → ops.feedDetail turns s f rb re = .panic) ∧
    (∀ e, ops.toLoop s ⟨l, h.1, h.2⟩ rb re = .err e →
      ops.feedDetail turns s f rb re = .err e) := by
  unfold SxOps.toLoop SxOps.feedDetail
  cases h1 : ops.compact s with
  | err e => exact ⟨fun h => (by cases h), fun e' h => (by cases h; rfl)⟩
  | panic => exact ⟨fun _ => rfl, fun e h => (by cases h)⟩
  | ok s1 =>
  simp only [Res.ok_bind, Run.of_ok, Run.ok_bind]
  cases h2 : ops.payloadSize s1 with
  | err e => exact ⟨fun h => (by cases h), fun e' h => (by cases h; rfl)⟩
  | panic => exact ⟨fun _ => rfl, fun e h => (by cases h)⟩
  | ok n =>
  simp only [Res.ok_bind, Run.of_ok, Run.ok_bind]
  cases h3 : usub (re.spliceEnd n) rb.spliceBegin with
  | err e => exact ⟨fun h => (by cases h), fun e' h => (by cases h; rfl)⟩
  | panic => exact ⟨fun _ => rfl, fun e h => (by cases h)⟩
  | ok sp =>
  simp only [Res.ok_bind, Run.of_ok, Run.ok_bind, hh]
  rw [show Src.estimate ⟨l, h.1, h.2⟩ = hintEstimate h by
    obtain ⟨lo, up⟩ := h; cases up <;> rfl]
  cases h4 : ops.firstGrow s1 (re.spliceEnd n) n sp (hintEstimate h) with
  | err e => exact ⟨fun h => (by cases h), fun e' h => (by cases h; rfl)⟩
  | panic => exact ⟨fun _ => rfl, fun e h => (by cases h)⟩
  | ok x =>
  obtain ⟨s2, est⟩ := x
  simp only [Res.ok_bind, Run.of_ok, Run.ok_bind]
  cases h5 : usub (re.spliceEnd n + est) sp with
  | err e => exact ⟨fun h => (by cases h), fun e' h => (by cases h; rfl)⟩
  | panic => exact ⟨fun _ => rfl, fun e h => (by cases h)⟩
  | ok tail =>
  simp only [Res.ok_bind, Run.of_ok, Run.ok_bind]
  cases h6 : ops.moveTail s2 (re.spliceEnd n) tail with
  | err e => exact ⟨fun h => (by cases h), fun e' h => (by cases h; rfl)⟩
  | panic => exact ⟨fun _ => rfl, fun e h => (by cases h)⟩
  | ok s3 =>
  simp only [Res.ok_bind, Run.of_ok, Run.ok_bind]
  obtain ⟨hp, he⟩ := ops.feedLoop_fail hy rb.spliceBegin n sp (l.length + 1) s3 l ⟨0, none⟩ 0 est 1
    tail (.start l) (Nat.zero_le _) (by omega) (by omega)
  obtain ⟨more, rfl⟩ : ∃ more, turns = l.length + 1 + more := ⟨turns - (l.length + 1), by omega⟩
  cases h7 : ops.mainLoop rb.spliceBegin n sp (l.length + 1) s3 l 0 est 1 tail with
  | err e =>
    have e7 := he e h7
    refine ⟨fun h => (by cases h), fun e' h => ?_⟩
    cases h
    rw [ops.feedLoop_more _ _ _ _ _ _ _ _ _ _ _ (by rw [e7]; exact fun h => (by cases h)), e7]
    rfl
  | panic =>
    have e7 := hp h7
    refine ⟨fun _ => ?_, fun e h => (by cases h)⟩
    rw [ops.feedLoop_more _ _ _ _ _ _ _ _ _ _ _ (by rw [e7]; exact fun h => (by cases h)), e7]
    rfl
  | ok r' => exact ⟨fun h => (by cases h), fun e h => (by cases h)⟩

/-- With an iterator that ends, the outcome is that of the list. -/
theorem feedDetail_ends (he : f.Ends l) {h : Nat × Option Nat} (hh : f.hint = some h)
    {turns : Nat} (ht : l.length < turns) (s : S) (rb re : Bound) :
    ∃ calls, calls ≤ l.length + 1 ∧
      ops.feedDetail turns s f rb re =
        (Run.of (ops.trySpliceDetail s ⟨l, h.1, h.2⟩ rb re) >>= fun x =>
          .ok (x.1, x.2, calls)) ∧
      ∀ s', ops.trySpliceDetail s ⟨l, h.1, h.2⟩ rb re = .ok (s', none) → calls = l.length + 1 := by
  obtain ⟨fp, fe⟩ := ops.feedDetail_fail he.1 hh ht s rb re
  rw [ops.trySpliceDetail_eq]
  cases hl : ops.toLoop s ⟨l, h.1, h.2⟩ rb re with
  | err e =>
    refine ⟨0, Nat.zero_le _, ?_, fun s' h => (by cases h)⟩
    rw [fe e hl]; rfl
  | panic =>
    refine ⟨0, Nat.zero_le _, ?_, fun s' h => (by cases h)⟩
    rw [fp hl]; rfl
  | ok x =>
    obtain ⟨initial, sp, r⟩ := x
    obtain ⟨ho, hd⟩ := ops.feedDetail_loop he.1 hh ht hl
    cases r with
    | overflow s' =>
      obtain ⟨calls, hc, e⟩ := ho s' rfl
      refine ⟨calls, by omega, ?_, fun s' h => (by cases h)⟩
      rw [e]; rfl
    | done s' w t =>
      have e := (hd s' w t rfl).1 he.2
      exact ⟨l.length + 1, Nat.le_refl _, e, fun _ _ => rfl⟩

/-- What the code asks of the iterator, so far as it stays within its first `m` calls. -/
theorem feedFill_congr {g : Feed β} (begin : Nat) :
    ∀ (n : Nat) (s : S) (w : Nat) (p : Peek β), (∀ i, i < p.calls + n → f.poll i = g.poll i) →
      ops.feedFill f begin n s w p = ops.feedFill g begin n s w p ∧
      ∀ s' p' w' ex, ops.feedFill f begin n s w p = .ok (s', p', w', ex) →
        p'.calls ≤ p.calls + n := by
  intro n
  induction n with
  | zero =>
    intro s w p _
    refine ⟨rfl, fun s' p' w' ex h => ?_⟩
    cases h
    exact Nat.le_refl _
  | succ n ih =>
    intro s w p h
    have hn : f.next p = g.next p := by
      unfold Feed.next
      rcases p.peeked with _ | _ | _
      · simp only [h p.calls (by omega)]
      · rfl
      · rfl
    have hc : (f.next p).2.calls ≤ p.calls + 1 := by
      unfold Feed.next
      rcases p.peeked with _ | _ | _
      · exact Nat.le_refl _
      · exact Nat.le_succ _
      · exact Nat.le_succ _
    unfold SxOps.feedFill
    rw [← hn]
    obtain ⟨r, p1, e⟩ : ∃ r p1, f.next p = (r, p1) := ⟨_, _, rfl⟩
    rw [e] at hc ⊢
    simp only at hc
    cases r with
    | none =>
      refine ⟨rfl, fun s' p' w' ex h => ?_⟩
      cases h
      omega
    | panic => exact ⟨rfl, fun s' p' w' ex h => (by cases h)⟩
    | item v =>
      simp only
      cases ops.writeDatum s v (begin + w) with
      | err e => exact ⟨rfl, fun s' p' w' ex h => (by cases h)⟩
      | panic => exact ⟨rfl, fun s' p' w' ex h => (by cases h)⟩
      | ok s1 =>
        simp only [Run.of_ok, Run.ok_bind]
        obtain ⟨h1, h2⟩ := ih s1 (w + 1) p1 fun i hi => h i (by omega)
        exact ⟨h1, fun s' p' w' ex h => by have := h2 s' p' w' ex h; omega⟩

theorem feedLoop_congr (f : Feed β) (begin initial spliceSize : Nat) :
    ∀ (turns : Nat) (s : S) (p : Peek β) (w est add tail : Nat), ∃ m, ∀ g : Feed β,
      (∀ i, i < m → f.poll i = g.poll i) →
      ops.feedLoop f begin initial spliceSize turns s p w est add tail =
        ops.feedLoop g begin initial spliceSize turns s p w est add tail := by
  intro turns
  induction turns with
  | zero => intro s p w est add tail; exact ⟨0, fun g _ => rfl⟩
  | succ turns ih =>
    intro s p w est add tail
    cases hf : ops.feedFill f begin (est - w) s w p with
    | err e =>
      refine ⟨p.calls + (est - w), fun g hg => ?_⟩
      unfold SxOps.feedLoop
      rw [← (ops.feedFill_congr (f := f) begin (est - w) s w p hg).1, hf]; rfl
    | panic =>
      refine ⟨p.calls + (est - w), fun g hg => ?_⟩
      unfold SxOps.feedLoop
      rw [← (ops.feedFill_congr (f := f) begin (est - w) s w p hg).1, hf]; rfl
    | crashed s' c =>
      refine ⟨p.calls + (est - w), fun g hg => ?_⟩
      unfold SxOps.feedLoop
      rw [← (ops.feedFill_congr (f := f) begin (est - w) s w p hg).1, hf]; rfl
    | running =>
      refine ⟨p.calls + (est - w), fun g hg => ?_⟩
      unfold SxOps.feedLoop
      rw [← (ops.feedFill_congr (f := f) begin (est - w) s w p hg).1, hf]; rfl
    | ok x =>
      obtain ⟨s1, p1, w1, ex⟩ := x
      -- what the next turn would be, if there is one
      have key : ∃ m, ∀ g : Feed β, (∀ i, i < m → f.poll i = g.poll i) → ∀ s2 est2 to s3,
          ops.growMore s1 begin tail initial spliceSize (est + add) = .ok (s2, est2, to) →
          ops.moveTail s2 tail to = .ok s3 →
          ops.feedLoop f begin initial spliceSize turns s3 (f.peek p1).2 w1 est2 (add * 2)
            (begin + est2) =
          ops.feedLoop g begin initial spliceSize turns s3 (f.peek p1).2 w1 est2 (add * 2)
            (begin + est2) := by
        cases hg : ops.growMore s1 begin tail initial spliceSize (est + add) with
        | err e => exact ⟨0, fun g _ s2 est2 to s3 h => (by cases h)⟩
        | panic => exact ⟨0, fun g _ s2 est2 to s3 h => (by cases h)⟩
        | ok x =>
          obtain ⟨s2, est2, to⟩ := x
          cases hm : ops.moveTail s2 tail to with
          | err e =>
            refine ⟨0, fun g _ s2' est2' to' s3' h h' => ?_⟩
            cases h; rw [hm] at h'; cases h'
          | panic =>
            refine ⟨0, fun g _ s2' est2' to' s3' h h' => ?_⟩
            cases h; rw [hm] at h'; cases h'
          | ok s3 =>
            obtain ⟨m, h⟩ := ih s3 (f.peek p1).2 w1 est2 (add * 2) (begin + est2)
            refine ⟨m, fun g hg s2' est2' to' s3' h1 h2 => ?_⟩
            cases h1
            rw [hm] at h2
            cases h2
            exact h g hg
      obtain ⟨m, key⟩ := key
      refine ⟨m + p.calls + (est - w) + p1.calls + 1, fun g hg => ?_⟩
      have hfill := (ops.feedFill_congr (f := f) (g := g) begin (est - w) s w p
        fun i hi => hg i (by omega)).1
      have hpeek : f.peek p1 = g.peek p1 := by
        unfold Feed.peek
        rcases p1.peeked with _ | _ | _
        · simp only [hg p1.calls (by omega)]
        · rfl
        · rfl
      have key := key g fun i hi => hg i (by omega)
      unfold SxOps.feedLoop
      rw [← hfill, hf]
      simp only [Run.ok_bind, ← hpeek]
      cases ex with
      | true => rfl
      | false =>
        simp only [Bool.false_eq_true, if_false]
        cases (Res.assert (w1 == est)) with
        | err e => rfl
        | panic => rfl
        | ok u =>
          simp only [Run.of_ok, Run.ok_bind]
          obtain ⟨r2, p2, e2⟩ : ∃ r2 p2, f.peek p1 = (r2, p2) := ⟨_, _, rfl⟩
          rw [e2] at key ⊢
          cases r2 with
          | none => rfl
          | panic => rfl
          | item v =>
            simp only at key ⊢
            cases hgr : ops.growMore s1 begin tail initial spliceSize (est + add) with
            | err e => rfl
            | panic => rfl
            | ok x =>
              obtain ⟨s2, est2, to⟩ := x
              simp only [Run.of_ok, Run.ok_bind]
              cases hm : ops.moveTail s2 tail to with
              | err e => rfl
              | panic => rfl
              | ok s3 =>
                simp only [Run.of_ok, Run.ok_bind]
                by_cases hw : w1 ≥ est2
                · rw [if_pos hw, if_pos hw]
                · rw [if_neg hw, if_neg hw]
                  exact key s2 est2 to s3 hgr hm

theorem feedDetail_more (turns more : Nat) (s : S) (rb re : Bound)
    (h : ops.feedDetail turns s f rb re ≠ .running) :
    ops.feedDetail (turns + more) s f rb re = ops.feedDetail turns s f rb re := by
  unfold SxOps.feedDetail at h ⊢
  cases h1 : ops.compact s with
  | err e => rfl
  | panic => rfl
  | ok s1 =>
  rw [h1] at h
  simp only [Run.of_ok, Run.ok_bind] at h ⊢
  cases h2 : ops.payloadSize s1 with
  | err e => rfl
  | panic => rfl
  | ok n =>
  rw [h2] at h
  simp only [Run.of_ok, Run.ok_bind] at h ⊢
  cases h3 : usub (re.spliceEnd n) rb.spliceBegin with
  | err e => rfl
  | panic => rfl
  | ok sp =>
  rw [h3] at h
  simp only [Run.of_ok, Run.ok_bind] at h ⊢
  cases hh : f.hint with
  | none => rfl
  | some hint =>
  rw [hh] at h
  simp only at h ⊢
  cases h4 : ops.firstGrow s1 (re.spliceEnd n) n sp (hintEstimate hint) with
  | err e => rfl
  | panic => rfl
  | ok x =>
  obtain ⟨s2, est⟩ := x
  rw [h4] at h
  simp only [Run.of_ok, Run.ok_bind] at h ⊢
  cases h5 : usub (re.spliceEnd n + est) sp with
  | err e => rfl
  | panic => rfl
  | ok tail =>
  rw [h5] at h
  simp only [Run.of_ok, Run.ok_bind] at h ⊢
  cases h6 : ops.moveTail s2 (re.spliceEnd n) tail with
  | err e => rfl
  | panic => rfl
  | ok s3 =>
  rw [h6] at h
  simp only [Run.of_ok, Run.ok_bind] at h ⊢
  rw [ops.feedLoop_more]
  intro e
  rw [e] at h
  exact h rfl

theorem feedDetail_congr (f : Feed β) (turns : Nat) (s : S) (rb re : Bound) :
    ∃ m, ∀ g : Feed β, g.hint = f.hint → (∀ i, i < m → f.poll i = g.poll i) →
      ops.feedDetail turns s f rb re = ops.feedDetail turns s g rb re := by
  unfold SxOps.feedDetail
  cases h1 : ops.compact s with
  | err e => exact ⟨0, fun g _ _ => rfl⟩
  | panic => exact ⟨0, fun g _ _ => rfl⟩
  | ok s1 =>
  simp only [Run.of_ok, Run.ok_bind]
  cases h2 : ops.payloadSize s1 with
  | err e => exact ⟨0, fun g _ _ => rfl⟩
  | panic => exact ⟨0, fun g _ _ => rfl⟩
  | ok n =>
  simp only [Run.of_ok, Run.ok_bind]
  cases h3 : usub (re.spliceEnd n) rb.spliceBegin with
  | err e => exact ⟨0, fun g _ _ => rfl⟩
  | panic => exact ⟨0, fun g _ _ => rfl⟩
  | ok sp =>
  simp only [Run.of_ok, Run.ok_bind]
  cases hh : f.hint with
  | none => exact ⟨0, fun g hg _ => by rw [hg]⟩
  | some hint =>
  simp only
  cases h4 : ops.firstGrow s1 (re.spliceEnd n) n sp (hintEstimate hint) with
  | err e => exact ⟨0, fun g hg _ => by rw [hg]; simp only [h4]; rfl⟩
  | panic => exact ⟨0, fun g hg _ => by rw [hg]; simp only [h4]; rfl⟩
  | ok x =>
  obtain ⟨s2, est⟩ := x
  simp only [Run.of_ok, Run.ok_bind]
  cases h5 : usub (re.spliceEnd n + est) sp with
  | err e => exact ⟨0, fun g hg _ => by rw [hg]; simp only [h4, h5, Run.of_ok, Run.ok_bind]; rfl⟩
  | panic => exact ⟨0, fun g hg _ => by rw [hg]; simp only [h4, h5, Run.of_ok, Run.ok_bind]; rfl⟩
  | ok tail =>
  simp only [Run.of_ok, Run.ok_bind]
  cases h6 : ops.moveTail s2 (re.spliceEnd n) tail with
  | err e => exact ⟨0, fun g hg _ => by rw [hg]; simp only [h4, h5, h6, Run.of_ok, Run.ok_bind]; rfl⟩
  | panic => exact ⟨0, fun g hg _ => by rw [hg]; simp only [h4, h5, h6, Run.of_ok, Run.ok_bind]; rfl⟩
  | ok s3 =>
  obtain ⟨m, hm⟩ := ops.feedLoop_congr f rb.spliceBegin n sp turns s3 ⟨0, none⟩ 0 est 1 tail
  refine ⟨m, fun g hg hp => ?_⟩
  rw [hg]
  simp only [h4, h5, h6, Run.of_ok, Run.ok_bind]
  rw [hm g hp]

/-- The first items of an iterator that never ends. -/
theorem endless_items (he : f.Endless) (n : Nat) : ∃ l : List β, l.length = n ∧ f.Yields l := by
  refine ⟨(List.range n).map fun i => (he i).choose, by simp, fun i hi => ?_⟩
  rw [(he i).choose_spec]
  simp

/-- Where every finite number of items is taken, an iterator that never ends is asked for ever. -/
theorem feedDetail_endless (he : f.Endless) {h : Nat × Option Nat} (hh : f.hint = some h)
    (s : S) (rb re : Bound)
    (hok : ∀ l : List β, ∃ s', ops.trySpliceDetail s ⟨l, h.1, h.2⟩ rb re = .ok (s', none))
    (turns : Nat) : ops.feedDetail turns s f rb re = .running := by
  refine Classical.byContradiction fun hr => ?_
  obtain ⟨m, hm⟩ := ops.feedDetail_congr f turns s rb re
  have key : ∀ n, m ≤ n → ∃ s', ops.feedDetail turns s f rb re = .ok (s', none, n + 1) := by
    intro n hn
    obtain ⟨l, hl, hy⟩ := endless_items he n
    let g : Feed β := ⟨f.hint, fun i => if i < n then f.poll i else .none⟩
    have hg : g.Ends l := by
      refine ⟨fun i hi => ?_, ?_⟩
      · show (if i < n then f.poll i else .none) = _
        rw [if_pos (by omega), hy i hi]
      · show (if l.length < n then f.poll l.length else .none) = _
        rw [if_neg (by omega)]
    have e1 : ops.feedDetail turns s f rb re = ops.feedDetail turns s g rb re := by
      refine hm g rfl fun i hi => ?_
      show _ = (if i < n then f.poll i else .none)
      rw [if_pos (by omega)]
    have e2 := ops.feedDetail_more (f := g) turns (n + 1) s rb re (by rw [← e1]; exact hr)
    obtain ⟨calls, -, e3, hc⟩ := ops.feedDetail_ends hg (h := h) hh (turns := turns + (n + 1))
      (by omega) s rb re
    obtain ⟨s', es⟩ := hok l
    refine ⟨s', ?_⟩
    rw [e1, ← e2, e3, es, hc s' es, hl]
    rfl
  obtain ⟨s1, e1⟩ := key m (Nat.le_refl _)
  obtain ⟨s2, e2⟩ := key (m + 1) (Nat.le_succ _)
  rw [e1] at e2
  injection e2 with e2
  injection e2 with _ e2
  injection e2 with _ e2
  omega

/-- `size_hint` panics: the message is compacted, and no more. -/
theorem feedDetail_nohint (hh : f.hint = none) (turns : Nat) {s s0 : S} {n : Nat} {rb re : Bound}
    (hc : ops.compact s = .ok s0) (hn : ops.payloadSize s0 = .ok n)
    (hle : rb.spliceBegin ≤ re.spliceEnd n) :
    ops.feedDetail turns s f rb re = .crashed s0 0 := by
  unfold SxOps.feedDetail
  simp only [hc, hn, hh, usub_ok hle, Run.of_ok, Run.ok_bind]

end SxOps

namespace SxLaws

variable {ops : SxOps S β} {R Q P : S → List β → Prop} {lim : Option Nat}

/-- The iterator panics after `l`, or gives more than fits. -/
theorem feed_crash (L : SxLaws ops R Q P lim) {s s0 : S} {f : Feed β} {l : List β}
    (hy : f.Yields l) {h : Nat × Option Nat} (hh : f.hint = some h) {turns : Nat}
    (ht : l.length < turns) (rb re : Bound) (pre old post : List β)
    (hc : ops.compact s = .ok s0) (hR : R s0 (pre ++ old ++ post))
    (hb : rb.spliceBegin = pre.length)
    (he : re.spliceEnd (pre ++ old ++ post).length = pre.length + old.length)
    (hl : lim = none ∨ old = [] ∨ l.length ≤ hintEstimate h ∨
      ((old.length ≤ hintEstimate h ∨ SxFree ops R Q lim) ∧
        Fits lim (pre.length + 2 * l.length + post.length))) :
    (Fits lim (pre ++ l ++ post).length → f.poll l.length = .panic → ∃ s' gap rest,
      ops.feedDetail turns s f rb re = .crashed s' (l.length + 1) ∧
      R s' (pre ++ l ++ gap ++ (post ++ rest))) ∧
    (¬ Fits lim (pre ++ l ++ post).length → ∃ s' l' calls, calls ≤ l.length ∧
      ops.feedDetail turns s f rb re = .ok (s', some .bufferOverflow, calls) ∧ R s' l') := by
  have hest : Src.estimate ⟨l, h.1, h.2⟩ = hintEstimate h := by
    obtain ⟨lo, up⟩ := h; cases up <;> rfl
  obtain ⟨r, er, rf, rn⟩ := L.toLoop_spec (s := s) ⟨l, h.1, h.2⟩ rb re pre old post hc hR hb he
    (by rw [hest]; exact hl)
  obtain ⟨ho, hd⟩ := ops.feedDetail_loop hy hh ht er
  refine ⟨fun hf hp => ?_, fun hf => ?_⟩
  · obtain ⟨s', gap, rest, rfl, hR'⟩ := rf hf
    exact ⟨s', gap, rest, (hd _ _ _ rfl).2 hp, hR'⟩
  · obtain ⟨s', l', rfl, hR'⟩ := rn hf
    obtain ⟨calls, hc, e⟩ := ho _ rfl
    exact ⟨s', l', calls, hc, e, hR'⟩

end SxLaws

namespace SxLawsAll

variable {ops : SxOps S β} {R Q : S → List β → Prop} {lim : Option Nat}

/-- The same with any size hint. -/
theorem feed_crash_any (L : SxLawsAll ops R Q lim) {s s0 : S} {f : Feed β} {items : List β}
    (hy : f.Yields items) {h : Nat × Option Nat} (hh : f.hint = some h) {turns : Nat}
    (ht : items.length < turns) (rb re : Bound) (l : List β) (begin old post : Nat)
    (hc : ops.compact s = .ok s0) (hR : R s0 l) (hl : l.length = begin + old + post)
    (hb : rb.spliceBegin = begin) (he : re.spliceEnd l.length = begin + old) :
    (Fits lim (begin + items.length + post) → f.poll items.length = .panic → ∃ s' l',
      ops.feedDetail turns s f rb re = .crashed s' (items.length + 1) ∧
      R s' l' ∧ l'.take begin = l.take begin ∧ begin + items.length + post ≤ l'.length) ∧
    (¬ Fits lim (begin + items.length + post) → ∃ s' l' calls, calls ≤ items.length ∧
      ops.feedDetail turns s f rb re = .ok (s', some .bufferOverflow, calls) ∧ R s' l') := by
  obtain ⟨r, er, rf, rn⟩ := L.toLoop_any (s := s) ⟨items, h.1, h.2⟩ rb re l begin old post hc hR hl
    hb he
  obtain ⟨ho, hd⟩ := ops.feedDetail_loop hy hh ht er
  refine ⟨fun hf hp => ?_, fun hf => ?_⟩
  · obtain ⟨s', l', t, rfl, hR', h1, h2, h3⟩ := rf hf
    exact ⟨s', l', (hd _ _ _ rfl).2 hp, hR', h1, by simp only at h2; omega⟩
  · obtain ⟨s', l', rfl, hR'⟩ := rn hf
    obtain ⟨calls, hc, e⟩ := ho _ rfl
    exact ⟨s', l', calls, hc, e, hR'⟩

end SxLawsAll

end Midi2
