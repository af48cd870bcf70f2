import Verif.Lemmas.EffortApi
import Verif.Lemmas.EffortExact
import Verif.Lemmas.LazyApi
import Verif.Props.Sysex
import Verif.Props.SysexBytes

/-!
# C71: the work of a splice

How often the buffer is resized, for which sizes, how often the tail of the payload is moved and
how many bytes are written.  `logged` keeps a record beside the message, and changes nothing else.
-/

namespace Midi2

open Sx

theorem growths_enough {β : Type} (d : Src β) :
    d.items.length + 1 ≤ d.estimate + 2 ^ d.growths := by
  have he : d.upper.getD d.lower = d.estimate := by unfold Src.estimate; cases d.upper <;> rfl
  unfold Src.growths
  rw [he]
  split
  · simp only [Nat.pow_zero]; omega
  · next h =>
    have := Nat.lt_log2_self (n := d.items.length - d.estimate)
    omega

/-! ### What a call does to the record, for any kind of message -/

theorem splice_effort {S β : Type} {ops : SxOps S β} {I : S → Prop} (P : Paced ops I none)
    {s : S} {e : Effort} {d : Src β} {rb re : Bound} {s' : S} {eff : Effort} (hI : I s)
    (h : ops.logged.splice (s, e) d rb re = .ok (s', eff)) :
    eff.writes = e.writes + d.items.length ∧ ∃ R M, eff.resizes = e.resizes ++ R ∧
      eff.moves = e.moves ++ M ∧ R.length ≤ d.growths + 2 ∧ M.length ≤ d.growths + 2 ∧
      ∃ s0 initial, ops.compact s = .ok s0 ∧ ops.payloadSize s0 = .ok initial ∧
        R.getLast? = some (d.items.length + initial - (re.spliceEnd initial - rb.spliceBegin)) ∧
        ∀ n ∈ R, n ≤ max d.estimate (2 * d.items.length) + initial -
          (re.spliceEnd initial - rb.spliceBegin) := by
  unfold SxOps.splice at h
  obtain ⟨⟨⟨s1, e1⟩, _ | er⟩, h1, h⟩ := Res.of_bind_ok h
  · cases h
    obtain ⟨-, -, hw, R, M, q1, q2, q3, q4, s0, n, c1, c2, c3, c4⟩ :=
      P.detail_effort hI (growths_enough d) h1
    exact ⟨hw rfl, R, M, q1, q2, q3, q4, s0, n, c1, c2, c3 rfl, (c4 rfl).2⟩
  · cases h

theorem trySplice_effort {S β : Type} {ops : SxOps S β} {I : S → Prop} {c : Nat}
    (P : Paced ops I (some c)) {s : S} {e : Effort} {d : Src β} {rb re : Bound} {s' : S}
    {eff : Effort} {o : Option Error} (hI : I s)
    (h : ops.logged.trySplice (s, e) d rb re = .ok ((s', eff), o)) :
    eff.writes ≤ e.writes + d.items.length ∧
    (o = none → eff.writes = e.writes + d.items.length) ∧ ∃ R M, eff.resizes = e.resizes ++ R ∧
      eff.moves = e.moves ++ M ∧ R.length ≤ d.growths + 4 ∧ M.length ≤ d.growths + 3 ∧
      (o = none → R.length ≤ d.growths + 3) := by
  unfold SxOps.trySplice at h
  obtain ⟨⟨⟨s1, e1⟩, _ | er⟩, h1, h⟩ := Res.of_bind_ok h
  · cases h
    obtain ⟨-, -, hw, R, M, q1, q2, q3, q4, -⟩ := P.detail_effort hI (growths_enough d) h1
    rw [if_neg (by simp)] at q3 q4
    exact ⟨Nat.le_of_eq (hw rfl), hw, R, M, q1, q2, by omega, q4, fun _ => q3⟩
  · obtain ⟨-, hw, -, R, M, q1, q2, q3, q4, -⟩ := P.detail_effort hI (growths_enough d) h1
    rw [if_neg (by simp)] at q3 q4
    obtain ⟨⟨⟨s2, e2⟩, r⟩, h2, h⟩ := Res.of_bind_ok h
    obtain ⟨⟨s3, r3⟩, h3, h2⟩ := Res.of_bind_ok h2
    simp only [Res.pure_eq, Res.ok.injEq, Prod.mk.injEq] at h2 h
    obtain ⟨⟨rfl, rfl⟩, rfl⟩ := h2
    obtain ⟨⟨rfl, rfl⟩, rfl⟩ := h
    refine ⟨hw, fun h => ?_, R ++ [0], M, by simp [q1], q2, ?_, q4, fun h => ?_⟩
    · cases r3 <;> cases h
    · rw [List.length_append, List.length_singleton]; omega
    · cases r3 <;> cases h

/-! ### The record changes nothing -/

theorem same_eq {A B : Type} {f : A → B} {x : Res A} {y : Res B} (h : SxOps.Same f x y) :
    (x >>= fun a => .ok (f a)) = y := by
  cases h <;> rfl

/-- C71: keeping the record changes nothing of what a call does. -/
theorem C71_record {S β : Type} (ops : SxOps S β) (s : S) (e : Effort) (d : Src β) :
    (∀ rb re, (ops.logged.splice (s, e) d rb re >>= fun x => .ok x.1) = ops.splice s d rb re) ∧
    (∀ rb re, (ops.logged.trySplice (s, e) d rb re >>= fun x => .ok (x.1.1, x.2)) =
      ops.trySplice s d rb re) ∧
    (ops.logged.append (s, e) d >>= fun x => .ok x.1) = ops.append s d ∧
    (ops.logged.tryAppend (s, e) d >>= fun x => .ok (x.1.1, x.2)) = ops.tryAppend s d ∧
    (ops.logged.setPayload (s, e) d >>= fun x => .ok x.1) = ops.setPayload s d ∧
    (ops.logged.trySetPayload (s, e) d >>= fun x => .ok (x.1.1, x.2)) = ops.trySetPayload s d := by
  refine ⟨fun rb re => same_eq (ops.same_splice (s, e) d rb re),
    fun rb re => same_eq (ops.same_trySplice (s, e) d rb re),
    same_eq (f := Prod.fst) ?_, same_eq (f := fun x : (S × Effort) × Option Error => (x.1.1, x.2)) ?_,
    same_eq (f := Prod.fst) ?_, same_eq (f := fun x : (S × Effort) × Option Error => (x.1.1, x.2)) ?_⟩
  · exact .bind (.refl (ops.payloadSize s)) fun n => ops.same_splice (s, e) d _ _
  · exact .bind (.refl (ops.payloadSize s)) fun n => ops.same_trySplice (s, e) d _ _
  · refine .bind (ops.same_resize (s, e) 0) fun y => ?_
    obtain ⟨y, _ | r⟩ := y
    · exact ops.same_splice y d _ _
    · exact .panic
  · refine .bind (ops.same_resize (s, e) 0) fun y => ?_
    obtain ⟨y, _ | r⟩ := y
    · exact ops.same_trySplice y d _ _
    · exact .pure rfl

example : ((Sxb.ops .vec).logged.append (sysexBytes [1, 2], {}) ⟨[3], 0, none⟩ >>= fun x => .ok x.1) =
    .ok (sysexBytes [1, 2, 3]) := by decide +kernel

/-! ### Growable buffers -/

/-- C71: a call of `splice_payload` on a growable buffer that returns has written every item once,
and has resized the buffer and moved the tail at most twice, and once more each time the estimate
of the number of items grew: never if the size hint covers the items, and otherwise at most as
often as the binary digits of the number of items it misses.  On every buffer, words and bytes. -/
theorem C71_splice (d7 : Src (BitVec 7)) (rb re : Bound) :
    (∀ (k : Sx) (dbg : Bool) (b b' : Buf .ump) (d : Src k.Byte) (eff : Effort),
      (k.ops dbg .vec).logged.splice (b, {}) d rb re = .ok (b', eff) →
      eff.writes = d.items.length ∧ eff.resizes.length ≤ d.growths + 2 ∧
      eff.moves.length ≤ d.growths + 2) ∧
    (∀ (b b' : Buf .bytes) (eff : Effort),
      (Sxb.ops .vec).logged.splice (b, {}) d7 rb re = .ok (b', eff) →
      eff.writes = d7.items.length ∧ eff.resizes.length ≤ d7.growths + 2 ∧
      eff.moves.length ≤ d7.growths + 2) := by
  refine ⟨fun k dbg b b' d eff h => ?_, fun b b' eff h => ?_⟩
  · obtain ⟨h1, R, M, q1, q2, q3, q4, -⟩ := splice_effort (paced_vec k dbg) trivial h
    exact ⟨by simpa using h1, by rw [q1]; simpa using q3, by rw [q2]; simpa using q4⟩
  · obtain ⟨h1, R, M, q1, q2, q3, q4, -⟩ := splice_effort Sxb.paced_vec trivial h
    exact ⟨by simpa using h1, by rw [q1]; simpa using q3, by rw [q2]; simpa using q4⟩

/-- C71: `set_payload` empties the message first, which is one resize more. -/
theorem C71_set_payload (d7 : Src (BitVec 7)) :
    (∀ (k : Sx) (dbg : Bool) (b b' : Buf .ump) (d : Src k.Byte) (eff : Effort),
      (k.ops dbg .vec).logged.setPayload (b, {}) d = .ok (b', eff) →
      eff.writes = d.items.length ∧ eff.resizes.length ≤ d.growths + 3 ∧
      eff.moves.length ≤ d.growths + 2) ∧
    (∀ (b b' : Buf .bytes) (eff : Effort),
      (Sxb.ops .vec).logged.setPayload (b, {}) d7 = .ok (b', eff) →
      eff.writes = d7.items.length ∧ eff.resizes.length ≤ d7.growths + 3 ∧
      eff.moves.length ≤ d7.growths + 2) := by
  have key : ∀ {S β : Type} {ops : SxOps S β} (_ : Paced ops (fun _ => True) none) (s s' : S)
      (d : Src β) (eff : Effort), ops.logged.setPayload (s, {}) d = .ok (s', eff) →
      eff.writes = d.items.length ∧ eff.resizes.length ≤ d.growths + 3 ∧
      eff.moves.length ≤ d.growths + 2 := by
    intro S β ops P s s' d eff h
    unfold SxOps.setPayload at h
    obtain ⟨⟨⟨s1, e1⟩, r⟩, h1, h⟩ := Res.of_bind_ok h
    obtain ⟨⟨s2, r2⟩, h2, h1⟩ := Res.of_bind_ok h1
    simp only [Res.pure_eq, Res.ok.injEq, Prod.mk.injEq] at h1
    obtain ⟨⟨rfl, rfl⟩, rfl⟩ := h1
    cases r2 with
    | some x => cases h
    | none =>
      obtain ⟨h1, R, M, q1, q2, q3, q4, -⟩ := splice_effort P trivial h
      refine ⟨by simpa using h1, ?_, by rw [q2]; simpa using q4⟩
      rw [q1]
      simp only [List.nil_append, List.length_append, List.length_singleton]
      omega
  exact ⟨fun k dbg b b' d eff h => key (paced_vec k dbg) b b' d eff h,
    fun b b' eff h => key Sxb.paced_vec b b' d7 eff h⟩

example : (Sxb.ops .vec).logged.setPayload (sysexBytes [1, 2], {}) ⟨[3, 4, 5], 0, none⟩ =
    .ok (sysexBytes [3, 4, 5],
      { resizes := [0, 1, 3, 3], moves := [(0, 0), (0, 1), (1, 3), (3, 3)], writes := 3 }) := by
  decide +kernel

/-- C71: on messages that can be spliced the call returns, and the buffer is never resized for
more than what stays of the payload and the size hint, or twice the items if that is more.  The
last resize is for the new payload. -/
theorem C71_sizes_partial (k : Sx) (dbg : Bool) (b : Buf .ump) (g : BitVec 4) (l : List k.Byte)
    (R : k.Ready dbg false b g l) (d : Src k.Byte) (rb re : Bound)
    (h1 : rb.first ≤ re.last l.length) (h2 : re.last l.length ≤ l.length) :
    ∃ b' eff, (k.ops dbg .vec).logged.splice (b, {}) d rb re = .ok (b', eff) ∧
      k.Ready dbg false b' g (spliced l rb.first (re.last l.length) d.items) ∧
      eff.resizes.getLast? = some (spliced l rb.first (re.last l.length) d.items).length ∧
      ∀ n ∈ eff.resizes, n ≤ l.length - (re.last l.length - rb.first) +
        max (d.upper.getD d.lower) (2 * d.items.length) := by
  obtain ⟨b0, e0, L⟩ := Ready.start (N := none) R (by simp)
  obtain ⟨b', e, S⟩ := splice_vec k (inv_true k) e0 L d rb re h1 h2
  have hr := (C71_record (k.ops dbg .vec) b {} d).1 rb re
  rw [e] at hr
  obtain ⟨⟨b1, eff⟩, hs, hx⟩ := Res.of_bind_ok hr
  cases hx
  obtain ⟨-, Rz, M, q1, -, -, -, s0, n, c1, c2, c3, c4⟩ :=
    splice_effort (paced_vec k dbg) trivial hs
  have c1 : k.compact b = .ok s0 := c1
  rw [e0] at c1
  cases c1
  have c2 : k.payloadSize b0 = .ok n := c2
  rw [L.ready.size] at c2
  cases c2
  have he : d.upper.getD d.lower = d.estimate := by unfold Src.estimate; cases d.upper <;> rfl
  have hq : eff.resizes = Rz := by rw [q1]; rfl
  rw [spliceEnd_eq, spliceBegin_eq] at c3 c4
  refine ⟨b1, eff, hs, Loose.ready (N := none) ⟨⟨_, S.packed⟩, S.whole⟩, ?_, ?_⟩
  · rw [hq, c3]
    congr 1
    unfold spliced
    simp only [List.length_append, List.length_take, List.length_drop]
    omega
  · rw [hq, he]
    intro n hn
    have := c4 n hn
    omega

theorem sampleWork : Sx.s7.Ready true false [0x30160001, 0x02030405, 0x30320607, 0] 0
    [0, 1, 2, 3, 4, 5, 6, 7] :=
  ⟨by decide +kernel, by decide +kernel, [6, 2], sampleSysex7, sampleSysex7_spliceable _ _⟩

example : ∃ b' eff, (Sx.s7.ops true .vec).logged.splice
      ([0x30160001, 0x02030405, 0x30320607, 0], {}) ⟨[1, 2, 3], 0, none⟩ (.included 4) (.included 5) =
        .ok (b', eff) ∧
    Sx.s7.Ready true false b' 0 [0, 1, 2, 3, 1, 2, 3, 6, 7] ∧ eff.resizes.getLast? = some 9 ∧
    ∀ n ∈ eff.resizes, n ≤ 12 :=
  C71_sizes_partial .s7 true _ 0 _ sampleWork ⟨[1, 2, 3], 0, none⟩ (.included 4) (.included 5)
    (by decide) (by decide)

/-- C71: the same for byte messages. -/
theorem C71_bytes_sizes_partial (l : List (BitVec 7)) (r : List (BitVec 8))
    (hr : ∀ x ∈ r, x.toNat < 128) (d : Src (BitVec 7)) (rb re : Bound)
    (h1 : rb.first ≤ re.last l.length) (h2 : re.last l.length ≤ l.length) :
    ∃ eff, (Sxb.ops .vec).logged.splice (sysexBytes l ++ r, {}) d rb re =
        .ok (sysexBytes (spliced l rb.first (re.last l.length) d.items), eff) ∧
      eff.resizes.getLast? = some (spliced l rb.first (re.last l.length) d.items).length ∧
      ∀ n ∈ eff.resizes, n ≤ l.length - (re.last l.length - rb.first) +
        max (d.upper.getD d.lower) (2 * d.items.length) := by
  have hr' := (C71_record (Sxb.ops .vec) (sysexBytes l ++ r) {} d).1 rb re
  rw [(C21_bytes_splice_partial _ l r rfl hr d).1 rb re h1 h2] at hr'
  obtain ⟨⟨b1, eff⟩, hs, hx⟩ := Res.of_bind_ok hr'
  cases hx
  obtain ⟨-, Rz, M, q1, -, -, -, s0, n, c1, c2, c3, c4⟩ := splice_effort Sxb.paced_vec trivial hs
  cases c1
  have hp : Sxb.payloadSize (sysexBytes l ++ r) = .ok l.length := by
    have := Sxb.payloadSize_raw (rest := r) (Sxb.end_notin l)
    rw [List.length_map] at this
    rw [← this]
    congr 1
    unfold sysexBytes Sxb.raw
    simp [Sxb.e, Sxb.endByte, Sxb.startByte]
  have c2 : Sxb.payloadSize (sysexBytes l ++ r) = .ok n := c2
  rw [hp] at c2
  cases c2
  have he : d.upper.getD d.lower = d.estimate := by unfold Src.estimate; cases d.upper <;> rfl
  have hq : eff.resizes = Rz := by rw [q1]; rfl
  rw [spliceEnd_eq, spliceBegin_eq] at c3 c4
  refine ⟨eff, hs, ?_, ?_⟩
  · rw [hq, c3]
    congr 1
    unfold spliced
    simp only [List.length_append, List.length_take, List.length_drop]
    omega
  · rw [hq, he]
    intro n hn
    have := c4 n hn
    omega

example : ∃ eff, (Sxb.ops .vec).logged.splice (sysexBytes [1, 2, 3, 4, 5] ++ [6, 7], {})
      ⟨[9, 10, 11], 0, none⟩ (.included 1) (.excluded 4) =
        .ok (sysexBytes [1, 9, 10, 11, 5], eff) ∧
      eff.resizes.getLast? = some 5 ∧ ∀ n ∈ eff.resizes, n ≤ 8 :=
  C71_bytes_sizes_partial [1, 2, 3, 4, 5] [6, 7] (by decide) ⟨[9, 10, 11], 0, none⟩ (.included 1)
    (.excluded 4) (by decide) (by decide)

/-- C71: the whole work of `splice_payload` on a growable message that can be spliced. -/
theorem C71_work_partial (k : Sx) (dbg : Bool) (b : Buf .ump) (g : BitVec 4) (l : List k.Byte)
    (R : k.Ready dbg false b g l) (d : Src k.Byte) (rb re : Bound)
    (h1 : rb.first ≤ re.last l.length) (h2 : re.last l.length ≤ l.length) :
    ∃ b', (k.ops dbg .vec).logged.splice (b, {}) d rb re =
        .ok (b', d.work l.length rb.first (re.last l.length)) ∧
      k.Ready dbg false b' g (spliced l rb.first (re.last l.length) d.items) := by
  obtain ⟨b', eff, hs, hR, -⟩ := C71_sizes_partial k dbg b g l R d rb re h1 h2
  obtain ⟨b0, e0, L⟩ := Ready.start (N := none) R (by simp)
  refine ⟨b', ?_, hR⟩
  rw [hs]
  unfold SxOps.splice at hs
  obtain ⟨⟨⟨s1, e1⟩, _ | er⟩, hd, hs⟩ := Res.of_bind_ok hs
  · cases hs
    obtain ⟨s0, n, c1, c2, c3⟩ := (paced_vec k dbg).detail_work trivial hd
    have c1 : k.compact b = .ok s0 := c1
    rw [e0] at c1
    cases c1
    have c2 : k.payloadSize b0 = .ok n := c2
    rw [L.ready.size] at c2
    cases c2
    rw [spliceEnd_eq, spliceBegin_eq] at c3
    rw [c3 h2]
  · cases hs

example : ∃ b', (Sx.s7.ops true .vec).logged.splice ([0x30160001, 0x02030405, 0x30320607, 0], {})
      ⟨[1, 2, 3], 0, none⟩ (.included 4) (.included 5) =
        .ok (b', Src.work ⟨([1, 2, 3] : List (BitVec 7)), 0, none⟩ 8 4 6) ∧
    Sx.s7.Ready true false b' 0 [0, 1, 2, 3, 1, 2, 3, 6, 7] :=
  C71_work_partial .s7 true _ 0 _ sampleWork ⟨[1, 2, 3], 0, none⟩ (.included 4) (.included 5)
    (by decide) (by decide)

/-- C71: the same for byte messages. -/
theorem C71_bytes_work_partial (l : List (BitVec 7)) (r : List (BitVec 8))
    (hr : ∀ x ∈ r, x.toNat < 128) (d : Src (BitVec 7)) (rb re : Bound)
    (h1 : rb.first ≤ re.last l.length) (h2 : re.last l.length ≤ l.length) :
    (Sxb.ops .vec).logged.splice (sysexBytes l ++ r, {}) d rb re =
        .ok (sysexBytes (spliced l rb.first (re.last l.length) d.items),
          d.work l.length rb.first (re.last l.length)) := by
  obtain ⟨eff, hs, -⟩ := C71_bytes_sizes_partial l r hr d rb re h1 h2
  rw [hs]
  unfold SxOps.splice at hs
  obtain ⟨⟨⟨s1, e1⟩, _ | er⟩, hd, hs⟩ := Res.of_bind_ok hs
  · cases hs
    obtain ⟨s0, n, c1, c2, c3⟩ := Sxb.paced_vec.detail_work trivial hd
    cases c1
    have hp : Sxb.payloadSize (sysexBytes l ++ r) = .ok l.length := by
      have := Sxb.payloadSize_raw (rest := r) (Sxb.end_notin l)
      rw [List.length_map] at this
      rw [← this]
      congr 1
      unfold sysexBytes Sxb.raw
      simp [Sxb.e, Sxb.endByte, Sxb.startByte]
    have c2 : Sxb.payloadSize (sysexBytes l ++ r) = .ok n := c2
    rw [hp] at c2
    cases c2
    rw [spliceEnd_eq, spliceBegin_eq] at c3
    rw [c3 h2]
  · cases hs

-- C71: four growths, and none.
example : (Src.work ⟨[1, 2, 3, 4, 5, 6, 7, 8, 9], 0, none⟩ 8 4 6 : Effort) =
    { resizes := [7, 9, 13, 21, 15],
      moves := [(6, 4), (4, 5), (5, 7), (7, 11), (11, 19), (19, 13)], writes := 9 } := by
  decide +kernel

/-! ### Buffers of fixed size -/

/-- C71: on a buffer of fixed size a call that is refused tries at most once more before it gives
up and empties the message. -/
theorem C71_try_splice (d7 : Src (BitVec 7)) (rb re : Bound) :
    (∀ (k : Sx) (dbg : Bool) (b b' : Buf .ump) (d : Src k.Byte) (eff : Effort) (o : Option Error),
      (k.ops dbg .fixed).logged.trySplice (b, {}) d rb re = .ok ((b', eff), o) →
      eff.writes ≤ d.items.length ∧ (o = none → eff.writes = d.items.length) ∧
      eff.resizes.length ≤ d.growths + 4 ∧ eff.moves.length ≤ d.growths + 3 ∧
      (o = none → eff.resizes.length ≤ d.growths + 3)) ∧
    (∀ (b b' : Buf .bytes) (eff : Effort) (o : Option Error),
      (Sxb.ops .fixed).logged.trySplice (b, {}) d7 rb re = .ok ((b', eff), o) →
      eff.writes ≤ d7.items.length ∧ (o = none → eff.writes = d7.items.length) ∧
      eff.resizes.length ≤ d7.growths + 4 ∧ eff.moves.length ≤ d7.growths + 3 ∧
      (o = none → eff.resizes.length ≤ d7.growths + 3)) := by
  refine ⟨fun k dbg b b' d eff o h => ?_, fun b b' eff o h => ?_⟩
  · obtain ⟨h1, h2, R, M, q1, q2, q3, q4, q5⟩ :=
      trySplice_effort (paced_fixed k dbg b.length) rfl h
    have q1 : eff.resizes = R := q1
    have q2 : eff.moves = M := q2
    exact ⟨by simpa using h1, by simpa using h2, by rw [q1]; exact q3, by rw [q2]; exact q4,
      by rw [q1]; exact q5⟩
  · obtain ⟨h1, h2, R, M, q1, q2, q3, q4, q5⟩ := trySplice_effort (Sxb.paced_fixed b.length) rfl h
    have q1 : eff.resizes = R := q1
    have q2 : eff.moves = M := q2
    exact ⟨by simpa using h1, by simpa using h2, by rw [q1]; exact q3, by rw [q2]; exact q4,
      by rw [q1]; exact q5⟩

-- C71: nine bytes put in place of two of eight: five resizes and six moves without a hint, two of
-- each with one.
example : (Sx.s7.ops true .vec).logged.splice ([0x30160001, 0x02030405, 0x30320607, 0], {})
      ⟨[1, 2, 3, 4, 5, 6, 7, 8, 9], 0, none⟩ (.included 4) (.included 5) =
    .ok ([0x30160001, 0x02030102, 0x30260304, 0x05060708, 0x30330906, 0x07000000],
      { resizes := [7, 9, 13, 21, 15],
        moves := [(6, 4), (4, 5), (5, 7), (7, 11), (11, 19), (19, 13)], writes := 9 }) := by
  decide +kernel

example : (Sx.s7.ops true .vec).logged.splice ([0x30160001, 0x02030405, 0x30320607, 0], {})
      ⟨[1, 2, 3, 4, 5, 6, 7, 8, 9], 9, some 9⟩ (.included 4) (.included 5) =
    .ok ([0x30160001, 0x02030102, 0x30260304, 0x05060708, 0x30330906, 0x07000000],
      { resizes := [15, 15], moves := [(6, 13), (13, 13)], writes := 9 }) := by
  decide +kernel

-- C71: a buffer of four words that ten bytes do not fit: the message is emptied at last.
example : (Sx.s7.ops true .fixed).logged.trySplice ([0x30160001, 0x02030405, 0x30320607, 0], {})
      ⟨[1, 2, 3, 4, 5, 6, 7, 8, 9, 10], 0, none⟩ (.included 4) (.included 5) =
    .ok (([0x30000001, 0x02030102, 0x30360304, 0],
      { resizes := [7, 9, 13, 20, 0], moves := [(6, 4), (4, 5), (5, 7), (7, 8), (10, 8)],
        writes := 6 }), some .bufferOverflow) := by decide +kernel

example : (Src.growths ⟨[1, 2, 3, 4, 5, 6, 7, 8, 9], 0, none⟩ : Nat) = 4 ∧
    (Src.growths ⟨[1, 2, 3, 4, 5, 6, 7, 8, 9], 9, some 9⟩ : Nat) = 0 := by decide

end Midi2
