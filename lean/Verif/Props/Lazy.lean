import Verif.Lemmas.LazyApi
import Verif.Props.Sysex
import Verif.Props.SysexBytes

/-!
# C69, C70: the iterator the caller passes to a splice

The calls that take data (`set_payload`, `append_payload`, `insert_payload`, `splice_payload`
and their `try_` forms) take an iterator the caller wrote.  C69 says what a panic of that
iterator leaves behind.  C70 says how often it is asked, and what happens when it does not end.

`turns` cuts the main loop off after so many turns.  Where the loop ends, every number of turns
from a certain one on gives the same outcome; where it does not, every number gives `running`.
-/

namespace Midi2

open Sx

/-! ## C69: the iterator panics -/

theorem feedSplice_crashed {S β : Type} {ops : SxOps S β} {turns : Nat} {s s' : S} {f : Feed β}
    {rb re : Bound} {c : Nat} (h : ops.feedDetail turns s f rb re = .crashed s' c) :
    ops.feedSplice turns s f rb re = .crashed s' c ∧
    ops.feedTrySplice turns s f rb re = .crashed s' c := by
  unfold SxOps.feedSplice SxOps.feedTrySplice
  rw [h]
  exact ⟨rfl, rfl⟩

/-- C69: the iterator of `splice_payload` panics after some items.  The message left behind has
the group it had, is complete, and can be spliced again.  Its payload is what was before the
range, the items, then some bytes, then what was behind the range, then some bytes.  Missing:
messages that cannot be spliced (C21). -/
theorem C69_splice_partial (k : Sx) (dbg : Bool) (b : Buf .ump) (g : BitVec 4) (l : List k.Byte)
    (R : k.Ready dbg false b g l) (f : Feed k.Byte) (items : List k.Byte) (hf : f.Crashes items)
    (hint : Nat × Option Nat) (hh : f.hint = some hint) (rb re : Bound)
    (h1 : rb.first ≤ re.last l.length) (h2 : re.last l.length ≤ l.length)
    (turns : Nat) (ht : items.length < turns) :
    ∃ b' gap rest,
      (k.ops dbg .vec).feedSplice turns b f rb re = .crashed b' (items.length + 1) ∧
      k.Ready dbg false b' g
        (l.take rb.first ++ items ++ gap ++ (l.drop (re.last l.length) ++ rest)) := by
  obtain ⟨b0, e0, L⟩ := Ready.start (N := none) R (by simp)
  obtain ⟨b', gap, rest, e, R'⟩ := feed_crash_vec e0 L hf hh rb re h1 h2 ht
  exact ⟨b', gap, rest, (feedSplice_crashed e).1, R'⟩

/-- C69: the same for `insert_payload` and `append_payload`. -/
theorem C69_insert_partial (k : Sx) (dbg : Bool) (b : Buf .ump) (g : BitVec 4) (l : List k.Byte)
    (R : k.Ready dbg false b g l) (f : Feed k.Byte) (items : List k.Byte) (hf : f.Crashes items)
    (hint : Nat × Option Nat) (hh : f.hint = some hint) (turns : Nat) (ht : items.length < turns) :
    (∀ i ≤ l.length, ∃ b' gap rest,
      (k.ops dbg .vec).feedInsert turns b f i = .crashed b' (items.length + 1) ∧
      k.Ready dbg false b' g (l.take i ++ items ++ gap ++ (l.drop i ++ rest))) ∧
    (∃ b' gap, (k.ops dbg .vec).feedAppend turns b f = .crashed b' (items.length + 1) ∧
      k.Ready dbg false b' g (l ++ items ++ gap)) := by
  have key : ∀ i ≤ l.length, ∃ b' gap rest,
      (k.ops dbg .vec).feedInsert turns b f i = .crashed b' (items.length + 1) ∧
      k.Ready dbg false b' g (l.take i ++ items ++ gap ++ (l.drop i ++ rest)) := fun i hi =>
    C69_splice_partial k dbg b g l R f items hf hint hh (.included i) (.excluded i)
      (Nat.le_refl i) hi turns ht
  refine ⟨key, ?_⟩
  obtain ⟨b', gap, rest, e, R'⟩ := key l.length (Nat.le_refl _)
  refine ⟨b', gap ++ rest, ?_, ?_⟩
  · unfold SxOps.feedAppend
    rw [show (k.ops dbg .vec).payloadSize b = .ok l.length from R.size]
    exact e
  · simpa using R'

/-- C69: the iterator of `set_payload` panics, on any buffer with a first word.  The old payload
is gone; the items are there, and some bytes behind them. -/
theorem C69_set_payload (k : Sx) (dbg : Bool) (b : Buf .ump) (g : BitVec 4)
    (hg : Sx.group b = .ok g) (f : Feed k.Byte) (items : List k.Byte) (hf : f.Crashes items)
    (hint : Nat × Option Nat) (hh : f.hint = some hint) (turns : Nat) (ht : items.length < turns) :
    ∃ b' gap, (k.ops dbg .vec).feedSetPayload turns b f = .crashed b' (items.length + 1) ∧
      k.Ready dbg false b' g (items ++ gap) := by
  obtain ⟨b1, e1, S⟩ := clear_vec k dbg (inv_true k) (group_word hg) trivial
  obtain ⟨b0, c1, c2⟩ := Loose.compact (inv_true k) (N := none) ⟨⟨_, S.packed⟩, S.whole⟩
  obtain ⟨b', gap, rest, e, R⟩ := feed_crash_vec c1 c2 hf hh (.included 0) (.excluded 0)
    (by simp [Bound.first, Bound.last]) (by simp [Bound.last]) ht
  refine ⟨b', gap ++ rest, ?_, by simpa [Bound.first, Bound.last] using R⟩
  unfold SxOps.feedSetPayload
  show (Run.of (k.tryResize .vec b 0) >>= fun x => _) = _
  rw [e1]
  exact (feedSplice_crashed e).1

/-- C69: `size_hint` panics.  Nothing was asked of `next`, and the payload is unchanged. -/
theorem C69_size_hint_partial (k : Sx) (dbg : Bool) (b : Buf .ump) (g : BitVec 4)
    (l : List k.Byte) (f : Feed k.Byte) (hh : f.hint = none) (rb re : Bound)
    (h1 : rb.first ≤ re.last l.length) (turns : Nat) :
    (k.Ready dbg false b g l → ∃ b',
      (k.ops dbg .vec).feedSplice turns b f rb re = .crashed b' 0 ∧ k.Ready dbg false b' g l) ∧
    (k.Ready dbg true b g l → ∃ b', b'.length = b.length ∧
      (k.ops dbg .fixed).feedTrySplice turns b f rb re = .crashed b' 0 ∧
      k.Ready dbg true b' g l) := by
  refine ⟨fun R => ?_, fun R => ?_⟩
  · obtain ⟨b0, e0, L⟩ := Ready.start (N := none) R (by simp)
    exact ⟨b0, (feedSplice_crashed ((k.ops dbg .vec).feedDetail_nohint hh turns e0
      (n := l.length) L.ready.size (by rw [spliceBegin_eq, spliceEnd_eq]; exact h1))).1, L.ready⟩
  · obtain ⟨b0, e0, L⟩ := Ready.start (N := some b.length) R (by simp)
    exact ⟨b0, L.2.fixed _ rfl, (feedSplice_crashed ((k.ops dbg .fixed).feedDetail_nohint hh turns
      e0 (n := l.length) L.ready.size (by rw [spliceBegin_eq, spliceEnd_eq]; exact h1))).2,
      L.ready⟩

example : (Sx.s7.ops true .vec).feedSplice 9 [0x30160001, 0x02030405, 0x30320607, 0]
      ⟨none, fun _ => .none⟩ (.included 4) (.included 5) =
    .crashed [0x30160001, 0x02030405, 0x30320607, 0] 0 := by decide +kernel

/-- C69: the iterator of `try_splice_payload` panics, and what it gave so far fits.  Whatever the
size hint says, the message left behind is complete, keeps its group and what was before the
range, and can be spliced again.  It is not emptied, as it would be on an overflow.  If the range
is empty, or the hint is not too low, or there is room for twice the items, the items and what
was behind the range are there as well.  Missing: that they are with other hints, see the
violation, and messages that cannot be spliced. -/
theorem C69_try_splice_partial (k : Sx) (dbg : Bool) (b : Buf .ump) (g : BitVec 4)
    (l : List k.Byte) (R : k.Ready dbg true b g l) (f : Feed k.Byte) (items : List k.Byte)
    (hf : f.Crashes items) (hint : Nat × Option Nat) (hh : f.hint = some hint) (rb re : Bound)
    (h1 : rb.first ≤ re.last l.length) (h2 : re.last l.length ≤ l.length)
    (hfit : k.layout.wireLength (spliced l rb.first (re.last l.length) items).length ≤
      4 * b.length)
    (turns : Nat) (ht : items.length < turns) :
    ∃ b' l', (k.ops dbg .fixed).feedTrySplice turns b f rb re = .crashed b' (items.length + 1) ∧
      b'.length = b.length ∧ k.Ready dbg true b' g l' ∧ l'.take rb.first = l.take rb.first ∧
      (spliced l rb.first (re.last l.length) items).length ≤ l'.length ∧
      ((rb.first = re.last l.length ∨ items.length ≤ hint.2.getD hint.1 ∨
        k.layout.wireLength (l.length - (re.last l.length - rb.first) + 2 * items.length) ≤
          4 * b.length) →
        ∃ gap rest,
          l' = l.take rb.first ++ items ++ gap ++ (l.drop (re.last l.length) ++ rest)) := by
  obtain ⟨b0, e0, L⟩ := Ready.start (N := some b.length) R (by simp)
  rw [wireLength_eq] at hfit
  obtain ⟨b', l', e, h3, h4, h5, h6, h7⟩ := (feed_crash_fixed R.stride_le e0 L hf.1 hh rb re h1 h2
    ht).1 (by omega) hf.2
  refine ⟨b', l', (feedSplice_crashed e).2, h3, h4, h5, h6, fun hx => h7 ?_⟩
  have he : hint.2.getD hint.1 = hintEstimate hint := by
    obtain ⟨lo, up⟩ := hint
    cases up <;> rfl
  rw [wireLength_eq, he] at hx
  rcases hx with h | h | h
  · exact .inl h
  · exact .inr (.inl h)
  · exact .inr (.inr (by omega))

/-- C69: the iterator of `try_set_payload` panics, and what it gave so far fits. -/
theorem C69_try_set_payload (k : Sx) (dbg : Bool) (b : Buf .ump) (g : BitVec 4)
    (hb : k.layout.words ≤ b.length) (hg : Sx.group b = .ok g)
    (ht : dbg = true → k.layout.Tidy k.layout.words b) (f : Feed k.Byte) (items : List k.Byte)
    (hf : f.Crashes items) (hint : Nat × Option Nat) (hh : f.hint = some hint)
    (hfit : k.layout.wireLength items.length ≤ 4 * b.length)
    (turns : Nat) (hn : items.length < turns) :
    ∃ b' gap, (k.ops dbg .fixed).feedTrySetPayload turns b f = .crashed b' (items.length + 1) ∧
      b'.length = b.length ∧ k.Ready dbg true b' g (items ++ gap) := by
  rw [words_eq] at hb
  rw [wireLength_eq] at hfit
  obtain ⟨b1, e1, S⟩ := clear_fixed k (inv_true k) hb (group_word hg) trivial
    (fun e => by have := ht e; rw [words_eq] at this; exact tidyFrom_iff.mpr this)
  obtain ⟨b0, c1, c2⟩ := Loose.compact (inv_true k) (N := some b.length) ⟨⟨_, S.packed⟩, S.whole⟩
  obtain ⟨b', l', e, h3, h4, -, -, h7⟩ := (feed_crash_fixed hb c1 c2 hf.1 hh (.included 0)
    (.excluded 0) (by simp [Bound.first, Bound.last]) (by simp [Bound.last]) hn).1
    (by simp only [spliced, Bound.first, Bound.last, List.take_nil, List.drop_nil, List.nil_append,
          List.append_nil]; omega) hf.2
  obtain ⟨gap, rest, rfl⟩ := h7 (.inl rfl)
  refine ⟨b', gap ++ rest, ?_, h3, by simpa [Bound.first, Bound.last] using h4⟩
  unfold SxOps.feedTrySetPayload
  show (Run.of (k.tryResize .fixed b 0) >>= fun x => _) = _
  rw [e1]
  exact (feedSplice_crashed e).2

-- C69: an iterator that knows nothing of its length gives two bytes and panics.
def crashingFeed : Feed (BitVec 7) :=
  ⟨some (0, none), fun n => if n = 0 then .item 0x11 else if n = 1 then .item 0x12 else .panic⟩

theorem crashingFeed_crashes : crashingFeed.Crashes [0x11, 0x12] := by
  refine ⟨fun i hi => ?_, rfl⟩
  have : i = 0 ∨ i = 1 := by simp at hi; omega
  rcases this with rfl | rfl <;> rfl

example : (Sx.s7.ops true .vec).feedSplice 9 [0x30160001, 0x02030405, 0x30320607, 0] crashingFeed
      (.included 4) (.included 5) =
    .crashed [0x30160001, 0x02031112, 0x30330706, 0x07000000] 3 := by decide +kernel

example : (Sx.s7.ops true .fixed).feedTrySplice 9 [0x30160001, 0x02030405, 0x30320607, 0] crashingFeed
      (.included 4) (.included 5) =
    .crashed [0x30160001, 0x02031112, 0x30330706, 0x07000000] 3 := by decide +kernel

theorem sampleReady : Sx.s7.Ready true false [0x30160001, 0x02030405, 0x30320607, 0] 0
    [0, 1, 2, 3, 4, 5, 6, 7] :=
  (show Loose .s7 true (fun _ => True) 0 none _ _ from ⟨⟨2, by
    refine ⟨by decide, by decide, by decide, by decide, ?_, ?_, ?_⟩
    · intro j hj; have : j = 0 ∨ j = 1 := by omega
      rcases this with rfl | rfl <;> decide
    · intro j hj; have : j = 0 ∨ j = 1 := by omega
      rcases this with rfl | rfl <;> decide
    · decide⟩, fun _ => (show Sx.isCompact .s7 _ = true by decide +kernel), trivial, by simp⟩).ready

example : ∃ b' gap, (Sx.s7.ops true .vec).feedSetPayload 9 [0x35160001, 0x02030405, 0x35320607, 0]
      crashingFeed = .crashed b' 3 ∧ Sx.s7.Ready true false b' 5 ([0x11, 0x12] ++ gap) :=
  C69_set_payload .s7 true _ 5 (by decide +kernel) crashingFeed [0x11, 0x12] crashingFeed_crashes _ rfl 9
    (by decide)

example : ∃ b' gap rest, (Sx.s7.ops true .vec).feedSplice 9 [0x30160001, 0x02030405, 0x30320607, 0]
      crashingFeed (.included 4) (.included 5) = .crashed b' 3 ∧
    Sx.s7.Ready true false b' 0 ([0, 1, 2, 3] ++ [0x11, 0x12] ++ gap ++ ([6, 7] ++ rest)) :=
  C69_splice_partial .s7 true _ 0 _ sampleReady crashingFeed [0x11, 0x12] crashingFeed_crashes _ rfl
    (.included 4) (.included 5) (by decide) (by decide) 9 (by decide)

example : ∃ b' gap, (Sx.s7.ops true .vec).feedAppend 9 [0x30160001, 0x02030405, 0x30320607, 0]
      crashingFeed = .crashed b' 3 ∧
    Sx.s7.Ready true false b' 0 ([0, 1, 2, 3, 4, 5, 6, 7] ++ [0x11, 0x12] ++ gap) :=
  (C69_insert_partial .s7 true _ 0 _ sampleReady crashingFeed [0x11, 0x12] crashingFeed_crashes _ rfl 9
    (by decide)).2

/-- C69 fails on buffers of fixed size for hints that are too low when a range is replaced near
the capacity: what was behind the range is lost, and so is an item. -/
theorem C69_underestimate_violation :
    ∃ (b b' : Buf .ump) (f : Feed (BitVec 7)), Sx.s7.tryFrom b = .ok b ∧
      Sx.s7.payloadList b = .ok [0, 1, 2, 3, 4, 5, 6, 7, 8, 9, 10, 11] ∧
      f.Crashes [0x11, 0x12, 0x13, 0x14, 0x15] ∧
      (Sx.s7.ops true .fixed).feedTrySplice 9 b f (.included 0) (.excluded 5) = .crashed b' 6 ∧
      Sx.s7.payloadList b' = .ok [5, 6, 7, 0x14, 0x15, 10, 11, 0, 0, 11, 0, 0] := by
  refine ⟨[0x30160001, 0x02030405, 0x30360607, 0x08090A0B],
    [0x30160506, 0x0714150A, 0x30360B00, 0x000B0000],
    ⟨some (0, none), fun n => if n < 5 then .item (BitVec.ofNat 7 (0x11 + n)) else .panic⟩,
    by decide +kernel, by decide +kernel, ⟨fun i hi => ?_, rfl⟩, by decide +kernel,
    by decide +kernel⟩
  have : i = 0 ∨ i = 1 ∨ i = 2 ∨ i = 3 ∨ i = 4 := by simp at hi; omega
  rcases this with rfl | rfl | rfl | rfl | rfl <;> rfl

/-! ### Byte messages -/

theorem clean_out {N : Option Nat} {b : Buf .bytes} {l : List (BitVec 7)} (h : Sxb.Clean N b l) :
    ∃ r : List (BitVec 8), b = sysexBytes l ++ r ∧ (∀ x ∈ r, x.toNat < 128) ∧
      ∀ n, N = some n → b.length = n := by
  obtain ⟨r, rfl, hN⟩ := h
  refine ⟨r.map Sxb.e, raw_eq l _, fun x hx => ?_, hN⟩
  rw [List.mem_map] at hx
  obtain ⟨y, -, rfl⟩ := hx
  revert y
  decide +kernel

/-- C69: byte messages over growable buffers with nothing of `0x80` or above behind them.  The
message left behind is one of these. -/
theorem C69_bytes_splice_partial (l : List (BitVec 7)) (r : List (BitVec 8))
    (hr : ∀ x ∈ r, x.toNat < 128) (f : Feed (BitVec 7)) (items : List (BitVec 7))
    (hf : f.Crashes items) (hint : Nat × Option Nat) (hh : f.hint = some hint) (rb re : Bound)
    (h1 : rb.first ≤ re.last l.length) (h2 : re.last l.length ≤ l.length)
    (turns : Nat) (ht : items.length < turns) :
    ∃ gap rest r', (∀ x ∈ r', x.toNat < 128) ∧
      (Sxb.ops .vec).feedSplice turns (sysexBytes l ++ r) f rb re =
        .crashed (sysexBytes (l.take rb.first ++ items ++ gap ++
          (l.drop (re.last l.length) ++ rest)) ++ r') (items.length + 1) := by
  have hcut := cut l rb.first (re.last l.length) h1
  have hlen : ((l.take (re.last l.length)).drop rb.first).length = re.last l.length - rb.first := by
    simp only [List.length_drop, List.length_take]; omega
  have L : SxLaws (Sxb.ops .vec) _ _ _ _ := Sxb.laws none
  obtain ⟨b', gap, rest, e, R⟩ := (L.feed_crash (s := sysexBytes l ++ r) (s0 := sysexBytes l ++ r)
    hf.1 hh ht rb re (l.take rb.first) ((l.take (re.last l.length)).drop rb.first)
    (l.drop (re.last l.length)) rfl (by rw [← hcut]; exact clean_of hr (by simp))
    (by rw [spliceBegin_eq, List.length_take]; omega)
    (by rw [← hcut, spliceEnd_eq, List.length_take, hlen]; omega) (.inl rfl)).1
    (fun c hc => by cases hc) hf.2
  obtain ⟨r', rfl, hr', -⟩ := clean_out R
  exact ⟨gap, rest, r', hr', (feedSplice_crashed e).1⟩

example : ∃ gap rest r', (∀ x ∈ r', x.toNat < 128) ∧
    (Sxb.ops .vec).feedSplice 9 (sysexBytes [1, 2, 3, 4] ++ []) crashingFeed (.included 1) (.included 1) =
      .crashed (sysexBytes ([1] ++ [0x11, 0x12] ++ gap ++ ([3, 4] ++ rest)) ++ r') 3 :=
  C69_bytes_splice_partial [1, 2, 3, 4] [] (by decide) crashingFeed [0x11, 0x12] crashingFeed_crashes _ rfl
    (.included 1) (.included 1) (by decide) (by decide) 9 (by decide)

/-- C69: byte messages over buffers of fixed size, with the size hints of C22. -/
theorem C69_bytes_try_splice_partial (l : List (BitVec 7)) (r : List (BitVec 8))
    (hr : ∀ x ∈ r, x.toNat < 128) (f : Feed (BitVec 7)) (items : List (BitVec 7))
    (hf : f.Crashes items) (hint : Nat × Option Nat) (hh : f.hint = some hint) (rb re : Bound)
    (h1 : rb.first ≤ re.last l.length) (h2 : re.last l.length ≤ l.length)
    (hx : rb.first = re.last l.length ∨ items.length ≤ hint.2.getD hint.1 ∨
      (re.last l.length - rb.first ≤ hint.2.getD hint.1 ∧
        l.length - (re.last l.length - rb.first) + 2 * items.length ≤ l.length + r.length))
    (hfit : (spliced l rb.first (re.last l.length) items).length ≤ l.length + r.length)
    (turns : Nat) (ht : items.length < turns) :
    ∃ gap rest r', (∀ x ∈ r', x.toNat < 128) ∧
      (Sxb.ops .fixed).feedTrySplice turns (sysexBytes l ++ r) f rb re =
        .crashed (sysexBytes (l.take rb.first ++ items ++ gap ++
          (l.drop (re.last l.length) ++ rest)) ++ r') (items.length + 1) ∧
      (sysexBytes (l.take rb.first ++ items ++ gap ++
          (l.drop (re.last l.length) ++ rest)) ++ r').length = (sysexBytes l ++ r).length := by
  have hcut := cut l rb.first (re.last l.length) h1
  have hlen : ((l.take (re.last l.length)).drop rb.first).length = re.last l.length - rb.first := by
    simp only [List.length_drop, List.length_take]; omega
  have he : hint.2.getD hint.1 = hintEstimate hint := by
    obtain ⟨lo, up⟩ := hint
    cases up <;> rfl
  have hbl : (sysexBytes l ++ r).length = l.length + 2 + r.length := by
    rw [List.length_append, sysexBytes_length]
  have L : SxLaws (Sxb.ops .fixed) _ _ _ _ := Sxb.laws (some (sysexBytes l ++ r).length)
  obtain ⟨b', gap, rest, e, R⟩ := (L.feed_crash (s := sysexBytes l ++ r) (s0 := sysexBytes l ++ r)
    hf.1 hh ht rb re (l.take rb.first) ((l.take (re.last l.length)).drop rb.first)
    (l.drop (re.last l.length)) rfl
    (by rw [← hcut]; exact clean_of hr (fun _ h => Option.some.inj h))
    (by rw [spliceBegin_eq, List.length_take]; omega)
    (by rw [← hcut, spliceEnd_eq, List.length_take, hlen]; omega) (by
      rcases hx with h | h | h
      · exact .inr (.inl (List.eq_nil_of_length_eq_zero (by rw [hlen]; omega)))
      · exact .inr (.inr (.inl (by rw [← he]; exact h)))
      · refine .inr (.inr (.inr ⟨.inl (by rw [hlen, ← he]; exact h.1), ?_⟩))
        intro c hc
        cases hc
        show _ ≤ (sysexBytes l ++ r).length - 2
        rw [List.length_take, List.length_drop]
        omega)).1 (by
      intro c hc
      cases hc
      show (spliced l rb.first (re.last l.length) items).length ≤ (sysexBytes l ++ r).length - 2
      omega) hf.2
  obtain ⟨r', rfl, hr', hN⟩ := clean_out R
  exact ⟨gap, rest, r', hr', (feedSplice_crashed e).2, hN _ rfl⟩

example : (Sxb.ops .fixed).feedTrySplice 9 [0xF0, 1, 2, 3, 4, 0xF7, 0, 0] crashingFeed (.included 1)
      (.excluded 1) = .crashed [0xF0, 1, 0x11, 0x12, 2, 3, 4, 0xF7] 3 := by decide +kernel

/-- C69: `set_payload` on any accepted byte message over a growable buffer. -/
theorem C69_bytes_set_payload (b : Buf .bytes) (h : Sxb.tryFrom b = .ok b) (f : Feed (BitVec 7))
    (items : List (BitVec 7)) (hf : f.Crashes items) (hint : Nat × Option Nat)
    (hh : f.hint = some hint) (turns : Nat) (ht : items.length < turns) :
    ∃ gap r', (∀ x ∈ r', x.toNat < 128) ∧
      (Sxb.ops .vec).feedSetPayload turns b f =
        .crashed (sysexBytes (items ++ gap) ++ r') (items.length + 1) := by
  obtain ⟨p, rest, rfl, hp⟩ := accepted_raw h
  obtain ⟨gap, rest', r', hr', e⟩ := C69_bytes_splice_partial [] [] (by simp) f items hf hint hh
    (.included 0) (.excluded 0) (by simp [Bound.first, Bound.last]) (by simp [Bound.last]) turns ht
  refine ⟨gap ++ rest', r', hr', ?_⟩
  unfold SxOps.feedSetPayload
  show (Run.of (do return (← Sxb.resizeVec (Sxb.raw p rest) 0, none) : Res (Buf .bytes × Option Nat))
    >>= _) = _
  rw [Sxb.resizeVec_zero hp]
  simp only [Res.ok_bind, Res.pure_eq, Run.of_ok, Run.ok_bind]
  have e' : (Sxb.ops .vec).feedInsert turns (Sxb.raw [] []) f 0 = _ := e
  rw [e']
  simp [Bound.first, Bound.last]

example : (Sxb.ops .vec).feedSplice 9 [0xF0, 1, 2, 3, 4, 0xF7] crashingFeed (.included 1)
      (.included 1) = .crashed [0xF0, 1, 0x11, 0x12, 4, 3, 4, 0xF7] 3 := by decide +kernel

/-! ## C70: how often the iterator is asked -/

theorem Run.of_bind {S α γ : Type} (x : Res α) (f : α → Res γ) :
    (Run.of (x >>= f) : Run S γ) = Run.of x >>= fun a => Run.of (f a) := by
  cases x <;> rfl

theorem Run.bind_assoc {S α γ δ : Type} (x : Run S α) (f : α → Run S γ) (g : γ → Run S δ) :
    (x >>= f) >>= g = x >>= fun a => f a >>= g := by
  cases x <;> rfl

theorem feedSplice_ends {S β : Type} (ops : SxOps S β) {f : Feed β} {l : List β} (hf : f.Ends l)
    {hint : Nat × Option Nat} (hh : f.hint = some hint) {turns : Nat} (ht : l.length < turns)
    (s : S) (rb re : Bound) :
    ops.feedSplice turns s f rb re =
      (Run.of (ops.splice s ⟨l, hint.1, hint.2⟩ rb re) >>= fun s' => .ok (s', l.length + 1)) := by
  obtain ⟨calls, -, e, hc⟩ := ops.feedDetail_ends hf hh ht s rb re
  unfold SxOps.feedSplice SxOps.splice
  rw [e, Run.of_bind]
  cases hd : ops.trySpliceDetail s ⟨l, hint.1, hint.2⟩ rb re with
  | err e => rfl
  | panic => rfl
  | ok x =>
    obtain ⟨s', r⟩ := x
    cases r with
    | some e => rfl
    | none => rw [hc s' hd]; rfl

theorem feedTrySplice_ends {S β : Type} (ops : SxOps S β) {f : Feed β} {l : List β}
    (hf : f.Ends l) {hint : Nat × Option Nat} (hh : f.hint = some hint) {turns : Nat}
    (ht : l.length < turns) (s : S) (rb re : Bound) :
    ∃ calls, calls ≤ l.length + 1 ∧
      ops.feedTrySplice turns s f rb re =
        (Run.of (ops.trySplice s ⟨l, hint.1, hint.2⟩ rb re) >>= fun x => .ok (x.1, x.2, calls)) ∧
      ∀ s', ops.trySplice s ⟨l, hint.1, hint.2⟩ rb re = .ok (s', none) → calls = l.length + 1 := by
  obtain ⟨calls, h1, e, hc⟩ := ops.feedDetail_ends hf hh ht s rb re
  refine ⟨calls, h1, ?_, ?_⟩
  · unfold SxOps.feedTrySplice SxOps.trySplice
    rw [e, Run.of_bind]
    cases hd : ops.trySpliceDetail s ⟨l, hint.1, hint.2⟩ rb re with
    | err e => rfl
    | panic => rfl
    | ok x =>
      obtain ⟨s', r⟩ := x
      cases r with
      | none => rfl
      | some e =>
        simp only [Run.of_ok, Run.ok_bind]
        cases ops.resize s' 0 with
        | err e => rfl
        | panic => rfl
        | ok y => obtain ⟨s2, _ | _⟩ := y <;> rfl
  · intro s' h
    unfold SxOps.trySplice at h
    cases hd : ops.trySpliceDetail s ⟨l, hint.1, hint.2⟩ rb re with
    | err e => rw [hd] at h; cases h
    | panic => rw [hd] at h; cases h
    | ok x =>
      obtain ⟨s2, r⟩ := x
      cases r with
      | none => exact hc s2 hd
      | some e =>
        rw [hd] at h
        simp only [Res.ok_bind] at h
        cases hr : ops.resize s2 0 with
        | err e => rw [hr] at h; cases h
        | panic => rw [hr] at h; cases h
        | ok y => rw [hr] at h; obtain ⟨s3, _ | _⟩ := y <;> cases h

/-- C70: with an iterator that returns the items of a list and then `None`, every call over a
growable buffer does what it does with the list and the same size hint, on every buffer, panics
included.  When it returns, `next` was called once for each item and once for the `None`; an
iterator that is not fused is not asked again. -/
theorem C70_list {S β : Type} (ops : SxOps S β) (f : Feed β) (l : List β) (hf : f.Ends l)
    (hint : Nat × Option Nat) (hh : f.hint = some hint) (turns : Nat) (ht : l.length < turns)
    (s : S) :
    (∀ rb re, ops.feedSplice turns s f rb re =
      (Run.of (ops.splice s ⟨l, hint.1, hint.2⟩ rb re) >>= fun s' => .ok (s', l.length + 1))) ∧
    (∀ i, ops.feedInsert turns s f i =
      (Run.of (ops.insert s ⟨l, hint.1, hint.2⟩ i) >>= fun s' => .ok (s', l.length + 1))) ∧
    ops.feedAppend turns s f =
      (Run.of (ops.append s ⟨l, hint.1, hint.2⟩) >>= fun s' => .ok (s', l.length + 1)) ∧
    ops.feedSetPayload turns s f =
      (Run.of (ops.setPayload s ⟨l, hint.1, hint.2⟩) >>= fun s' => .ok (s', l.length + 1)) := by
  refine ⟨fun rb re => feedSplice_ends ops hf hh ht s rb re,
    fun i => feedSplice_ends ops hf hh ht s _ _, ?_, ?_⟩
  · unfold SxOps.feedAppend SxOps.append
    rw [Run.of_bind, Run.bind_assoc]
    cases ops.payloadSize s with
    | err e => rfl
    | panic => rfl
    | ok n => exact feedSplice_ends ops hf hh ht s _ _
  · unfold SxOps.feedSetPayload SxOps.setPayload
    rw [Run.of_bind, Run.bind_assoc]
    cases ops.resize s 0 with
    | err e => rfl
    | panic => rfl
    | ok x =>
      obtain ⟨s1, _ | n⟩ := x
      · exact feedSplice_ends ops hf hh ht s1 _ _
      · rfl

/-- C70: the same for the `try_` calls over buffers of fixed size.  They call `next` at most once
for each item and once for the `None`, and exactly so when they succeed. -/
theorem C70_try_list {S β : Type} (ops : SxOps S β) (f : Feed β) (l : List β) (hf : f.Ends l)
    (hint : Nat × Option Nat) (hh : f.hint = some hint) (turns : Nat) (ht : l.length < turns)
    (s : S) :
    (∀ rb re, ∃ calls, calls ≤ l.length + 1 ∧
      ops.feedTrySplice turns s f rb re =
        (Run.of (ops.trySplice s ⟨l, hint.1, hint.2⟩ rb re) >>= fun x => .ok (x.1, x.2, calls)) ∧
      ∀ s', ops.trySplice s ⟨l, hint.1, hint.2⟩ rb re = .ok (s', none) → calls = l.length + 1) ∧
    (∀ i, ∃ calls, calls ≤ l.length + 1 ∧
      ops.feedTryInsert turns s f i =
        (Run.of (ops.tryInsert s ⟨l, hint.1, hint.2⟩ i) >>= fun x => .ok (x.1, x.2, calls)) ∧
      ∀ s', ops.tryInsert s ⟨l, hint.1, hint.2⟩ i = .ok (s', none) → calls = l.length + 1) ∧
    (∃ calls, calls ≤ l.length + 1 ∧
      ops.feedTryAppend turns s f =
        (Run.of (ops.tryAppend s ⟨l, hint.1, hint.2⟩) >>= fun x => .ok (x.1, x.2, calls)) ∧
      ∀ s', ops.tryAppend s ⟨l, hint.1, hint.2⟩ = .ok (s', none) → calls = l.length + 1) ∧
    (∃ calls, calls ≤ l.length + 1 ∧
      ops.feedTrySetPayload turns s f =
        (Run.of (ops.trySetPayload s ⟨l, hint.1, hint.2⟩) >>= fun x => .ok (x.1, x.2, calls)) ∧
      ∀ s', ops.trySetPayload s ⟨l, hint.1, hint.2⟩ = .ok (s', none) → calls = l.length + 1) := by
  refine ⟨fun rb re => feedTrySplice_ends ops hf hh ht s rb re,
    fun i => feedTrySplice_ends ops hf hh ht s _ _, ?_, ?_⟩
  · unfold SxOps.feedTryAppend SxOps.tryAppend
    cases ops.payloadSize s with
    | err e => exact ⟨0, Nat.zero_le _, rfl, fun s' h => by cases h⟩
    | panic => exact ⟨0, Nat.zero_le _, rfl, fun s' h => by cases h⟩
    | ok n => exact feedTrySplice_ends ops hf hh ht s _ _
  · unfold SxOps.feedTrySetPayload SxOps.trySetPayload
    cases ops.resize s 0 with
    | err e => exact ⟨0, Nat.zero_le _, rfl, fun s' h => by cases h⟩
    | panic => exact ⟨0, Nat.zero_le _, rfl, fun s' h => by cases h⟩
    | ok x =>
      obtain ⟨s1, _ | n⟩ := x
      · exact feedTrySplice_ends ops hf hh ht s1 _ _
      · exact ⟨0, Nat.zero_le _, rfl, fun s' h => by cases h⟩

/-- C70: `splice_payload` with an iterator that ends, on a message that can be spliced: the
payload is spliced, and the message can be spliced again. -/
theorem C70_splice_partial (k : Sx) (dbg : Bool) (b : Buf .ump) (g : BitVec 4) (l : List k.Byte)
    (R : k.Ready dbg false b g l) (f : Feed k.Byte) (items : List k.Byte) (hf : f.Ends items)
    (hint : Nat × Option Nat) (hh : f.hint = some hint) (rb re : Bound)
    (h1 : rb.first ≤ re.last l.length) (h2 : re.last l.length ≤ l.length)
    (turns : Nat) (ht : items.length < turns) :
    ∃ b', (k.ops dbg .vec).feedSplice turns b f rb re = .ok (b', items.length + 1) ∧
      k.Ready dbg false b' g (spliced l rb.first (re.last l.length) items) := by
  obtain ⟨b0, e0, L⟩ := Ready.start (N := none) R (by simp)
  obtain ⟨b', e, S⟩ := splice_vec k (inv_true k) e0 L ⟨items, hint.1, hint.2⟩ rb re h1 h2
  refine ⟨b', ?_, Loose.ready (N := none) ⟨⟨_, S.packed⟩, S.whole⟩⟩
  rw [feedSplice_ends _ hf hh ht, e]
  rfl

/-- C70: what the iterator gives does not fit a buffer of fixed size.  Then `try_splice_payload`
says so and empties the payload, after asking for no more than the first items that do not fit;
so it does not matter whether the iterator would panic later or never end. -/
theorem C70_overflow_partial (k : Sx) (dbg : Bool) (b : Buf .ump) (g : BitVec 4)
    (l : List k.Byte) (R : k.Ready dbg true b g l) (f : Feed k.Byte) (items : List k.Byte)
    (hf : f.Yields items) (hint : Nat × Option Nat) (hh : f.hint = some hint) (rb re : Bound)
    (h1 : rb.first ≤ re.last l.length) (h2 : re.last l.length ≤ l.length)
    (hfit : 4 * b.length <
      k.layout.wireLength (spliced l rb.first (re.last l.length) items).length)
    (turns : Nat) (ht : items.length < turns) :
    ∃ b' calls, (k.ops dbg .fixed).feedTrySplice turns b f rb re =
        .ok (b', some .bufferOverflow, calls) ∧
      calls ≤ items.length ∧ b'.length = b.length ∧ k.Holds b' g [] ∧ k.Ready dbg true b' g [] := by
  obtain ⟨b0, e0, L⟩ := Ready.start (N := some b.length) R (by simp)
  rw [wireLength_eq] at hfit
  obtain ⟨b1, l1, calls, hc, e1, L1⟩ := (feed_crash_fixed R.stride_le e0 L hf hh rb re h1 h2
    ht).2 (by omega)
  have A : SxLawsAll (k.ops dbg .fixed) _ _ _ := laws k dbg g (some b.length) (inv_true k)
  obtain ⟨b', e2, S⟩ := A.toLaws.shrink 0 L1 (Nat.zero_le _)
  refine ⟨b', calls, ?_, hc, S.whole.fixed _ rfl, S.holds,
    Loose.ready (N := some b.length) ⟨⟨_, S.packed⟩, S.whole⟩⟩
  unfold SxOps.feedTrySplice
  rw [e1]
  simp only [Run.ok_bind]
  rw [e2]
  rfl

/-- C70: an iterator that never ends, on a growable buffer: `splice_payload` asks for ever.  The
model has no bound on memory; a real buffer runs out of it. -/
theorem C70_endless_partial (k : Sx) (dbg : Bool) (b : Buf .ump) (g : BitVec 4) (l : List k.Byte)
    (R : k.Ready dbg false b g l) (f : Feed k.Byte) (hf : f.Endless)
    (hint : Nat × Option Nat) (hh : f.hint = some hint) (rb re : Bound)
    (h1 : rb.first ≤ re.last l.length) (h2 : re.last l.length ≤ l.length) (turns : Nat) :
    (k.ops dbg .vec).feedSplice turns b f rb re = .running := by
  obtain ⟨b0, e0, L⟩ := Ready.start (N := none) R (by simp)
  unfold SxOps.feedSplice
  rw [(k.ops dbg .vec).feedDetail_endless hf hh b rb re (fun items => ?_) turns]
  · rfl
  · obtain ⟨b', e, -⟩ := splice_vec k (inv_true k) e0 L ⟨items, hint.1, hint.2⟩ rb re h1 h2
    unfold SxOps.splice at e
    cases hd : (k.ops dbg .vec).trySpliceDetail b ⟨items, hint.1, hint.2⟩ rb re with
    | err x => rw [hd] at e; cases e
    | panic => rw [hd] at e; cases e
    | ok x =>
      rw [hd] at e
      obtain ⟨s, _ | r⟩ := x
      · exact ⟨s, rfl⟩
      · cases e

-- C70: an iterator that is not fused, and one that never ends.
def wakingFeed : Feed (BitVec 7) :=
  ⟨some (3, some 3), fun n => if n = 0 then .item 0x11 else if n = 1 then .none else .panic⟩

def endlessFeed : Feed (BitVec 7) := ⟨some (0, none), fun _ => .item 0x11⟩

example : wakingFeed.Ends [0x11] := by
  refine ⟨fun i hi => ?_, rfl⟩
  have : i = 0 := by simpa using hi
  subst this
  rfl

example : endlessFeed.Endless := fun _ => ⟨0x11, rfl⟩

example : (Sx.s7.ops true .vec).feedSplice 9 [0x30160001, 0x02030405, 0x30320607, 0] wakingFeed
      (.included 4) (.included 5) = .ok ([0x30160001, 0x02031106, 0x30310700, 0], 2) := by
  decide +kernel

example : (Sx.s7.ops true .fixed).feedTrySplice 9 [0x30160001, 0x02030405, 0x30320607, 0]
      endlessFeed (.included 4) (.included 5) =
    .ok ([0x30000001, 0x02031111, 0x30361111, 0], some .bufferOverflow, 7) := by decide +kernel

/-! ### Byte messages -/

/-- C70: byte messages over growable buffers, with an iterator that ends. -/
theorem C70_bytes_splice_partial (l : List (BitVec 7)) (r : List (BitVec 8))
    (hr : ∀ x ∈ r, x.toNat < 128) (f : Feed (BitVec 7)) (items : List (BitVec 7))
    (hf : f.Ends items) (hint : Nat × Option Nat) (hh : f.hint = some hint) (rb re : Bound)
    (h1 : rb.first ≤ re.last l.length) (h2 : re.last l.length ≤ l.length)
    (turns : Nat) (ht : items.length < turns) :
    (Sxb.ops .vec).feedSplice turns (sysexBytes l ++ r) f rb re =
      .ok (sysexBytes (spliced l rb.first (re.last l.length) items), items.length + 1) := by
  rw [feedSplice_ends _ hf hh ht, (C21_bytes_splice_partial _ l r rfl hr ⟨items, hint.1, hint.2⟩).1
    rb re h1 h2]
  rfl

/-- C70: byte messages over buffers of fixed size, with an iterator that gives too much. -/
theorem C70_bytes_overflow_partial (l : List (BitVec 7)) (r : List (BitVec 8))
    (hr : ∀ x ∈ r, x.toNat < 128) (f : Feed (BitVec 7)) (items : List (BitVec 7))
    (hf : f.Yields items) (hint : Nat × Option Nat) (hh : f.hint = some hint) (rb re : Bound)
    (h1 : rb.first ≤ re.last l.length) (h2 : re.last l.length ≤ l.length)
    (hx : rb.first = re.last l.length ∨ items.length ≤ hint.2.getD hint.1)
    (hfit : l.length + r.length < (spliced l rb.first (re.last l.length) items).length)
    (turns : Nat) (ht : items.length < turns) :
    ∃ rest calls, (Sxb.ops .fixed).feedTrySplice turns (sysexBytes l ++ r) f rb re =
        .ok (sysexBytes [] ++ rest, some .bufferOverflow, calls) ∧ calls ≤ items.length ∧
      (sysexBytes [] ++ rest).length = (sysexBytes l ++ r).length := by
  have hcut := cut l rb.first (re.last l.length) h1
  have hlen : ((l.take (re.last l.length)).drop rb.first).length = re.last l.length - rb.first := by
    simp only [List.length_drop, List.length_take]; omega
  have he : hint.2.getD hint.1 = hintEstimate hint := by
    obtain ⟨lo, up⟩ := hint
    cases up <;> rfl
  have hbl : (sysexBytes l ++ r).length = l.length + 2 + r.length := by
    rw [List.length_append, sysexBytes_length]
  have L : SxLaws (Sxb.ops .fixed) _ _ _ _ := Sxb.laws (some (sysexBytes l ++ r).length)
  obtain ⟨b1, l1, calls, hc, e1, R1⟩ := (L.feed_crash (s := sysexBytes l ++ r)
    (s0 := sysexBytes l ++ r) hf hh ht rb re (l.take rb.first)
    ((l.take (re.last l.length)).drop rb.first)
    (l.drop (re.last l.length)) rfl
    (by rw [← hcut]; exact clean_of hr (fun _ h => Option.some.inj h))
    (by rw [spliceBegin_eq, List.length_take]; omega)
    (by rw [← hcut, spliceEnd_eq, List.length_take, hlen]; omega) (by
      rcases hx with h | h
      · exact .inr (.inl (List.eq_nil_of_length_eq_zero (by rw [hlen]; omega)))
      · exact .inr (.inr (.inl (by rw [← he]; exact h))))).2 (by
      intro hF
      have hF := hF _ rfl
      change (spliced l rb.first (re.last l.length) items).length ≤ (sysexBytes l ++ r).length - 2
        at hF
      omega)
  obtain ⟨b', e2, Z⟩ := L.shrink 0 R1 (Nat.zero_le _)
  obtain ⟨rest, hb, -, hN⟩ := Z
  have hb' : b' = sysexBytes [] ++ rest := by rw [hb]; exact raw_eq [] rest
  subst hb'
  refine ⟨rest, calls, ?_, hc, ?_⟩
  · unfold SxOps.feedTrySplice
    rw [e1]
    simp only [Run.ok_bind]
    rw [e2]
    rfl
  · exact hN _ rfl

/-- C70: byte messages over growable buffers, with an iterator that never ends. -/
theorem C70_bytes_endless_partial (l : List (BitVec 7)) (r : List (BitVec 8))
    (hr : ∀ x ∈ r, x.toNat < 128) (f : Feed (BitVec 7)) (hf : f.Endless)
    (hint : Nat × Option Nat) (hh : f.hint = some hint) (rb re : Bound)
    (h1 : rb.first ≤ re.last l.length) (h2 : re.last l.length ≤ l.length) (turns : Nat) :
    (Sxb.ops .vec).feedSplice turns (sysexBytes l ++ r) f rb re = .running := by
  unfold SxOps.feedSplice
  rw [(Sxb.ops .vec).feedDetail_endless hf hh _ rb re (fun items => ?_) turns]
  · rfl
  · have e := (C21_bytes_splice_partial _ l r rfl hr ⟨items, hint.1, hint.2⟩).1 rb re h1 h2
    unfold SxOps.splice at e
    cases hd : (Sxb.ops .vec).trySpliceDetail (sysexBytes l ++ r) ⟨items, hint.1, hint.2⟩ rb re with
    | err x => rw [hd] at e; cases e
    | panic => rw [hd] at e; cases e
    | ok x =>
      rw [hd] at e
      obtain ⟨s, _ | r⟩ := x
      · exact ⟨s, rfl⟩
      · cases e

example : (Sxb.ops .fixed).feedTrySplice 9 [0xF0, 1, 2, 0xF7, 0] endlessFeed (.included 2)
      (.excluded 2) = .ok ([0xF0, 0xF7, 2, 0x11, 0xF7], some .bufferOverflow, 2) := by
  decide +kernel

end Midi2
