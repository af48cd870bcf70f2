import Verif.Lemmas.LazyOctet
import Verif.Props.Lazy
import Verif.Props.Effort
import Verif.Props.SysexBytesAny

/-!
# C69, C70, C71: the caller's iterator, and any byte message

`F0 p F7 r` is every accepted slice: `p` the bytes before the first `F7`, whether below `0x80` or
not, and `r` whatever follows it.
-/

namespace Midi2

open Sxb (e raw)

theorem clean8_out {N : Option Nat} {b : Buf .bytes} {l : List Sxb.Oct} (h : Sxb.Clean8 N b l) :
    ∃ r : List (BitVec 8), b = raw (l.map Subtype.val) r ∧ Sxb.endByte ∉ r ∧
      ∀ n, N = some n → b.length = n := by
  obtain ⟨r, rfl, hN⟩ := h
  exact ⟨_, rfl, Sxb.end_notin8 r, hN⟩

/-- C69: the iterator of `splice_payload` panics after some items, over a growable buffer with no
`F7` behind the message.  The message left behind is complete, and has no `F7` behind it. -/
theorem C69_bytes_any_splice_partial (b : Buf .bytes) (p r : List (BitVec 8))
    (hb : b = 0xF0 :: p ++ 0xF7 :: r) (hp : (0xF7 : BitVec 8) ∉ p) (hr : (0xF7 : BitVec 8) ∉ r)
    (f : Feed (BitVec 7)) (items : List (BitVec 7)) (hf : f.Crashes items) (hint : Nat × Option Nat)
    (hh : f.hint = some hint) (rb re : Bound)
    (h1 : rb.first ≤ re.last p.length) (h2 : re.last p.length ≤ p.length)
    (turns : Nat) (ht : items.length < turns) :
    ∃ gap rest r', (0xF7 : BitVec 8) ∉ gap ∧ (0xF7 : BitVec 8) ∉ rest ∧ (0xF7 : BitVec 8) ∉ r' ∧
      (Sxb.ops .vec).feedSplice turns b f rb re =
        .crashed (0xF0 :: (p.take rb.first ++ (items.map fun v => v.setWidth 8) ++ gap ++
          (p.drop (re.last p.length) ++ rest)) ++ 0xF7 :: r') (items.length + 1) := by
  have hb' : b = raw p r := hb
  subst hb'
  obtain ⟨l, rfl⟩ := Sxb.octs_map hp
  obtain ⟨r, rfl⟩ := Sxb.octs_map hr
  rw [List.length_map] at h1 h2 ⊢
  have hcut := Sx.cut l rb.first (re.last l.length) h1
  have hlen : ((l.take (re.last l.length)).drop rb.first).length = re.last l.length - rb.first := by
    simp only [List.length_drop, List.length_take]; omega
  have L : SxLaws (Sxb.ops8 .vec) _ _ _ _ := Sxb.laws8 none
  obtain ⟨b', gap, rest, e, R⟩ := (L.feed_crash
    (s := raw (l.map Subtype.val) (r.map Subtype.val)) (s0 := raw (l.map Subtype.val) (r.map Subtype.val))
    (Feed.map_yields Sxb.oct hf.1) (f := f.map Sxb.oct) (h := hint) hh (turns := turns)
    (by rw [List.length_map]; exact ht) rb re (l.take rb.first)
    ((l.take (re.last l.length)).drop rb.first) (l.drop (re.last l.length)) rfl
    (by rw [← hcut]; exact ⟨r, rfl, fun _ h => by cases h⟩)
    (by rw [Sx.spliceBegin_eq, List.length_take]; omega)
    (by rw [← hcut, Sx.spliceEnd_eq, List.length_take, hlen]; omega) (.inl rfl)).1
    (fun c hc => by cases hc) (Feed.map_crashes Sxb.oct hf).2
  obtain ⟨r', rfl, hr', -⟩ := clean8_out R
  refine ⟨gap.map Subtype.val, rest.map Subtype.val, r', Sxb.end_notin8 _, Sxb.end_notin8 _, hr', ?_⟩
  rw [Sxb.ops_contra, SxOps.feedSplice_contra, (feedSplice_crashed e).1, List.length_map]
  simp only [List.map_append, List.map_take, List.map_drop, Sxb.oct_map]
  rfl

example : ∃ gap rest r', (0xF7 : BitVec 8) ∉ gap ∧ (0xF7 : BitVec 8) ∉ rest ∧ (0xF7 : BitVec 8) ∉ r' ∧
    (Sxb.ops .vec).feedSplice 9 [0xF0, 1, 0x92, 3, 0x84, 0xF7, 0xFF] crashingFeed (.included 1) (.included 1) =
      .crashed (0xF0 :: ([1] ++ [0x11, 0x12] ++ gap ++ ([3, 0x84] ++ rest)) ++ 0xF7 :: r') 3 :=
  C69_bytes_any_splice_partial _ [1, 0x92, 3, 0x84] [0xFF] rfl (by decide) (by decide) crashingFeed [0x11, 0x12]
    crashingFeed_crashes _ rfl (.included 1) (.included 1) (by decide) (by decide) 9 (by decide)

/-- The state of a fixed buffer. -/
theorem feed_fixed (p r : List (BitVec 8)) (hp : Sxb.endByte ∉ p) (hr : Sxb.endByte ∉ r)
    (f : Feed (BitVec 7)) (items : List (BitVec 7)) (hf : f.Yields items) (hint : Nat × Option Nat)
    (hh : f.hint = some hint) (rb re : Bound)
    (h1 : rb.first ≤ re.last p.length) (h2 : re.last p.length ≤ p.length)
    (hx : rb.first = re.last p.length ∨ items.length ≤ hint.2.getD hint.1 ∨
      (re.last p.length - rb.first ≤ hint.2.getD hint.1 ∧
        p.length - (re.last p.length - rb.first) + 2 * items.length ≤ p.length + r.length))
    (turns : Nat) (ht : items.length < turns) :
    ((spliced p rb.first (re.last p.length) (items.map e)).length ≤ p.length + r.length →
      f.poll items.length = .panic →
      ∃ gap rest r', Sxb.endByte ∉ gap ∧ Sxb.endByte ∉ rest ∧ Sxb.endByte ∉ r' ∧
        (Sxb.ops .fixed).feedDetail turns (raw p r) f rb re =
          .crashed (raw (p.take rb.first ++ items.map e ++ gap ++ (p.drop (re.last p.length) ++ rest)) r')
            (items.length + 1) ∧
        (raw (p.take rb.first ++ items.map e ++ gap ++ (p.drop (re.last p.length) ++ rest)) r').length =
          (raw p r).length) ∧
    (p.length + r.length < (spliced p rb.first (re.last p.length) (items.map e)).length →
      ∃ rest calls, (Sxb.ops .fixed).feedTrySplice turns (raw p r) f rb re =
          .ok (raw [] rest, some .bufferOverflow, calls) ∧ calls ≤ items.length ∧
        (raw [] rest).length = (raw p r).length) := by
  obtain ⟨l, rfl⟩ := Sxb.octs_map hp
  obtain ⟨r, rfl⟩ := Sxb.octs_map hr
  simp only [List.length_map] at h1 h2 hx ⊢
  have hcut := Sx.cut l rb.first (re.last l.length) h1
  have hlen : ((l.take (re.last l.length)).drop rb.first).length = re.last l.length - rb.first := by
    simp only [List.length_drop, List.length_take]; omega
  have he : hint.2.getD hint.1 = hintEstimate hint := by
    obtain ⟨lo, up⟩ := hint
    cases up <;> rfl
  have hbl : (raw (l.map Subtype.val) (r.map Subtype.val)).length = l.length + r.length + 2 := Sxb.length_raw8 l r
  have hnl : (spliced (l.map Subtype.val) rb.first (re.last l.length) (items.map e)).length =
      (l.take rb.first ++ items.map Sxb.oct ++ l.drop (re.last l.length)).length := by
    unfold spliced
    simp only [List.length_append, List.length_take, List.length_drop, List.length_map]
  have L : SxLaws (Sxb.ops8 .fixed) _ _ _ _ :=
    Sxb.laws8 (some (raw (l.map Subtype.val) (r.map Subtype.val)).length)
  have key := L.feed_crash
    (s := raw (l.map Subtype.val) (r.map Subtype.val)) (s0 := raw (l.map Subtype.val) (r.map Subtype.val))
    (Feed.map_yields Sxb.oct hf) (f := f.map Sxb.oct) (h := hint) hh (turns := turns)
    (by rw [List.length_map]; exact ht) rb re (l.take rb.first)
    ((l.take (re.last l.length)).drop rb.first) (l.drop (re.last l.length)) rfl
    (by rw [← hcut]; exact ⟨r, rfl, fun _ h => Option.some.inj h⟩)
    (by rw [Sx.spliceBegin_eq, List.length_take]; omega)
    (by rw [← hcut, Sx.spliceEnd_eq, List.length_take, hlen]; omega) (by
      rw [List.length_map]
      rcases hx with h | h | h
      · exact .inr (.inl (List.eq_nil_of_length_eq_zero (by rw [hlen]; omega)))
      · exact .inr (.inr (.inl (by rw [← he]; exact h)))
      · refine .inr (.inr (.inr ⟨.inl (by rw [hlen, ← he]; exact h.1), ?_⟩))
        intro c hc
        cases hc
        show _ ≤ (raw (l.map Subtype.val) (r.map Subtype.val)).length - 2
        rw [List.length_take, List.length_drop]
        omega)
  rw [List.length_map] at key
  rw [← SxOps.feedDetail_contra, ← Sxb.ops_contra] at key
  refine ⟨fun hfit hpan => ?_, fun hfit => ?_⟩
  · obtain ⟨b', gap, rest, ee, R⟩ := key.1 (by
      intro c hc
      cases hc
      show _ ≤ (raw (l.map Subtype.val) (r.map Subtype.val)).length - 2
      omega) (by show (f.poll items.length).map Sxb.oct = _; rw [hpan]; rfl)
    obtain ⟨r', rfl, hr', hN⟩ := clean8_out R
    have hm : (l.take rb.first ++ items.map Sxb.oct ++ gap ++ (l.drop (re.last l.length) ++ rest)).map Subtype.val =
        (l.map Subtype.val).take rb.first ++ items.map e ++ gap.map Subtype.val ++
          ((l.map Subtype.val).drop (re.last l.length) ++ rest.map Subtype.val) := by
      simp only [List.map_append, List.map_take, List.map_drop, Sxb.oct_map]
    rw [hm] at ee hN
    exact ⟨gap.map Subtype.val, rest.map Subtype.val, r', Sxb.end_notin8 _, Sxb.end_notin8 _, hr', ee, hN _ rfl⟩
  · obtain ⟨b1, l1, calls, hc, e1, R1⟩ := key.2 (by
      intro hF
      have hF : _ ≤ (raw (l.map Subtype.val) (r.map Subtype.val)).length - 2 := hF _ rfl
      omega)
    obtain ⟨b', e2, Z⟩ := L.shrink 0 R1 (Nat.zero_le _)
    obtain ⟨rest, rfl, -, hN⟩ := Z
    refine ⟨rest, calls, ?_, hc, hN _ rfl⟩
    unfold SxOps.feedTrySplice
    rw [e1]
    simp only [Run.ok_bind]
    have e2' : (Sxb.ops .fixed).resize b1 0 = _ := e2
    rw [e2']
    rfl

/-- C69: the same over buffers of fixed size, with the size hints of C22. -/
theorem C69_bytes_any_try_splice_partial (b : Buf .bytes) (p r : List (BitVec 8))
    (hb : b = 0xF0 :: p ++ 0xF7 :: r) (hp : (0xF7 : BitVec 8) ∉ p) (hr : (0xF7 : BitVec 8) ∉ r)
    (f : Feed (BitVec 7)) (items : List (BitVec 7)) (hf : f.Crashes items) (hint : Nat × Option Nat)
    (hh : f.hint = some hint) (rb re : Bound)
    (h1 : rb.first ≤ re.last p.length) (h2 : re.last p.length ≤ p.length)
    (hx : rb.first = re.last p.length ∨ items.length ≤ hint.2.getD hint.1 ∨
      (re.last p.length - rb.first ≤ hint.2.getD hint.1 ∧
        p.length - (re.last p.length - rb.first) + 2 * items.length + 2 ≤ b.length))
    (hfit : p.length - (re.last p.length - rb.first) + items.length + 2 ≤ b.length)
    (turns : Nat) (ht : items.length < turns) :
    ∃ gap rest r' b', (0xF7 : BitVec 8) ∉ gap ∧ (0xF7 : BitVec 8) ∉ rest ∧ (0xF7 : BitVec 8) ∉ r' ∧
      (Sxb.ops .fixed).feedTrySplice turns b f rb re = .crashed b' (items.length + 1) ∧
      b' = 0xF0 :: (p.take rb.first ++ (items.map fun v => v.setWidth 8) ++ gap ++
        (p.drop (re.last p.length) ++ rest)) ++ 0xF7 :: r' ∧
      b'.length = b.length := by
  have hb' : b = raw p r := hb
  have hbl : b.length = p.length + r.length + 2 := by rw [hb', Sxb.raw_length]
  subst hb'
  obtain ⟨gap, rest, r', q1, q2, q3, ee, el⟩ := (feed_fixed p r hp hr f items hf.1 hint hh rb re h1 h2 (by omega)
    turns ht).1 (by
      unfold spliced
      simp only [List.length_append, List.length_take, List.length_drop, List.length_map]
      omega) hf.2
  exact ⟨gap, rest, r', _, q1, q2, q3, (feedSplice_crashed ee).2, rfl, el⟩

example : ∃ gap rest r' b', (0xF7 : BitVec 8) ∉ gap ∧ (0xF7 : BitVec 8) ∉ rest ∧ (0xF7 : BitVec 8) ∉ r' ∧
    (Sxb.ops .fixed).feedTrySplice 9 [0xF0, 1, 0x92, 3, 0x84, 0xF7, 0xFF, 0] crashingFeed (.included 1) (.excluded 1) =
      .crashed b' 3 ∧
    b' = 0xF0 :: ([1] ++ [0x11, 0x12] ++ gap ++ ([0x92, 3, 0x84] ++ rest)) ++ 0xF7 :: r' ∧ b'.length = 8 :=
  C69_bytes_any_try_splice_partial _ [1, 0x92, 3, 0x84] [0xFF, 0] rfl (by decide) (by decide) crashingFeed
    [0x11, 0x12] crashingFeed_crashes _ rfl (.included 1) (.excluded 1) (by decide) (by decide) (.inl rfl)
    (by decide) 9 (by decide)

/-- C70: any accepted message over a growable buffer, with an iterator that ends, under the condition
of `C21_bytes_any_hint_partial`.  It is asked once more than it has items. -/
theorem C70_bytes_any_splice_partial (b : Buf .bytes) (p r : List (BitVec 8))
    (hb : b = 0xF0 :: p ++ 0xF7 :: r) (hp : (0xF7 : BitVec 8) ∉ p) (f : Feed (BitVec 7))
    (items : List (BitVec 7)) (hf : f.Ends items) (hint : Nat × Option Nat) (hh : f.hint = some hint)
    (rb re : Bound) (h1 : rb.first ≤ re.last p.length) (h2 : re.last p.length ≤ p.length)
    (hs : (0xF7 : BitVec 8) ∉ r.take (hint.2.getD hint.1 - (re.last p.length - rb.first) - 1))
    (turns : Nat) (ht : items.length < turns) :
    (Sxb.ops .vec).feedSplice turns b f rb re =
      .ok (0xF0 :: spliced p rb.first (re.last p.length) (items.map fun v => v.setWidth 8) ++ [0xF7],
        items.length + 1) := by
  rw [feedSplice_ends _ hf hh ht, C21_bytes_any_hint_partial b p r hb hp ⟨items, hint.1, hint.2⟩ _ rfl rb re h1 h2 hs]
  rfl

/-- C70: any accepted message with no `F7` behind it over a buffer of fixed size, with an iterator that
gives too much: it is asked no more often than it has items, and the message is emptied. -/
theorem C70_bytes_any_overflow_partial (b : Buf .bytes) (p r : List (BitVec 8))
    (hb : b = 0xF0 :: p ++ 0xF7 :: r) (hp : (0xF7 : BitVec 8) ∉ p) (hr : (0xF7 : BitVec 8) ∉ r)
    (f : Feed (BitVec 7)) (items : List (BitVec 7)) (hf : f.Yields items) (hint : Nat × Option Nat)
    (hh : f.hint = some hint) (rb re : Bound)
    (h1 : rb.first ≤ re.last p.length) (h2 : re.last p.length ≤ p.length)
    (hx : rb.first = re.last p.length ∨ items.length ≤ hint.2.getD hint.1)
    (hfit : b.length < p.length - (re.last p.length - rb.first) + items.length + 2)
    (turns : Nat) (ht : items.length < turns) :
    ∃ rest calls, (Sxb.ops .fixed).feedTrySplice turns b f rb re =
        .ok (0xF0 :: 0xF7 :: rest, some .bufferOverflow, calls) ∧ calls ≤ items.length ∧
      (0xF0 :: 0xF7 :: rest).length = b.length := by
  have hb' : b = raw p r := hb
  have hbl : b.length = p.length + r.length + 2 := by rw [hb', Sxb.raw_length]
  subst hb'
  exact (feed_fixed p r hp hr f items hf hint hh rb re h1 h2 (hx.imp_right .inl) turns ht).2 (by
    unfold spliced
    simp only [List.length_append, List.length_take, List.length_drop, List.length_map]
    omega)

example : ∃ rest calls, (Sxb.ops .fixed).feedTrySplice 9 [0xF0, 0x91, 2, 0xF7, 0xFF] endlessFeed (.included 2)
      (.excluded 2) = .ok (0xF0 :: 0xF7 :: rest, some .bufferOverflow, calls) ∧ calls ≤ 2 ∧
    (0xF0 :: 0xF7 :: rest).length = 5 :=
  C70_bytes_any_overflow_partial _ [0x91, 2] [0xFF] rfl (by decide) (by decide) endlessFeed [0x11, 0x11]
    (by
      intro i hi
      have : i = 0 ∨ i = 1 := by simp at hi; omega
      rcases this with rfl | rfl <;> rfl) _ rfl (.included 2) (.excluded 2) (by decide) (by decide) (.inl rfl)
    (by decide) 9 (by decide)

/-- C70: any accepted message over a growable buffer, with an iterator that never ends. -/
theorem C70_bytes_any_endless_partial (b : Buf .bytes) (p r : List (BitVec 8))
    (hb : b = 0xF0 :: p ++ 0xF7 :: r) (hp : (0xF7 : BitVec 8) ∉ p) (f : Feed (BitVec 7)) (hf : f.Endless)
    (hint : Nat × Option Nat) (hh : f.hint = some hint)
    (rb re : Bound) (h1 : rb.first ≤ re.last p.length) (h2 : re.last p.length ≤ p.length)
    (hs : (0xF7 : BitVec 8) ∉ r.take (hint.2.getD hint.1 - (re.last p.length - rb.first) - 1)) (turns : Nat) :
    (Sxb.ops .vec).feedSplice turns b f rb re = .running := by
  unfold SxOps.feedSplice
  rw [(Sxb.ops .vec).feedDetail_endless hf hh _ rb re (fun items => ?_) turns]
  · rfl
  · have ee := C21_bytes_any_hint_partial b p r hb hp ⟨items, hint.1, hint.2⟩ _ rfl rb re h1 h2 hs
    unfold SxOps.splice at ee
    cases hd : (Sxb.ops .vec).trySpliceDetail b ⟨items, hint.1, hint.2⟩ rb re with
    | err x => rw [hd] at ee; cases ee
    | panic => rw [hd] at ee; cases ee
    | ok x =>
      rw [hd] at ee
      obtain ⟨s, _ | r⟩ := x
      · exact ⟨s, rfl⟩
      · cases ee

example (turns : Nat) : (Sxb.ops .vec).feedSplice turns [0xF0, 0x91, 2, 0xF7, 0xF7] endlessFeed (.included 1)
      (.included 1) = .running :=
  C70_bytes_any_endless_partial _ [0x91, 2] [0xF7] rfl (by decide) endlessFeed (fun _ => ⟨0x11, rfl⟩) _ rfl
    (.included 1) (.included 1) (by decide) (by decide) (by decide) turns

/-- C71: the whole work of `splice_payload` on any accepted message over a growable buffer, under the
condition of `C21_bytes_any_hint_partial`. -/
theorem C71_bytes_any_work_partial (b : Buf .bytes) (p r : List (BitVec 8))
    (hb : b = 0xF0 :: p ++ 0xF7 :: r) (hp : (0xF7 : BitVec 8) ∉ p) (d : Src (BitVec 7)) (rb re : Bound)
    (h1 : rb.first ≤ re.last p.length) (h2 : re.last p.length ≤ p.length)
    (hs : (0xF7 : BitVec 8) ∉ r.take (d.upper.getD d.lower - (re.last p.length - rb.first) - 1)) :
    (Sxb.ops .vec).logged.splice (b, {}) d rb re =
      .ok (0xF0 :: spliced p rb.first (re.last p.length) (d.items.map fun v => v.setWidth 8) ++ [0xF7],
        d.work p.length rb.first (re.last p.length)) := by
  have hr' := (C71_record (Sxb.ops .vec) b {} d).1 rb re
  rw [C21_bytes_any_hint_partial b p r hb hp d _ rfl rb re h1 h2 hs] at hr'
  obtain ⟨⟨b1, eff⟩, hs, hx⟩ := Res.of_bind_ok hr'
  cases hx
  rw [hs]
  unfold SxOps.splice at hs
  obtain ⟨⟨⟨s1, e1⟩, _ | er⟩, hd, hs⟩ := Res.of_bind_ok hs
  · cases hs
    obtain ⟨s0, n, c1, c2, c3⟩ := Sxb.paced_vec.detail_work trivial hd
    cases c1
    have hb' : b = raw p r := hb
    have c2 : Sxb.payloadSize b = .ok n := c2
    rw [hb', Sxb.payloadSize_raw hp] at c2
    cases c2
    rw [Sx.spliceEnd_eq, Sx.spliceBegin_eq] at c3
    rw [c3 h2]
    rfl
  · cases hs

example : (Sxb.ops .vec).logged.splice ([0xF0, 0x91, 2, 0x83, 0xF7, 0xFF], {}) ⟨[9, 10, 11], 0, none⟩ (.included 1)
      (.excluded 2) = .ok ([0xF0, 0x91, 9, 10, 11, 0x83, 0xF7],
        Src.work ⟨([9, 10, 11] : List (BitVec 7)), 0, none⟩ 3 1 2) :=
  C71_bytes_any_work_partial _ [0x91, 2, 0x83] [0xFF] rfl (by decide) ⟨[9, 10, 11], 0, none⟩ (.included 1)
    (.excluded 2) (by decide) (by decide) (by decide)

end Midi2
