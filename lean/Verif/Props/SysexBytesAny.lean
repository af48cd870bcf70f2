import Verif.Lemmas.SysexBytesStale
import Verif.Props.SysexBytesExact

/-!
# C21, C22: splicing any byte message, with any iterator

`F0 p F7 r` is every accepted slice: `p` the bytes before the first `F7`, whether below `0x80` or
not, and `r` whatever follows it.  An iterator is asked for its size once; `hint` is what the code
makes of the answer: the upper bound, or the lower bound if there is none.
-/

namespace Midi2

open Sxb (e raw)

theorem estimate_eq {β : Type} (d : Src β) : d.estimate = d.upper.getD d.lower := by
  unfold Src.estimate; cases d.upper <;> rfl

/-- Splicing in a growable buffer with no end byte behind the message. -/
theorem bytes_splice_clean (p r : List (BitVec 8)) (hp : Sxb.endByte ∉ p) (hr : Sxb.endByte ∉ r)
    (d : Src (BitVec 7)) (rb re : Bound)
    (h1 : rb.first ≤ re.last p.length) (h2 : re.last p.length ≤ p.length) :
    (Sxb.ops .vec).splice (raw p r) d rb re =
      .ok (raw (spliced p rb.first (re.last p.length) (d.items.map e)) []) := by
  obtain ⟨l, rfl⟩ := Sxb.octs_map hp
  obtain ⟨r, rfl⟩ := Sxb.octs_map hr
  rw [List.length_map] at h1 h2 ⊢
  have hcut := Sx.cut l rb.first (re.last l.length) h1
  have hlen : ((l.take (re.last l.length)).drop rb.first).length = re.last l.length - rb.first := by
    simp only [List.length_drop, List.length_take]; omega
  have L : SxLaws (Sxb.ops8 .vec) _ _ _ _ := Sxb.laws8 none
  obtain ⟨s', h, hk⟩ := L.splice_spec
    (s := raw (l.map Subtype.val) (r.map Subtype.val)) (s0 := raw (l.map Subtype.val) (r.map Subtype.val))
    (d.map Sxb.oct) rb re
    (l.take rb.first) ((l.take (re.last l.length)).drop rb.first) (l.drop (re.last l.length)) rfl
    (by rw [← hcut]; exact ⟨r, rfl, fun _ h => by cases h⟩)
    (by rw [Sx.spliceBegin_eq, List.length_take]; omega)
    (by rw [← hcut, Sx.spliceEnd_eq, List.length_take, hlen]; omega)
  rw [Sxb.ops_contra, SxOps.splice_contra, h]
  obtain ⟨rest, rfl, hrest, -⟩ := hk
  rw [hrest rfl]
  congr 2
  show (l.take rb.first ++ d.items.map Sxb.oct ++ l.drop (re.last l.length)).map Subtype.val = _
  unfold spliced
  rw [List.map_append, List.map_append, List.map_take, List.map_drop, Sxb.oct_map]

/-- C21: on a growable buffer `splice_payload` is `Vec::splice`, on any accepted message and for any
iterator, if no `F7` lies in the bytes behind the message that the first guess of the new size takes
in, but for the last of them: there are `hint` minus the number of bytes replaced. -/
theorem C21_bytes_any_hint_partial (b : Buf .bytes) (p r : List (BitVec 8))
    (hb : b = 0xF0 :: p ++ 0xF7 :: r) (hp : (0xF7 : BitVec 8) ∉ p) (d : Src (BitVec 7)) (hint : Nat)
    (hhint : hint = d.upper.getD d.lower) (rb re : Bound)
    (h1 : rb.first ≤ re.last p.length) (h2 : re.last p.length ≤ p.length)
    (hs : (0xF7 : BitVec 8) ∉ r.take (hint - (re.last p.length - rb.first) - 1)) :
    (Sxb.ops .vec).splice b d rb re =
      .ok (0xF0 :: spliced p rb.first (re.last p.length) (d.items.map fun v => v.setWidth 8) ++ [0xF7]) := by
  have hb' : b = raw p r := hb
  rw [hb']
  have hcut := Sx.cut p rb.first (re.last p.length) h1
  have hlen : ((p.take (re.last p.length)).drop rb.first).length = re.last p.length - rb.first := by
    simp only [List.length_drop, List.length_take]; omega
  have key := Sxb.splice_rest (a := p.take rb.first) (r := (p.take (re.last p.length)).drop rb.first)
    (t := p.drop (re.last p.length)) (rest := r) (by rw [← hcut]; exact hp) d rb re
    (by rw [List.length_take]; omega)
    (by rw [← hcut, List.length_append, hlen, List.length_take]; omega)
  rw [← hcut, hlen, estimate_eq, ← hhint] at key
  rw [key, bytes_splice_clean p _ hp hs d rb re h1 h2]
  rfl

-- Two bytes replaced by three, with payload bytes of `0x80` or above, a hint of 4 and an `F7` just
-- out of its reach.
example : (Sxb.ops .vec).splice [0xF0, 1, 0x92, 3, 0x84, 0xF7, 9, 0xF7] ⟨[5, 6, 7], 4, none⟩ (.included 1)
      (.included 2) = .ok [0xF0, 1, 5, 6, 7, 0x84, 0xF7] :=
  C21_bytes_any_hint_partial _ [1, 0x92, 3, 0x84] [9, 0xF7] rfl (by decide) ⟨[5, 6, 7], 4, none⟩ 4 rfl
    (.included 1) (.included 2) (by decide) (by decide) (by decide)

/-- C21, exactly, if the range reaches the end of the payload (as for `append_payload`): on a growable
buffer the splice panics if some `F7` behind the message is taken in by the first guess and not
overwritten by the new bytes, and is `Vec::splice` in every other case. -/
theorem C21_bytes_end_exactly (b : Buf .bytes) (p r : List (BitVec 8))
    (hb : b = 0xF0 :: p ++ 0xF7 :: r) (hp : (0xF7 : BitVec 8) ∉ p) (d : Src (BitVec 7)) (hint gone : Nat)
    (hhint : hint = d.upper.getD d.lower) (rb re : Bound)
    (h1 : rb.first ≤ p.length) (h2 : re.last p.length = p.length) (hgone : gone = p.length - rb.first) :
    ((∃ i, d.items.length ≤ gone + 1 + i ∧ gone + 1 + i < hint ∧ r[i]? = some 0xF7) →
      (Sxb.ops .vec).splice b d rb re = .panic) ∧
    ((¬ ∃ i, d.items.length ≤ gone + 1 + i ∧ gone + 1 + i < hint ∧ r[i]? = some 0xF7) →
      (Sxb.ops .vec).splice b d rb re =
        .ok (0xF0 :: (p.take rb.first ++ d.items.map fun v => v.setWidth 8) ++ [0xF7])) := by
  have hb' : b = raw p r := hb
  rw [hb']
  have he : d.estimate = hint := by rw [estimate_eq, hhint]
  have hcut : p = p.take rb.first ++ p.drop rb.first := (List.take_append_drop _ _).symm
  have hal : (p.take rb.first).length = rb.first := by rw [List.length_take]; omega
  have hrl : (p.drop rb.first).length = gone := by rw [List.length_drop, hgone]
  have hdrop : Sxb.endByte ∉ p.drop rb.first := fun h => hp (List.mem_of_mem_drop h)
  have good : ∀ r, Sxb.endByte ∉ r → (Sxb.ops .vec).splice (raw p r) d rb re =
      .ok (0xF0 :: (p.take rb.first ++ d.items.map fun v => v.setWidth 8) ++ [0xF7]) := by
    intro r hr
    rw [bytes_splice_clean p r hp hr d rb re (by omega) (by omega), h2]
    unfold spliced
    rw [List.drop_length, List.append_nil]
    rfl
  rcases Nat.lt_or_ge gone hint with hg | hg
  · have key := Sxb.end_vec (a := p.take rb.first) (r := p.drop rb.first) (rest := r)
      (by rw [← hcut]; exact hp) d rb re hal.symm (by rw [← hcut, h2]) (by rw [hrl, he]; exact hg) _ rfl
    rw [← hcut, he, hrl] at key
    rcases Nat.lt_or_ge d.items.length hint with hlt | hge
    · have hmem : Sxb.endByte ∈ (p.drop rb.first ++
            (0 : BitVec 8) :: (r ++ List.replicate (hint - gone) (0 : BitVec 8)).take (hint - gone - 1)).drop
              d.items.length ↔
          ∃ i, d.items.length ≤ gone + 1 + i ∧ gone + 1 + i < hint ∧ r[i]? = some 0xF7 := by
        rw [List.mem_iff_getElem?]
        constructor
        · rintro ⟨j, hj⟩
          rw [List.getElem?_drop] at hj
          rcases Nat.lt_or_ge (d.items.length + j) gone with h | h
          · rw [List.getElem?_append_left (by omega)] at hj
            exact absurd (List.mem_of_getElem? hj) hdrop
          · rw [List.getElem?_append_right (by omega), hrl] at hj
            cases hn : d.items.length + j - gone with
            | zero => rw [hn, List.getElem?_cons_zero, Option.some.injEq] at hj; exact absurd hj (by decide)
            | succ i =>
              rw [hn, List.getElem?_cons_succ, List.getElem?_take] at hj
              split at hj
              · rcases Nat.lt_or_ge i r.length with hi | hi
                · rw [List.getElem?_append_left hi] at hj
                  exact ⟨i, by omega, by omega, hj⟩
                · rw [List.getElem?_append_right hi] at hj
                  have := List.mem_of_getElem? hj
                  rw [List.mem_replicate] at this
                  exact absurd this.2 (by decide)
              · cases hj
        · rintro ⟨i, h1, h2, h3⟩
          refine ⟨gone + 1 + i - d.items.length, ?_⟩
          have hi : i < r.length := (List.getElem?_eq_some_iff.mp h3).1
          rw [List.getElem?_drop, show d.items.length + (gone + 1 + i - d.items.length) = gone + (i + 1) by omega,
            List.getElem?_append_right (by omega), hrl, Nat.add_sub_cancel_left, List.getElem?_cons_succ,
            List.getElem?_take, if_pos (by omega), List.getElem?_append_left hi]
          exact h3
      rw [hmem] at key
      refine ⟨fun h => ?_, fun h => ?_⟩
      · unfold SxOps.splice
        rw [key.1 hlt h]; rfl
      · unfold SxOps.splice
        rw [key.2.1 hlt h]; rfl
    · refine ⟨fun ⟨i, h1, h2, _⟩ => by omega, fun _ => ?_⟩
      have := Sxb.end_vec_rest (a := p.take rb.first) (r := p.drop rb.first) (rest := r) (rest' := [])
        (by rw [← hcut]; exact hp) d rb re hal.symm (by rw [← hcut, h2]) (by rw [he]; exact hge)
      rw [← hcut] at this
      rw [← good [] (by simp)]
      unfold SxOps.splice
      rw [this]
  · refine ⟨fun ⟨i, h1, h2, _⟩ => by omega, fun _ => ?_⟩
    have := C21_bytes_any_hint_partial (raw p r) p r rfl hp d hint hhint rb re (by omega) (by omega)
      (by rw [h2, ← hgone, show hint - gone - 1 = 0 by omega]; simp)
    rw [this, h2]
    unfold spliced
    rw [List.drop_length, List.append_nil]

-- Appending two bytes with a hint of five panics over the second byte behind the message being `F7`,
-- and with a hint of two it does not.
example : (Sxb.ops .vec).append [0xF0, 1, 0xF7, 0, 0, 0xF7] ⟨[5, 6], 5, none⟩ = .panic ∧
    (Sxb.ops .vec).append [0xF0, 1, 0xF7, 0, 0, 0xF7] ⟨[5, 6], 2, none⟩ = .ok [0xF0, 1, 5, 6, 0xF7] := by
  decide +kernel

example : (Sxb.ops .vec).splice [0xF0, 1, 0xF7, 0, 0, 0xF7] ⟨[5, 6], 5, none⟩ (.included 1) .unbounded = .panic :=
  (C21_bytes_end_exactly _ [1] [0, 0, 0xF7] rfl (by decide) ⟨[5, 6], 5, none⟩ 5 0 rfl (.included 1) .unbounded
    (by decide) rfl rfl).1 ⟨2, by decide, by decide, rfl⟩

/-- C21, exactly, if the range ends before the payload does, for an iterator that says how many bytes
it has, and where the first `F7` behind the message, number `i`, is in the way (if none is, see
`C21_bytes_exact_hint_partial`).  With `more` the number of bytes by which the payload grows, only as
much of the payload behind the range is kept as fits before the position `k`; the rest of the payload
is what lay there behind the old message, with its first `F7` replaced by zero. -/
theorem C21_bytes_exact_hint_exactly (b : Buf .bytes) (p r : List (BitVec 8))
    (hb : b = 0xF0 :: p ++ 0xF7 :: r) (hp : (0xF7 : BitVec 8) ∉ p) (d : Src (BitVec 7))
    (hd : d.upper.getD d.lower = d.items.length) (rb re : Bound) (last more i k : Nat)
    (hlast : last = re.last p.length) (h1 : rb.first ≤ last) (h2 : last < p.length)
    (hmore : more = d.items.length - (last - rb.first)) (hi : r[i]? = some 0xF7)
    (hfirst : (0xF7 : BitVec 8) ∉ r.take i) (hlt : i + 1 < more)
    (hk : k = max (last + more) (p.length + 1 + i)) :
    (Sxb.ops .vec).splice b d rb re =
      .ok (0xF0 :: (p.take rb.first ++ (d.items.map fun v => v.setWidth 8) ++
        (p.drop last).take (k - (last + more)) ++
        (((r ++ List.replicate more 0).drop (k - (p.length + 1))).take (p.length + more - k)).replace 0xF7 0) ++
        [0xF7]) := by
  have hb' : b = raw p r := hb
  rw [hb']
  have hcut := Sx.cut p rb.first last h1
  have hlen : ((p.take last).drop rb.first).length = last - rb.first := by
    simp only [List.length_drop, List.length_take]; omega
  have hal : (p.take rb.first).length = rb.first := by rw [List.length_take]; omega
  have har : (p.take rb.first ++ (p.take last).drop rb.first).length = last := by
    rw [List.length_append, hal, hlen]; omega
  obtain ⟨r2, e1, e2, -⟩ := Sxb.splice_stale (a := p.take rb.first) (r := (p.take last).drop rb.first)
    (t := p.drop last) (rest := r) none (by rw [← hcut]; exact hp) d (by rw [estimate_eq, hd]) rb re hal.symm
    (by rw [← hcut, har, hlast]) (fun h => by cases h) more i k (by rw [hlen, hmore]) hi hfirst hlt
    (by rw [har, ← hcut]; exact hk)
    (by intro h; have := congrArg List.length h; rw [List.length_drop] at this; simp at this; omega)
  rw [← hcut, har, e2 rfl] at e1
  unfold SxOps.splice
  have e1' : (Sxb.ops .vec).trySpliceDetail (raw p r) d rb re = _ := e1
  rw [e1']
  rfl

-- Five bytes inserted before the last two of three, with an `F7` two bytes behind the message: what
-- is behind the range is lost, and what lay behind the message shows.
example : (Sxb.ops .vec).splice [0xF0, 1, 2, 3, 0xF7, 0x44, 0xF7, 0x46, 0xF7, 0x48] ⟨[9, 10, 11, 12, 13], 5, some 5⟩
      (.included 1) (.excluded 1) = .ok [0xF0, 1, 9, 10, 11, 12, 13, 0x46, 0, 0xF7] :=
  C21_bytes_exact_hint_exactly _ [1, 2, 3] [0x44, 0xF7, 0x46, 0xF7, 0x48] rfl (by decide)
    ⟨[9, 10, 11, 12, 13], 5, some 5⟩ rfl (.included 1) (.excluded 1) 1 5 1 6 rfl (by decide) (by decide) rfl rfl
    (by decide) (by decide) rfl

/-- C22, exactly, in the same situation on a fixed buffer with room for the result. -/
theorem C22_bytes_exact_hint_exactly (b : Buf .bytes) (p r : List (BitVec 8))
    (hb : b = 0xF0 :: p ++ 0xF7 :: r) (hp : (0xF7 : BitVec 8) ∉ p) (d : Src (BitVec 7))
    (hd : d.upper.getD d.lower = d.items.length) (rb re : Bound) (last more i k : Nat)
    (hlast : last = re.last p.length) (h1 : rb.first ≤ last) (h2 : last < p.length)
    (hmore : more = d.items.length - (last - rb.first)) (hroom : more ≤ r.length) (hi : r[i]? = some 0xF7)
    (hfirst : (0xF7 : BitVec 8) ∉ r.take i) (hlt : i + 1 < more)
    (hk : k = max (last + more) (p.length + 1 + i)) :
    (Sxb.ops .fixed).trySplice b d rb re =
      .ok (0xF0 :: (p.take rb.first ++ (d.items.map fun v => v.setWidth 8) ++
        (p.drop last).take (k - (last + more)) ++
        ((r.drop (k - (p.length + 1))).take (p.length + more - k)).replace 0xF7 0) ++
        0xF7 :: r.drop more, none) := by
  have hb' : b = raw p r := hb
  rw [hb']
  have hcut := Sx.cut p rb.first last h1
  have hlen : ((p.take last).drop rb.first).length = last - rb.first := by
    simp only [List.length_drop, List.length_take]; omega
  have hal : (p.take rb.first).length = rb.first := by rw [List.length_take]; omega
  have har : (p.take rb.first ++ (p.take last).drop rb.first).length = last := by
    rw [List.length_append, hal, hlen]; omega
  obtain ⟨r2, e1, -, e3⟩ := Sxb.splice_stale (a := p.take rb.first) (r := (p.take last).drop rb.first)
    (t := p.drop last) (rest := r) (some 0) (by rw [← hcut]; exact hp) d (by rw [estimate_eq, hd]) rb re hal.symm
    (by rw [← hcut, har, hlast]) (fun _ => by rw [hlen, ← hmore]; exact hroom) more i k (by rw [hlen, hmore]) hi
    hfirst hlt (by rw [har, ← hcut]; exact hk)
    (by intro h; have := congrArg List.length h; rw [List.length_drop] at this; simp at this; omega)
  rw [← hcut, har, e3 rfl] at e1
  have hpad : ((r ++ List.replicate more 0).drop (k - (p.length + 1))).take (p.length + more - k) =
      (r.drop (k - (p.length + 1))).take (p.length + more - k) := by
    rw [List.drop_append_of_le_length (by rw [hk]; omega), List.take_append_of_le_length (by
      rw [List.length_drop, hk]; omega)]
  rw [hpad] at e1
  unfold SxOps.trySplice
  have e1' : (Sxb.ops .fixed).trySpliceDetail (raw p r) d rb re = _ := e1
  rw [e1']
  rfl

example : (Sxb.ops .fixed).trySplice [0xF0, 1, 2, 3, 0xF7, 0x44, 0xF7, 0x46, 0xF7, 0x48, 0x49]
      ⟨[9, 10, 11, 12, 13], 5, some 5⟩ (.included 1) (.excluded 1) =
    .ok ([0xF0, 1, 9, 10, 11, 12, 13, 0x46, 0, 0xF7, 0x49], none) :=
  C22_bytes_exact_hint_exactly _ [1, 2, 3] [0x44, 0xF7, 0x46, 0xF7, 0x48, 0x49] rfl (by decide)
    ⟨[9, 10, 11, 12, 13], 5, some 5⟩ rfl (.included 1) (.excluded 1) 1 5 1 6 rfl (by decide) (by decide) rfl
    (by decide) rfl (by decide) (by decide) rfl

/-- C22: `try_splice_payload` on a fixed buffer, on any accepted message with no `F7` behind it, with
the size hints of `C22_bytes_try_splice_partial`. -/
theorem C22_bytes_any_payload_partial (b : Buf .bytes) (p r : List (BitVec 8))
    (hb : b = 0xF0 :: p ++ 0xF7 :: r) (hp : (0xF7 : BitVec 8) ∉ p) (hr : (0xF7 : BitVec 8) ∉ r)
    (d : Src (BitVec 7)) (rb re : Bound)
    (h1 : rb.first ≤ re.last p.length) (h2 : re.last p.length ≤ p.length)
    (hh : rb.first = re.last p.length ∨ d.items.length ≤ d.upper.getD d.lower ∨
      (re.last p.length - rb.first ≤ d.upper.getD d.lower ∧
        p.length - (re.last p.length - rb.first) + 2 * d.items.length + 2 ≤ b.length)) (new : List (BitVec 8))
    (hnew : new = spliced p rb.first (re.last p.length) (d.items.map fun v => v.setWidth 8)) :
    ∃ b' rest, b'.length = b.length ∧
      ((new.length + 2 ≤ b.length ∧ (Sxb.ops .fixed).trySplice b d rb re = .ok (b', none) ∧
          b' = 0xF0 :: new ++ 0xF7 :: rest) ∨
       (b.length < new.length + 2 ∧ (Sxb.ops .fixed).trySplice b d rb re = .ok (b', some .bufferOverflow) ∧
          b' = 0xF0 :: 0xF7 :: rest)) := by
  have hb' : b = raw p r := hb
  have hbl : b.length = p.length + r.length + 2 := by rw [hb', Sxb.raw_length]
  subst hb'
  obtain ⟨l, rfl⟩ := Sxb.octs_map hp
  obtain ⟨r, rfl⟩ := Sxb.octs_map hr
  rw [List.length_map] at h1 h2 hh hnew hbl
  rw [List.length_map] at hbl
  have hcut := Sx.cut l rb.first (re.last l.length) h1
  have hlen : ((l.take (re.last l.length)).drop rb.first).length = re.last l.length - rb.first := by
    simp only [List.length_drop, List.length_take]; omega
  have L : SxLaws (Sxb.ops8 .fixed) _ _ _ _ :=
    Sxb.laws8 (some (raw (l.map Subtype.val) (r.map Subtype.val)).length)
  have hnew' : new = (spliced l rb.first (re.last l.length) (d.items.map Sxb.oct)).map Subtype.val := by
    rw [hnew]
    unfold spliced
    rw [List.map_append, List.map_append, List.map_take, List.map_drop, Sxb.oct_map]
    rfl
  have hnl : new.length = (spliced l rb.first (re.last l.length) (d.items.map Sxb.oct)).length := by
    rw [hnew', List.length_map]
  have key := L.trySplice_spec (s := raw (l.map Subtype.val) (r.map Subtype.val))
    (s0 := raw (l.map Subtype.val) (r.map Subtype.val)) (d.map Sxb.oct) rb re
    (l.take rb.first) ((l.take (re.last l.length)).drop rb.first) (l.drop (re.last l.length)) rfl
    (by rw [← hcut]; exact ⟨r, rfl, fun _ h => Option.some.inj h⟩)
    (by rw [Sx.spliceBegin_eq, List.length_take]; omega)
    (by rw [← hcut, Sx.spliceEnd_eq, List.length_take, hlen]; omega)
    (by
      have hde : (d.map Sxb.oct).estimate = d.upper.getD d.lower := estimate_eq d
      have hdl : (d.map Sxb.oct).items.length = d.items.length := List.length_map ..
      rw [hde, hdl]
      rcases hh with h | h | h
      · exact .inr (.inl (List.eq_nil_of_length_eq_zero (by rw [hlen]; omega)))
      · exact .inr (.inr (.inl h))
      · refine .inr (.inr (.inr ⟨.inl (by rw [hlen]; exact h.1), ?_⟩))
        intro c hc
        cases hc
        show _ ≤ (raw (l.map Subtype.val) (r.map Subtype.val)).length - 2
        rw [List.length_take, List.length_drop]
        omega)
  rw [← SxOps.trySplice_contra, ← Sxb.ops_contra] at key
  by_cases hf : new.length + 2 ≤ (raw (l.map Subtype.val) (r.map Subtype.val)).length
  · obtain ⟨s', e1, rest, e2, -, e4⟩ := key.1 (by
      intro c hc
      cases hc
      show (spliced l rb.first (re.last l.length) (d.items.map Sxb.oct)).length ≤ _ - 2
      omega)
    have e2' : s' = raw new rest := by rw [e2, hnew']; rfl
    exact ⟨s', rest, e4 _ rfl, .inl ⟨hf, e1, e2'⟩⟩
  · obtain ⟨s', e1, rest, e2, -, e4⟩ := key.2 (by
      intro h
      have : (spliced l rb.first (re.last l.length) (d.items.map Sxb.oct)).length ≤ _ := h _ rfl
      simp only at this
      omega)
    exact ⟨s', rest, e4 _ rfl, .inr ⟨by omega, e1, e2⟩⟩

example : (Sxb.ops .fixed).trySplice [0xF0, 1, 0x92, 3, 0x84, 0xF7, 0xFF, 0x80] ⟨[5, 6, 7], 4, none⟩ (.included 1)
      (.included 2) = .ok ([0xF0, 1, 5, 6, 7, 0x84, 0xF7, 0], none) := by decide +kernel

/-- C22 fails over bytes for iterators that do not know their size and replace three bytes or more,
however much room there is and though nothing but zeros lies behind the message: the payload is cut
while the iterator runs, so that the old `F7` is behind it, and later grows over that `F7`.  Seven
bytes in place of six lose the last byte of the payload, eight panic. -/
theorem C22_bytes_underestimate_violation :
    ∃ b : Buf .bytes, b = sysexBytes [1, 2, 3, 4, 5, 6, 7, 8, 9, 10] ++ List.replicate 30 0 ∧
      (∃ b', (Sxb.ops .fixed).trySplice b ⟨[21, 22, 23, 24, 25, 26, 27], 0, none⟩ (.included 1) (.excluded 7) =
          .ok (b', none) ∧
        Sxb.payloadList b' = .ok [1, 21, 22, 23, 24, 25, 26, 27, 8, 9, 0]) ∧
      (Sxb.ops .fixed).trySplice b ⟨[21, 22, 23, 24, 25, 26, 27, 28], 0, none⟩ (.included 1) (.excluded 7) =
        .panic ∧
      -- a growable buffer and an exact hint do as they should
      (∃ b', (Sxb.ops .vec).splice b ⟨[21, 22, 23, 24, 25, 26, 27], 0, none⟩ (.included 1) (.excluded 7) =
          .ok b' ∧
        Sxb.payloadList b' = .ok [1, 21, 22, 23, 24, 25, 26, 27, 8, 9, 10]) ∧
      (∃ b', (Sxb.ops .fixed).trySplice b ⟨[21, 22, 23, 24, 25, 26, 27], 7, some 7⟩ (.included 1) (.excluded 7) =
          .ok (b', none) ∧
        Sxb.payloadList b' = .ok [1, 21, 22, 23, 24, 25, 26, 27, 8, 9, 10]) :=
  ⟨_, rfl,
    ⟨[0xF0, 1, 21, 22, 23, 24, 25, 26, 27, 8, 9, 0, 0xF7] ++ List.replicate 29 0, by decide +kernel, by decide +kernel⟩,
    by decide +kernel,
    ⟨[0xF0, 1, 21, 22, 23, 24, 25, 26, 27, 8, 9, 10, 0xF7], by decide +kernel, by decide +kernel⟩,
    ⟨[0xF0, 1, 21, 22, 23, 24, 25, 26, 27, 8, 9, 10, 0xF7] ++ List.replicate 29 0, by decide +kernel, by decide +kernel⟩⟩

end Midi2
