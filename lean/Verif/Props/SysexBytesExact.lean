import Verif.Lemmas.SysexBytesExact
import Verif.Props.SysexBytes

/-!
# C21, C22, C24, C47: `Sysex7` over bytes, whatever lies behind the message

`F0 p F7 r` is every accepted slice: `p` the bytes before the first `F7`, `r` whatever
follows it.
-/

namespace Midi2

open Sxb (e raw)

/-- Every accepted slice is of this form. -/
theorem bytes_accepted_form (b : Buf .bytes) (h : Sxb.tryFrom b = .ok b) :
    ∃ p r, b = 0xF0 :: p ++ 0xF7 :: r ∧ (0xF7 : BitVec 8) ∉ p :=
  let ⟨p, r, h1, h2⟩ := accepted_raw h
  ⟨p, r, h1, h2⟩

/-- C21: on a growable buffer and with an exact size hint, `splice_payload` is `Vec::splice`
on every accepted message, whatever lies behind it, if the range reaches the end of the
payload, or no `F7` lies in the bytes behind the message that the result grows over, but
for the last. -/
theorem C21_bytes_exact_hint_partial (b : Buf .bytes) (p r : List (BitVec 8))
    (hb : b = 0xF0 :: p ++ 0xF7 :: r) (hp : (0xF7 : BitVec 8) ∉ p) (d : Src (BitVec 7))
    (hd : d.upper.getD d.lower = d.items.length) :
    (∀ rb re : Bound, rb.first ≤ re.last p.length → re.last p.length ≤ p.length →
      (re.last p.length = p.length ∨
        (0xF7 : BitVec 8) ∉ r.take (d.items.length - (re.last p.length - rb.first) - 1)) →
      (Sxb.ops .vec).splice b d rb re =
        .ok (0xF0 :: spliced p rb.first (re.last p.length) (d.items.map fun v => v.setWidth 8) ++ [0xF7])) ∧
    (Sxb.ops .vec).append b d = .ok (0xF0 :: (p ++ d.items.map fun v => v.setWidth 8) ++ [0xF7]) ∧
    (∀ v, (Sxb.ops .vec).appendByte b v = .ok (0xF0 :: (p ++ [v.setWidth 8]) ++ [0xF7])) := by
  have hs : ∀ d : Src (BitVec 7), d.upper.getD d.lower = d.items.length →
      ∀ rb re : Bound, rb.first ≤ re.last p.length → re.last p.length ≤ p.length →
      (re.last p.length = p.length ∨
        (0xF7 : BitVec 8) ∉ r.take (d.items.length - (re.last p.length - rb.first) - 1)) →
      (Sxb.ops .vec).splice b d rb re =
        .ok (0xF0 :: spliced p rb.first (re.last p.length) (d.items.map fun v => v.setWidth 8) ++ [0xF7]) := by
    intro d hd rb re h1 h2 h3
    have hcut := Sx.cut p rb.first (re.last p.length) h1
    have he : d.estimate = d.items.length := by
      rw [← hd]; unfold Src.estimate; cases d.upper <;> rfl
    have hlen : ((p.take (re.last p.length)).drop rb.first).length = re.last p.length - rb.first := by
      simp only [List.length_drop, List.length_take]; omega
    obtain ⟨r2, e1, e2, _⟩ := Sxb.splice_exact (a := p.take rb.first)
      (r := (p.take (re.last p.length)).drop rb.first) (t := p.drop (re.last p.length)) (rest := r) none
      (by rw [← hcut]; exact hp) d he rb re (by rw [List.length_take]; omega)
      (by rw [← hcut, List.length_append, hlen, List.length_take]; omega) (fun h => by cases h)
      (by
        rw [hlen]
        rcases h3 with h | h
        · exact .inl (by rw [h]; simp)
        · exact .inr h)
    rw [← hcut] at e1
    have hb' : b = raw p r := hb
    unfold SxOps.splice
    rw [hb']
    have e1' : (Sxb.ops .vec).trySpliceDetail (raw p r) d rb re = _ := e1
    rw [e1', e2 rfl]
    rfl
  have hps : (Sxb.ops .vec).payloadSize b = .ok p.length := by
    have hb' : b = raw p r := hb
    rw [hb']; exact Sxb.payloadSize_raw hp
  have ha : ∀ d : Src (BitVec 7), d.upper.getD d.lower = d.items.length →
      (Sxb.ops .vec).insert b d p.length =
        .ok (0xF0 :: (p ++ d.items.map fun v => v.setWidth 8) ++ [0xF7]) := by
    intro d hd
    have := hs d hd (.included p.length) (.excluded p.length) (Nat.le_refl _) (Nat.le_refl _) (.inl rfl)
    have e1 : spliced p (Bound.included p.length).first ((Bound.excluded p.length).last p.length)
        (d.items.map fun v => v.setWidth 8) = p ++ d.items.map fun v => v.setWidth 8 := by
      simp [spliced, Bound.first, Bound.last]
    rw [e1] at this
    exact this
  refine ⟨hs d hd, ?_, ?_⟩
  · unfold SxOps.append
    rw [hps]; exact ha d hd
  · intro v
    unfold SxOps.appendByte
    rw [hps]; exact ha ⟨[v], 1, some 1⟩ rfl

example : (Sxb.ops .vec).append [0xF0, 0x81, 0xF7, 0xF7, 3] ⟨[5, 6], 2, some 2⟩ =
    .ok [0xF0, 0x81, 5, 6, 0xF7] :=
  (C21_bytes_exact_hint_partial _ [0x81] [0xF7, 3] rfl (by decide) ⟨[5, 6], 2, some 2⟩ rfl).2.1

/-- C22: on a fixed buffer and with an exact size hint, whatever lies behind the message,
`try_splice_payload` on any accepted message succeeds exactly when the result fits, and
then is `Vec::splice`, and otherwise reports `BufferOverflow` and leaves an empty message.
The first under the same condition as on a growable buffer, the second without. -/
theorem C22_bytes_exact_hint_partial (b : Buf .bytes) (p r : List (BitVec 8))
    (hb : b = 0xF0 :: p ++ 0xF7 :: r) (hp : (0xF7 : BitVec 8) ∉ p) (d : Src (BitVec 7))
    (hd : d.upper.getD d.lower = d.items.length) (rb re : Bound)
    (h1 : rb.first ≤ re.last p.length) (h2 : re.last p.length ≤ p.length) :
    ((spliced p rb.first (re.last p.length) (d.items.map fun v => v.setWidth 8)).length + 2 ≤ b.length →
      (re.last p.length = p.length ∨
        (0xF7 : BitVec 8) ∉ r.take (d.items.length - (re.last p.length - rb.first) - 1)) →
      ∃ r', (Sxb.ops .fixed).trySplice b d rb re =
          .ok (0xF0 :: spliced p rb.first (re.last p.length) (d.items.map fun v => v.setWidth 8)
            ++ 0xF7 :: r', none) ∧
        (0xF0 :: spliced p rb.first (re.last p.length) (d.items.map fun v => v.setWidth 8)
            ++ 0xF7 :: r').length = b.length) ∧
    (b.length < (spliced p rb.first (re.last p.length) (d.items.map fun v => v.setWidth 8)).length + 2 →
      ∃ r', (Sxb.ops .fixed).trySplice b d rb re = .ok (0xF0 :: 0xF7 :: r', some .bufferOverflow) ∧
        (0xF0 :: 0xF7 :: r').length = b.length) := by
  have hcut := Sx.cut p rb.first (re.last p.length) h1
  have he : d.estimate = d.items.length := by
    rw [← hd]; unfold Src.estimate; cases d.upper <;> rfl
  have hlen : ((p.take (re.last p.length)).drop rb.first).length = re.last p.length - rb.first := by
    simp only [List.length_drop, List.length_take]; omega
  have hb' : b = raw p r := hb
  have hbl : b.length = p.length + r.length + 2 := by rw [hb', Sxb.raw_length]
  have htl : (p.take rb.first).length = rb.first := by rw [List.length_take]; omega
  have hsl : (spliced p rb.first (re.last p.length) (d.items.map fun v => v.setWidth 8)).length =
      (p.take rb.first).length + d.items.length + (p.drop (re.last p.length)).length := by
    simp [spliced]; omega
  constructor
  · intro hf h3
    obtain ⟨r2, e1, _, e3⟩ := Sxb.splice_exact (a := p.take rb.first)
      (r := (p.take (re.last p.length)).drop rb.first) (t := p.drop (re.last p.length)) (rest := r) (some 0)
      (by rw [← hcut]; exact hp) d he rb re htl.symm
      (by rw [← hcut, List.length_append, hlen, htl]; omega)
      (fun _ => by rw [← hcut]; omega)
      (by
        rw [hlen]
        rcases h3 with h | h
        · exact .inl (by rw [h]; simp)
        · exact .inr h)
    rw [← hcut] at e1 e3
    have e3 := e3 rfl
    refine ⟨r2, ?_, ?_⟩
    · unfold SxOps.trySplice
      rw [hb']
      have e1' : (Sxb.ops .fixed).trySpliceDetail (raw p r) d rb re = _ := e1
      rw [e1']
      rfl
    · rw [hbl]
      rw [List.length_append, List.length_cons, List.length_cons, hsl]
      omega
  · intro hf
    obtain ⟨r2, e1, e2⟩ := Sxb.splice_over (a := p.take rb.first)
      (r := (p.take (re.last p.length)).drop rb.first) (t := p.drop (re.last p.length)) (rest := r)
      (by rw [← hcut]; exact hp) d he rb re htl.symm
      (by rw [← hcut, List.length_append, hlen, htl]; omega)
      (by rw [← hcut]; omega)
    rw [← hcut] at e1 e2
    refine ⟨r2, ?_, ?_⟩
    · rw [hb']; exact e1
    · rw [hbl, List.length_cons, List.length_cons, e2]

example : ∃ r', (Sxb.ops .fixed).trySplice [0xF0, 1, 2, 0xF7, 0xF7, 0x99] ⟨[5, 6, 7, 8], 4, some 4⟩
      (.included 0) (.excluded 1) = .ok (0xF0 :: 0xF7 :: r', some .bufferOverflow) :=
  have ⟨r', h, _⟩ := (C22_bytes_exact_hint_partial [0xF0, 1, 2, 0xF7, 0xF7, 0x99] [1, 2] [0xF7, 0x99] rfl
    (by decide) ⟨[5, 6, 7, 8], 4, some 4⟩ rfl (.included 0) (.excluded 1) (by decide) (by decide)).2
    (by decide)
  ⟨r', h⟩

/-- C22: hence appending, with an exact size hint, and appending one byte, are right on
every accepted message in a fixed buffer. -/
theorem C22_bytes_append (b : Buf .bytes) (p r : List (BitVec 8))
    (hb : b = 0xF0 :: p ++ 0xF7 :: r) (hp : (0xF7 : BitVec 8) ∉ p) (d : Src (BitVec 7))
    (hd : d.upper.getD d.lower = d.items.length) :
    ∃ b' r', b'.length = b.length ∧
      ((p.length + d.items.length + 2 ≤ b.length ∧ (Sxb.ops .fixed).tryAppend b d = .ok (b', none) ∧
          b' = 0xF0 :: (p ++ d.items.map fun v => v.setWidth 8) ++ 0xF7 :: r') ∨
       (b.length < p.length + d.items.length + 2 ∧
          (Sxb.ops .fixed).tryAppend b d = .ok (b', some .bufferOverflow) ∧ b' = 0xF0 :: 0xF7 :: r')) := by
  have key := C22_bytes_exact_hint_partial b p r hb hp d hd (.included p.length) (.excluded p.length)
    (Nat.le_refl _) (Nat.le_refl _)
  have e1 : spliced p (Bound.included p.length).first ((Bound.excluded p.length).last p.length)
      (d.items.map fun v => v.setWidth 8) = p ++ d.items.map fun v => v.setWidth 8 := by
    simp [spliced, Bound.first, Bound.last]
  have hps : (Sxb.ops .fixed).payloadSize b = .ok p.length := by
    have hb' : b = raw p r := hb
    rw [hb']; exact Sxb.payloadSize_raw hp
  have happ : (Sxb.ops .fixed).tryAppend b d =
      (Sxb.ops .fixed).trySplice b d (.included p.length) (.excluded p.length) := by
    unfold SxOps.tryAppend
    rw [hps]; rfl
  have hl : (p ++ d.items.map fun v => v.setWidth 8).length = p.length + d.items.length := by simp
  rw [e1, hl] at key
  rw [happ]
  rcases Nat.lt_or_ge b.length (p.length + d.items.length + 2) with h | h
  · obtain ⟨r', k1, k2⟩ := key.2 h
    exact ⟨_, r', k2, .inr ⟨h, k1, rfl⟩⟩
  · obtain ⟨r', k1, k2⟩ := key.1 h (.inl rfl)
    exact ⟨_, r', k2, .inl ⟨h, k1, rfl⟩⟩

example : ∃ r', (Sxb.ops .fixed).tryAppend [0xF0, 1, 2, 0xF7, 4, 0xF7, 0, 0, 0] ⟨[5, 6, 7, 8], 4, some 4⟩ =
    .ok ([0xF0, 1, 2, 5, 6, 7, 8] ++ 0xF7 :: r', none) := by
  obtain ⟨b', r', _, h | h⟩ := C22_bytes_append [0xF0, 1, 2, 0xF7, 4, 0xF7, 0, 0, 0] [1, 2]
    [4, 0xF7, 0, 0, 0] rfl (by decide) ⟨[5, 6, 7, 8], 4, some 4⟩ rfl
  · exact ⟨r', h.2.2 ▸ h.2.1⟩
  · exact absurd h.1 (by decide)

/-- C22: and so is removing a range of the payload. -/
theorem C22_bytes_remove (b : Buf .bytes) (p r : List (BitVec 8))
    (hb : b = 0xF0 :: p ++ 0xF7 :: r) (hp : (0xF7 : BitVec 8) ∉ p) (rb re : Bound)
    (h1 : rb.first ≤ re.last p.length) (h2 : re.last p.length ≤ p.length) :
    ∃ r', (Sxb.ops .fixed).trySplice b ⟨[], 0, some 0⟩ rb re =
        .ok (0xF0 :: (p.take rb.first ++ p.drop (re.last p.length)) ++ 0xF7 :: r', none) ∧
      (0xF0 :: (p.take rb.first ++ p.drop (re.last p.length)) ++ 0xF7 :: r').length = b.length := by
  have key := (C22_bytes_exact_hint_partial b p r hb hp ⟨[], 0, some 0⟩ rfl rb re h1 h2).1
  have e1 : spliced p rb.first (re.last p.length) ([].map fun v : BitVec 7 => v.setWidth 8) =
      p.take rb.first ++ p.drop (re.last p.length) := by simp [spliced]
  have hbl : b.length = p.length + r.length + 2 := by
    have hb' : b = raw p r := hb
    rw [hb', Sxb.raw_length]
  rw [e1] at key
  exact key (by rw [hbl]; simp; omega) (.inr (by simp))

-- A stale `F7` behind the message: appending is right, and so is replacing two bytes by one
-- in the middle; inserting two bytes as well, since the `F7` is the last byte grown over.
example : (Sxb.ops .fixed).tryAppend [0xF0, 1, 2, 0xF7, 4, 0xF7, 0, 0, 0] ⟨[5, 6, 7, 8], 4, some 4⟩ =
      .ok ([0xF0, 1, 2, 5, 6, 7, 8, 0xF7, 0], none) ∧
    (Sxb.ops .fixed).trySplice [0xF0, 1, 2, 3, 0xF7, 0xF7, 0xF7, 0] ⟨[9], 1, some 1⟩ (.included 0) (.excluded 2) =
      .ok ([0xF0, 9, 3, 0xF7, 0, 0xF7, 0xF7, 0], none) ∧
    (Sxb.ops .fixed).trySplice [0xF0, 1, 0xF7, 5, 0xF7, 0] ⟨[8, 9], 2, some 2⟩ (.included 0) (.excluded 0) =
      .ok ([0xF0, 8, 9, 1, 0xF7, 0], none) := by decide +kernel

-- The condition cannot be dropped: here the `F7` is the first of three bytes grown over.
example : (Sxb.ops .fixed).trySplice [0xF0, 1, 0xF7, 0xF7, 0, 0, 0] ⟨[7, 8, 9], 3, some 3⟩ (.included 0)
      (.excluded 0) = .ok ([0xF0, 7, 8, 9, 0, 0xF7, 0], none) := by decide +kernel

-- No room, with stale bytes behind the message.
example : (Sxb.ops .fixed).trySplice [0xF0, 1, 2, 0xF7, 0xF7, 0x99] ⟨[5, 6, 7, 8], 4, some 4⟩ (.included 0)
      (.excluded 1) = .ok ([0xF0, 0xF7, 6, 0, 0, 0xF7], some .bufferOverflow) := by decide +kernel

/-! ## C47: histories on fixed buffers -/

theorem bytes_form (l : List (BitVec 7)) (r : List (BitVec 8)) :
    sysexBytes l ++ r = 0xF0 :: (l.map fun v => v.setWidth 8) ++ 0xF7 :: r := by
  simp [sysexBytes]

theorem spliced_map {α β : Type} (f : α → β) (l new : List α) (i j : Nat) :
    (spliced l i j new).map f = spliced (l.map f) i j (new.map f) := by
  simp [spliced, List.map_take, List.map_drop]

theorem bytes_gentle_splice (l : List (BitVec 7)) (r : List (BitVec 8)) (d : Src (BitVec 7)) (rb re : Bound)
    (hd : d.upper.getD d.lower = d.items.length)
    (h1 : rb.first ≤ re.last l.length) (h2 : re.last l.length ≤ l.length)
    (h3 : re.last l.length = l.length ∨ d.items.length ≤ re.last l.length - rb.first + 1) :
    ∃ r', (Sxb.ops .fixed).trySplice (sysexBytes l ++ r) d rb re =
        .ok (sysexBytes ((SxTryCall.splicePayload (k := .s7) d rb re).applyBytes (l.length + 2 + r.length) l).1 ++ r',
          ((SxTryCall.splicePayload (k := .s7) d rb re).applyBytes (l.length + 2 + r.length) l).2) ∧
      ((SxTryCall.splicePayload (k := .s7) d rb re).applyBytes (l.length + 2 + r.length) l).1.length + 2 + r'.length =
        l.length + 2 + r.length := by
  have hlen : (sysexBytes l ++ r).length = l.length + 2 + r.length := by
    rw [List.length_append, sysexBytes_length]
  have hm : (l.map fun v => v.setWidth 8 : List (BitVec 8)).length = l.length := List.length_map _
  have key := C22_bytes_exact_hint_partial (sysexBytes l ++ r) (l.map fun v => v.setWidth 8) r (bytes_form l r)
    (Sxb.end_notin l) d hd rb re (by rw [hm]; exact h1) (by rw [hm]; exact h2)
  rw [hm, ← spliced_map, List.length_map, hlen] at key
  unfold SxTryCall.applyBytes
  have hw : SxTryCall.wanted (k := .s7) l (.splicePayload d rb re) = spliced l rb.first (re.last l.length) d.items := rfl
  rw [hw]
  by_cases hf : (spliced l rb.first (re.last l.length) d.items).length + 2 ≤ l.length + 2 + r.length
  · rw [if_pos hf]
    obtain ⟨r', k1, k2⟩ := key.1 hf (by
      rcases h3 with h | h
      · exact .inl h
      · exact .inr (by rw [show d.items.length - (re.last l.length - rb.first) - 1 = 0 by omega]; simp))
    refine ⟨r', ?_, ?_⟩
    · rw [k1, bytes_form]
    · simp at k2 ⊢; omega
  · rw [if_neg hf]
    obtain ⟨r', k1, k2⟩ := key.2 (by omega)
    refine ⟨r', k1, ?_⟩
    simp at k2 ⊢; omega

theorem bytes_gentle_step (l : List (BitVec 7)) (r : List (BitVec 8)) (c : SxTryCall .s7) (hg : c.Gentle l) :
    ∃ r', c.execBytes (sysexBytes l ++ r) =
        .ok (sysexBytes (c.applyBytes (l.length + 2 + r.length) l).1 ++ r',
          (c.applyBytes (l.length + 2 + r.length) l).2) ∧
      (c.applyBytes (l.length + 2 + r.length) l).1.length + 2 + r'.length = l.length + 2 + r.length := by
  have hlen : (sysexBytes l ++ r).length = l.length + 2 + r.length := by
    rw [List.length_append, sysexBytes_length]
  have hps : Sxb.payloadSize (sysexBytes l ++ r) = .ok l.length := (holdsBytes l r).size
  -- inserting is splicing an empty range
  have hins : ∀ (d : Src (BitVec 7)) (i : Nat), (SxTryCall.insertPayload (k := .s7) d i).applyBytes (l.length + 2 + r.length) l =
      (SxTryCall.splicePayload (k := .s7) d (.included i) (.excluded i)).applyBytes (l.length + 2 + r.length) l := fun _ _ => rfl
  have happ : ∀ (d : Src (BitVec 7)), (SxTryCall.appendPayload (k := .s7) d).applyBytes (l.length + 2 + r.length) l =
      (SxTryCall.splicePayload (k := .s7) d (.included l.length) (.excluded l.length)).applyBytes
        (l.length + 2 + r.length) l := by
    intro d
    have : SxTryCall.wanted (k := .s7) l (.appendPayload d) =
        SxTryCall.wanted (k := .s7) l (.splicePayload d (.included l.length) (.excluded l.length)) := by
      simp [SxTryCall.wanted, spliced, Bound.first, Bound.last]
    unfold SxTryCall.applyBytes
    rw [this]
  cases c with
  | setGroup g =>
    have : (SxTryCall.setGroup (k := .s7) g).applyBytes (l.length + 2 + r.length) l = (l, none) := by
      unfold SxTryCall.applyBytes
      exact if_pos (by show l.length + 2 ≤ _; omega)
    rw [this]
    exact ⟨r, rfl, rfl⟩
  | setPayload d =>
    obtain ⟨b', r', k1, k2⟩ := C20_bytes_try_set_payload_partial (sysexBytes l ++ r)
      (sysexBytes_accepted l r) d hg
    unfold SxTryCall.applyBytes
    have hw : SxTryCall.wanted (k := .s7) l (.setPayload d) = d.items := rfl
    rw [hw]
    rw [hlen] at k1 k2
    rcases k2 with ⟨k3, k4, rfl⟩ | ⟨k3, k4, rfl⟩
    · rw [if_pos k3]
      refine ⟨r', k4, ?_⟩
      rw [List.length_append, sysexBytes_length] at k1
      exact k1
    · rw [if_neg (by omega)]
      refine ⟨r', k4, ?_⟩
      rw [List.length_append, sysexBytes_length] at k1
      exact k1
  | splicePayload d rb re =>
    obtain ⟨hd, h1, h2, h3⟩ := hg
    exact bytes_gentle_splice l r d rb re hd h1 h2 h3
  | insertPayload d i =>
    obtain ⟨hd, h1, h2⟩ := hg
    rw [hins]
    exact bytes_gentle_splice l r d (.included i) (.excluded i) hd (Nat.le_refl _) h1 (by
      rcases h2 with h | h
      · exact .inl h
      · exact .inr (by omega))
  | appendPayload d =>
    rw [happ]
    have : (SxTryCall.appendPayload (k := .s7) d).execBytes (sysexBytes l ++ r) =
        (Sxb.ops .fixed).trySplice (sysexBytes l ++ r) d (.included l.length) (.excluded l.length) := by
      show (Sxb.payloadSize _ >>= _) = _
      rw [hps]; rfl
    rw [this]
    exact bytes_gentle_splice l r d (.included l.length) (.excluded l.length) hg (Nat.le_refl _) (Nat.le_refl _)
      (.inl rfl)
  | appendByte v =>
    have : (SxTryCall.appendByte (k := .s7) v).execBytes (sysexBytes l ++ r) =
        (Sxb.ops .fixed).trySplice (sysexBytes l ++ r) ⟨[v], 1, some 1⟩ (.included l.length)
          (.excluded l.length) := by
      show (Sxb.payloadSize _ >>= _) = _
      rw [hps]; rfl
    rw [this]
    have h2 : (SxTryCall.appendByte (k := .s7) v).applyBytes (l.length + 2 + r.length) l =
        (SxTryCall.appendPayload (k := .s7) ⟨[v], 1, some 1⟩).applyBytes (l.length + 2 + r.length) l := rfl
    rw [h2, happ]
    exact bytes_gentle_splice l r ⟨[v], 1, some 1⟩ (.included l.length) (.excluded l.length) rfl (Nat.le_refl _)
      (Nat.le_refl _) (.inl rfl)
  | setPayloadByte i v =>
    have h2 : (SxTryCall.setPayloadByte (k := .s7) i v).applyBytes (l.length + 2 + r.length) l =
        (l.set i v, none) := by
      unfold SxTryCall.applyBytes
      exact if_pos (by show (l.set i v).length + 2 ≤ _; rw [List.length_set]; omega)
    rw [h2]
    refine ⟨r, ?_, by rw [List.length_set]⟩
    show (Sxb.setByte _ v i).bind _ = _
    rw [C45_bytes_set_payload_byte _ l r rfl i hg v]
    rfl

/-- C47 for byte messages in a fixed buffer with arbitrary bytes behind them: any sequence of
fallible calls with arguments in range and exact size hints, in which a call that writes before
the end of the payload lengthens it by one byte at most, never panics, returns the expected
errors, and leaves the message of the expected payload.  Missing: longer insertions
before the end of the payload and other size hints, see `C22_bytes_stale_terminator_violation`. -/
theorem C47_bytes_fixed_history_partial (cs : List (SxTryCall .s7)) (l : List (BitVec 7))
    (r : List (BitVec 8)) (hg : SxTryCall.AllGentle (sysexBytes l ++ r).length cs l) :
    ∃ b' r', SxTryCall.execAllBytes cs (sysexBytes l ++ r) =
        .ok (b', (SxTryCall.applyAllBytes (sysexBytes l ++ r).length cs l).2) ∧
      b' = sysexBytes (SxTryCall.applyAllBytes (sysexBytes l ++ r).length cs l).1 ++ r' ∧
      b'.length = (sysexBytes l ++ r).length ∧
      HoldsBytes b' (SxTryCall.applyAllBytes (sysexBytes l ++ r).length cs l).1 := by
  have hlen : ∀ (l : List (BitVec 7)) (r : List (BitVec 8)),
      (sysexBytes l ++ r).length = l.length + 2 + r.length := by
    intro l r
    rw [List.length_append, sysexBytes_length]
  induction cs generalizing l r with
  | nil => exact ⟨_, r, rfl, rfl, rfl, holdsBytes l r⟩
  | cons c cs ih =>
    obtain ⟨r1, k1, k2⟩ := bytes_gentle_step l r c hg.1
    have hn : (sysexBytes l ++ r).length =
        (sysexBytes (c.applyBytes (sysexBytes l ++ r).length l).1 ++ r1).length := by
      rw [hlen l r, hlen, k2]
    obtain ⟨b', r', e1, e2, e3, e4⟩ := ih (c.applyBytes (sysexBytes l ++ r).length l).1 r1 (by
      rw [← hn]; exact hg.2)
    rw [← hn] at e1 e2 e3 e4
    refine ⟨b', r', ?_, e2, e3, e4⟩
    unfold SxTryCall.execAllBytes
    rw [k1, ← hlen l r]
    simp only [Res.ok_bind]
    rw [e1]
    rfl

-- A message in ten bytes with rubbish behind it: cut, extended, changed, overflowing.
example : SxTryCall.AllGentle 10 [.splicePayload ⟨[], 0, some 0⟩ (.included 1) (.excluded 4),
      .appendPayload ⟨[7, 8, 9], 3, some 3⟩, .insertPayload ⟨[6], 1, some 1⟩ 1, .setPayloadByte 0 5,
      .setPayload ⟨[1, 2, 3, 4, 5, 6, 7, 8, 9], 9, some 9⟩, .appendByte 3]
      [1, 2, 3, 4, 5] ∧
    SxTryCall.execAllBytes [.splicePayload ⟨[], 0, some 0⟩ (.included 1) (.excluded 4),
      .appendPayload ⟨[7, 8, 9], 3, some 3⟩, .insertPayload ⟨[6], 1, some 1⟩ 1, .setPayloadByte 0 5]
      [0xF0, 1, 2, 3, 4, 5, 0xF7, 0xF7, 0x99, 0xF7] =
      .ok ([0xF0, 5, 6, 5, 7, 8, 9, 0xF7, 0x99, 0xF7], [none, none, none, none]) := by
  refine ⟨?_, by decide +kernel⟩
  simp [SxTryCall.AllGentle, SxTryCall.Gentle, SxTryCall.applyBytes, SxTryCall.wanted, spliced, Bound.first,
    Bound.last]

/-! ## C24: the iterator, exactly -/

/-- The values returned are below `0x80`. -/
def Septets (vs : List (Option (BitVec 8))) : Prop := ∀ v, some v ∈ vs → v.toNat < 128

theorem bytes_iterate (p : List (BitVec 8)) : ∀ (cs : List ItCall) (i : Nat),
    (Septets (ItCall.items cs (p.drop i)).1 → ∃ j,
      ItCall.execBytes cs ⟨p, i⟩ = .ok ((ItCall.items cs (p.drop i)).1.map (Option.map (BitVec.setWidth 7)), ⟨p, j⟩) ∧
      (p.length < i → p.length < j) ∧
      (i ≤ p.length → (ItCall.Within cs (p.drop i) → j ≤ p.length ∧ (ItCall.items cs (p.drop i)).2 = p.drop j) ∧
        (¬ ItCall.Within cs (p.drop i) → p.length < j))) ∧
    (¬ Septets (ItCall.items cs (p.drop i)).1 → ItCall.execBytes cs ⟨p, i⟩ = .panic) := by
  intro cs
  induction cs with
  | nil =>
    intro i
    refine ⟨fun _ => ⟨i, rfl, id, fun h => ⟨fun _ => ⟨h, rfl⟩, fun h => absurd trivial h⟩⟩, fun h => ?_⟩
    exact absurd (fun v hv => by cases hv) h
  | cons c cs ih =>
    intro i
    -- both calls are `next` from further on
    obtain ⟨n, hc1, hc2, hc3, hc4⟩ : ∃ n, ItCall.execBytes (c :: cs) ⟨p, i⟩ =
          (Sxb.next ⟨p, i + n⟩ >>= fun x => ItCall.execBytes cs x.2 >>= fun y => pure (x.1 :: y.1, y.2)) ∧
        (c.apply (p.drop i)).1 = p[i + n]? ∧ (c.apply (p.drop i)).2 = p.drop (i + n + 1) ∧
        (i ≤ p.length → (ItCall.Within (c :: cs) (p.drop i) ↔
          i + n ≤ p.length ∧ ItCall.Within cs (p.drop (i + n + 1)))) := by
      cases c with
      | next =>
        refine ⟨0, rfl, ?_, ?_, fun h => ?_⟩
        · simp [ItCall.apply, List.head?_eq_getElem?]
        · simp [ItCall.apply, List.tail_drop]
        · simp only [ItCall.Within, List.tail_drop, Nat.add_zero]
          exact ⟨fun h' => ⟨h, h'⟩, fun h' => h'.2⟩
      | nth n =>
        refine ⟨n, rfl, ?_, ?_, fun h => ?_⟩
        · simp [ItCall.apply, List.getElem?_drop]
        · simp [ItCall.apply, List.drop_drop, Nat.add_assoc]
        · simp only [ItCall.Within, List.drop_drop, List.length_drop]
          rw [show i + (n + 1) = i + n + 1 by omega]
          constructor
          · rintro ⟨h1, h2⟩; exact ⟨by omega, h2⟩
          · rintro ⟨h1, h2⟩; exact ⟨by omega, h2⟩
    have hi1 : (ItCall.items (c :: cs) (p.drop i)).1 = p[i + n]? :: (ItCall.items cs (p.drop (i + n + 1))).1 := by
      simp only [ItCall.items, hc2, hc3]
    have hi2 : (ItCall.items (c :: cs) (p.drop i)).2 = (ItCall.items cs (p.drop (i + n + 1))).2 := by
      simp only [ItCall.items, hc3]
    rw [hc1, hi1, hi2]
    rcases Nat.lt_or_ge (i + n) p.length with hlt | hge
    · rw [List.getElem?_eq_getElem hlt]
      have hnext : Sxb.next ⟨p, i + n⟩ = Sxb.u7New p[i + n] >>= fun v => pure (some v, ⟨p, i + n + 1⟩) := by
        unfold Sxb.next
        simp only [List.getElem?_eq_getElem hlt]
      by_cases hv : p[i + n].toNat < 128
      · have hu : Sxb.u7New p[i + n] = .ok (p[i + n].setWidth 7) := by unfold Sxb.u7New; rw [if_pos hv]
        rw [hu] at hnext
        rw [hnext]
        simp only [Res.ok_bind, Res.pure_eq]
        obtain ⟨k1, k2⟩ := ih (i + n + 1)
        constructor
        · intro hs
          obtain ⟨j, e1, _, e3⟩ := k1 (fun v h => hs v (List.mem_cons_of_mem _ h))
          obtain ⟨e4, e5⟩ := e3 (by omega)
          rw [e1]
          refine ⟨j, rfl, fun h => by omega, fun h => ?_⟩
          rw [hc4 h]
          exact ⟨fun hw => e4 hw.2, fun hw => e5 (fun h' => hw ⟨by omega, h'⟩)⟩
        · intro hs
          rw [k2 (fun h => hs (fun v hm => by
            rcases List.mem_cons.mp hm with h' | h'
            · cases h'; exact hv
            · exact h v h'))]
          rfl
      · have hu : Sxb.u7New p[i + n] = .panic := by unfold Sxb.u7New; rw [if_neg hv]
        rw [hu] at hnext
        rw [hnext]
        exact ⟨fun hs => absurd (hs _ List.mem_cons_self) hv, fun _ => rfl⟩
    · have hnone : p[i + n]? = none := List.getElem?_eq_none hge
      have hnext : Sxb.next ⟨p, i + n⟩ = .ok (none, ⟨p, i + n⟩) := by
        unfold Sxb.next
        simp only [hnone]
      rw [hnone, hnext]
      simp only [Res.ok_bind, Res.pure_eq]
      have hd : p.drop (i + n + 1) = p.drop (i + n) := by
        rw [List.drop_eq_nil_of_le hge, List.drop_eq_nil_of_le (by omega)]
      rw [hd]
      obtain ⟨k1, k2⟩ := ih (i + n)
      constructor
      · intro hs
        obtain ⟨j, e1, e2, e3⟩ := k1 (fun v h => hs v (List.mem_cons_of_mem _ h))
        rw [e1]
        refine ⟨j, rfl, fun h => e2 (by omega), fun h => ?_⟩
        rw [hc4 h, hd]
        rcases Nat.eq_or_lt_of_le hge with he | he
        · obtain ⟨e4, e5⟩ := e3 (by omega)
          exact ⟨fun hw => e4 hw.2, fun hw => e5 (fun h' => hw ⟨by omega, h'⟩)⟩
        · exact ⟨fun hw => by omega, fun _ => e2 he⟩
      · intro hs
        rw [k2 (fun h => hs (fun v hm => by
          rcases List.mem_cons.mp hm with h' | h'
          · cases h'
          · exact h v h'))]
        rfl

/-- C24, exactly, for every accepted byte message and every interleaving of `next` and `nth` on its
payload: a call that returns a byte of `0x80` or above panics; otherwise the calls return what the same calls
on the list of bytes return, and `len()` afterwards is the number of bytes left, or panics if an `nth(n)` was
called with fewer than `n` bytes left.  `size_hint()` is `(0, Some(0))`. -/
theorem C24_bytes_iterator_exactly (b : Buf .bytes) (p r : List (BitVec 8))
    (hb : b = 0xF0 :: p ++ 0xF7 :: r) (hp : (0xF7 : BitVec 8) ∉ p) (cs : List ItCall) :
    ∃ it, Sxb.payload b = .ok it ∧
      (Septets (ItCall.items cs p).1 → ∃ it',
        ItCall.execBytes cs it = .ok ((ItCall.items cs p).1.map (Option.map (BitVec.setWidth 7)), it') ∧
        (ItCall.Within cs p → Sxb.len it' = .ok (ItCall.items cs p).2.length) ∧
        (¬ ItCall.Within cs p → Sxb.len it' = .panic) ∧
        Sxb.sizeHint it' = (0, some 0)) ∧
      (¬ Septets (ItCall.items cs p).1 → ItCall.execBytes cs it = .panic) := by
  have hb' : b = raw p r := hb
  refine ⟨⟨p, 0⟩, by rw [hb']; exact Sxb.payload_raw hp, ?_⟩
  obtain ⟨k1, k2⟩ := bytes_iterate p cs 0
  rw [List.drop_zero] at k1 k2
  refine ⟨fun hs => ?_, k2⟩
  obtain ⟨j, e1, _, e3⟩ := k1 hs
  obtain ⟨e4, e5⟩ := e3 (Nat.zero_le _)
  refine ⟨⟨p, j⟩, e1, fun hw => ?_, fun hw => ?_, rfl⟩
  · obtain ⟨h1, h2⟩ := e4 hw
    unfold Sxb.len
    rw [usub_ok h1, h2, List.length_drop]
  · have := e5 hw
    unfold Sxb.len usub
    rw [if_neg (by show ¬ j ≤ p.length; omega)]

-- Skipping a byte with the top bit set is fine, returning it panics.
example : ItCall.execBytes [.nth 1, .next, .next] ⟨[0x81, 2, 3], 0⟩ = .ok ([some 2, some 3, none], ⟨[0x81, 2, 3], 3⟩) ∧
    Septets (ItCall.items [.nth 1, .next, .next] [(0x81 : BitVec 8), 2, 3]).1 ∧
    ItCall.execBytes [.next] ⟨[0x81, 2, 3], 0⟩ = .panic := by
  refine ⟨by decide +kernel, ?_, by decide +kernel⟩
  intro v hv
  have : v = 2 ∨ v = 3 := by simpa [ItCall.items, ItCall.apply] using hv
  rcases this with rfl | rfl <;> decide

end Midi2
