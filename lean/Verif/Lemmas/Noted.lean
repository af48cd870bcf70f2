import Verif.Lemmas.EffortExact
import Verif.Lemmas.EffortApi
import Verif.Lemmas.StaleStream

/-! What holds of a message and the sizes its buffer was resized for. -/

namespace Midi2

/-- `J` of a message and the sizes asked for so far is kept by every operation. -/
structure Noted {S β : Type} (ops : SxOps S β) (R : S → List β → Prop) (J : S → List Nat → Prop) :
    Prop where
  write : ∀ {s l v i s' z}, R s l → i < l.length → ops.writeDatum s v i = .ok s' → J s z → J s' z
  same : ∀ {s l i s' z}, R s l → ops.moveTail s i i = .ok s' → J s z → J s' z
  up : ∀ {s l tail to s' z}, R s l → tail < to → to ≤ l.length → ops.moveTail s tail to = .ok s' →
    J s z → J s' z
  down : ∀ {s l tail to s' z}, R s l → to < tail → tail ≤ l.length →
    ops.moveTail s tail to = .ok s' → J s z → J s' z
  resize : ∀ {s l n s' z}, R s l → ops.resize s n = .ok (s', none) → J s z → J s' (z ++ [n])

theorem Noted.laws {S β : Type} {ops : SxOps S β} {R Q : S → List β → Prop}
    {J : S → List Nat → Prop} (N : Noted ops R J) (L : SxLawsAll ops R Q none) :
    SxLawsAll ops.logged (fun x l => R x.1 l ∧ J x.1 x.2.resizes)
      (fun x l => Q x.1 l ∧ J x.1 x.2.resizes) none where
  weaken h := ⟨L.weaken h.1, h.2⟩
  bound h := L.bound h.1
  size h := L.size h.1
  write := by
    rintro ⟨s, e⟩ l v i ⟨h, j⟩ hi
    obtain ⟨s', a, b⟩ := L.write v i h hi
    exact ⟨(s', { e with writes := e.writes + 1 }),
      by show (ops.writeDatum s v i >>= _) = _; rw [a]; rfl, b, N.write h hi a j⟩
  same := by
    rintro ⟨s, e⟩ l i ⟨h, j⟩
    obtain ⟨s', a, b⟩ := L.same i h
    exact ⟨(s', { e with moves := e.moves ++ [(i, i)] }),
      by show (ops.moveTail s i i >>= _) = _; rw [a]; rfl, b, N.same h a j⟩
  up := by
    rintro ⟨s, e⟩ l tail to ⟨h, j⟩ h1 h2
    obtain ⟨s', a, b⟩ := L.up tail to h h1 h2
    exact ⟨(s', { e with moves := e.moves ++ [(tail, to)] }),
      by show (ops.moveTail s tail to >>= _) = _; rw [a]; rfl, b, N.up h h1 h2 a j⟩
  down := by
    rintro ⟨s, e⟩ l tail to ⟨h, j⟩ h1 h2
    obtain ⟨s', a, b⟩ := L.down tail to h h1 h2
    exact ⟨(s', { e with moves := e.moves ++ [(tail, to)] }),
      by show (ops.moveTail s tail to >>= _) = _; rw [a]; rfl, b, N.down h h1 h2 a j⟩
  resize := by
    rintro ⟨s, e⟩ l n ⟨h, j⟩ hf
    obtain ⟨s', l', a, b, c, d⟩ := L.resize n h hf
    exact ⟨(s', { e with resizes := e.resizes ++ [n] }), l',
      by show (ops.resize s n >>= _) = _; rw [a]; rfl, ⟨b, N.resize h a j⟩, c, d⟩
  full := by
    rintro _ _ _ c _ h
    cases h

namespace Sx

/-- The stream ids of `b`, which was resized for these sizes since it was `b0`: a packet has the id
that was at its place in `b0`, or 0 if it was cut off since, or was never there. -/
structure IdsSince (b0 b : Buf .ump) (z : List Nat) : Prop where
  start : z = [] → b.length = b0.length
  len : ∀ n, z.getLast? = some n → b.length = 4 * s8.count n
  ids : ∀ j, 4 * j < b.length → octetAt b (4 * (4 * j) + 2) =
    some (if ∀ n ∈ z, j < s8.count n then (octetAt b0 (4 * (4 * j) + 2)).getD 0 else 0)

theorem IdsSince.refl (b : Buf .ump) : IdsSince b b [] where
  start _ := rfl
  len n h := by cases h
  ids j hj := by
    rw [if_pos (by simp)]
    cases h : octetAt b (4 * (4 * j) + 2) with
    | some o => rfl
    | none =>
      have : (octetAt b (4 * (4 * j) + 2)).isSome := by rw [octetAt_isSome]; omega
      rw [h] at this
      cases this

theorem IdsSince.same {b0 b b' : Buf .ump} {z : List Nat} (h : IdsSince b0 b z)
    (s : SameHeads s8 b b') : IdsSince b0 b' z where
  start e := by rw [s.1]; exact h.start e
  len n e := by rw [s.1]; exact h.len n e
  ids j hj := by
    rw [streamId_same s]
    exact h.ids j (by rw [← s.1]; exact hj)

theorem IdsSince.resize {b0 b b' : Buf .ump} {z : List Nat} {n : Nat} (hb : 4 ≤ b.length)
    (h : IdsSince b0 b z) (e : s8.tryResize .vec b n = .ok (b', none)) :
    IdsSince b0 b' (z ++ [n]) := by
  have hs1 := length_vecResize b (s8.stride * s8.count n)
  have hlen : 4 ≤ s8.stride * s8.count n := Nat.le_mul_of_pos_right 4 (s8.count_pos n)
  obtain ⟨w, hw⟩ : ∃ w, b[0]? = some w := ⟨b[0], List.getElem?_eq_getElem (by omega)⟩
  have hw1 : (vecResize b (s8.stride * s8.count n))[0]? = some w := by
    unfold vecResize
    rw [List.getElem?_append_left (by simp; omega), List.getElem?_take_of_lt (by omega), hw]
  obtain ⟨b2, e1, r⟩ := s8.tryResize_fine (m := .vec) (b := b) (n := n) rfl
    (Nat.le_of_eq hs1.symm) ⟨w, hw1, rfl⟩
  rw [e] at e1
  cases e1
  have hst : s8.stride * s8.count n = 4 * s8.count n := rfl
  have hl' : b'.length = 4 * s8.count n := by rw [r.len, hs1, hst]
  refine ⟨fun hz => by simp at hz, fun m hm => ?_, fun j hj => ?_⟩
  · simp only [List.getLast?_append, List.getLast?_singleton, Option.some_or, Option.some.injEq] at hm
    rw [← hm]
    exact hl'
  · rw [streamId_resized r]
    have hjn : j < s8.count n := by omega
    have hiff : (∀ m ∈ z ++ [n], j < s8.count m) ↔ ∀ m ∈ z, j < s8.count m := by
      simp only [List.mem_append, List.mem_singleton]
      exact ⟨fun q m hm => q m (.inl hm), fun q m hm => hm.elim (q m) (fun c => c ▸ hjn)⟩
    simp only [hiff]
    by_cases hjb : 4 * j < b.length
    · rw [octetAt_vecResize_lt _ _ _ (by omega) (by omega)]
      exact h.ids j hjb
    · have h0 : octetAt (vecResize b (s8.stride * s8.count n)) (4 * (4 * j) + 2) = some 0 := by
        rw [octetAt_head _ (4 * j) 2 (by omega)]
        unfold vecResize
        rw [List.getElem?_append_right (by simp; omega), List.getElem?_replicate,
          if_pos (by simp; omega)]
        rfl
      rw [h0]
      rcases List.eq_nil_or_concat z with rfl | ⟨z', m, rfl⟩
      · have := h.start rfl
        rw [if_pos (by simp), octetAt_none (by omega)]
        rfl
      · have := h.len m (by simp)
        rw [if_neg]
        intro q
        have := q m (by simp)
        omega

theorem notedIds (dbg : Bool) {I : Buf .ump → Prop} (g : BitVec 4) (b0 : Buf .ump) :
    Noted (s8.ops dbg .vec) (Loose s8 dbg I g none) (IdsSince b0) where
  write := by
    rintro b l v i b' z ⟨⟨p, P⟩, _⟩ hi e h
    obtain ⟨b2, e1, s, _⟩ := P.write v hi
    change s8.writeDatum b v i = _ at e
    rw [e1] at e
    cases e
    exact h.same s
  same := by
    rintro b l i b' z ⟨⟨p, P⟩, W⟩ e h
    have := P.move_same (fun e => (W.steady e).isCompact) i
    change s8.moveTail dbg b i i = _ at e
    rw [this] at e
    cases e
    exact h
  up := by
    rintro b l tail to b' z ⟨⟨p, P⟩, W⟩ h1 h2 e h
    obtain ⟨b2, e1, s, _⟩ := P.move_up (fun e => (W.steady e).isCompact) h1 h2
    change s8.moveTail dbg b tail to = _ at e
    rw [e1] at e
    cases e
    exact h.same s
  down := by
    rintro b l tail to b' z ⟨⟨p, P⟩, W⟩ h1 h2 e h
    obtain ⟨b2, e1, s, _⟩ := P.move_down (fun e => (W.steady e).isCompact) h1 h2
    change s8.moveTail dbg b tail to = _ at e
    rw [e1] at e
    cases e
    exact h.same s
  resize := by
    rintro b l n b' z ⟨⟨p, P⟩, _⟩ e h
    refine h.resize ?_ e
    have := P.frame.le_mul P.pos
    have : s8.stride = 4 := rfl
    omega

end Sx

end Midi2
