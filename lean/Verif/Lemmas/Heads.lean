import Verif.Lemmas.Construct

/-! Rewriting the first words of the leading packets of a type. -/

namespace Midi2

/-- Rewriting the first word of the packets up to the first which fails the test. -/
def onHeads (s : Nat) (q : BitVec 32 → Bool) (f : BitVec 32 → BitVec 32) (b : List (BitVec 32)) :
    List (BitVec 32) :=
  onChunksExact s b fun cs =>
    (cs.takeWhile (fun p => q (head0 p))).map (modifyHead0 f) ++ cs.dropWhile (fun p => q (head0 p))

/-- Number of leading whole packets which pass the test. -/
def leading (s : Nat) (q : BitVec 32 → Bool) (b : List (BitVec 32)) : Nat :=
  ((chunksExact s b).takeWhile (fun p => q (head0 p))).length

section
variable {s : Nat} (hs : 0 < s) (q : BitVec 32 → Bool) (f : BitVec 32 → BitVec 32)
include hs

theorem onChunksExact_id {α : Type} (b : List α) : onChunksExact s b id = b := by
  induction b using chunks_induction hs with
  | short b h =>
    unfold onChunksExact
    rw [chunksExact_short h, Nat.div_eq_of_lt h]; simp
  | step b h ih =>
    have e : b = b.take s ++ b.drop s := (List.take_append_drop s b).symm
    have hl : (b.take s).length = s := by rw [List.length_take]; omega
    rw [e, onChunks_cons hs _ _ hl id (b.take s) id rfl, ih]

theorem onHeads_short (b : List (BitVec 32)) (h : b.length < s) : onHeads s q f b = b ∧ leading s q b = 0 := by
  unfold onHeads leading onChunksExact
  rw [chunksExact_short h, Nat.div_eq_of_lt h]; simp

theorem onHeads_step (b : List (BitVec 32)) (h : s ≤ b.length) :
    (q (head0 b) = true → onHeads s q f b = modifyHead0 f (b.take s) ++ onHeads s q f (b.drop s) ∧
      leading s q b = leading s q (b.drop s) + 1) ∧
    (q (head0 b) = false → onHeads s q f b = b ∧ leading s q b = 0) := by
  have e : b = b.take s ++ b.drop s := (List.take_append_drop s b).symm
  have hl : (b.take s).length = s := by rw [List.length_take]; omega
  have hh : head0 (b.take s) = head0 b := head0_take hs b
  have hc : chunksExact s b = b.take s :: chunksExact s (b.drop s) := chunksExact_cons hs h
  constructor
  · intro hq
    constructor
    · unfold onHeads
      conv => lhs; rw [e]
      exact onChunks_cons hs _ _ hl _ (modifyHead0 f (b.take s)) _ (by
        simp only [List.takeWhile_cons, List.dropWhile_cons, hh, hq, if_true, List.map_cons,
          List.cons_append])
    · unfold leading
      rw [hc, List.takeWhile_cons, hh, if_pos hq, List.length_cons]
  · intro hq
    constructor
    · have := onChunksExact_id hs b
      unfold onHeads onChunksExact
      unfold onChunksExact at this
      simp only [hc, List.takeWhile_cons, List.dropWhile_cons, hh, hq]
      rw [hc] at this
      simpa using this
    · unfold leading
      rw [hc, List.takeWhile_cons, hh, hq]; rfl

theorem onHeads_getElem? (b : List (BitVec 32)) (i : Nat) :
    (onHeads s q f b)[i]? = if i % s = 0 ∧ i / s < leading s q b then (b[i]?).map f else b[i]? := by
  induction b using chunks_induction hs generalizing i with
  | short b h =>
    obtain ⟨h1, h2⟩ := onHeads_short hs q f b h
    rw [h1, h2, if_neg (fun c => Nat.not_lt_zero _ c.2)]
  | step b h ih =>
    obtain ⟨h1, h2⟩ := onHeads_step hs q f b h
    cases hq : q (head0 b) with
    | false =>
      obtain ⟨h3, h4⟩ := h2 hq
      rw [h3, h4, if_neg (fun c => Nat.not_lt_zero _ c.2)]
    | true =>
      obtain ⟨h3, h4⟩ := h1 hq
      have hl : (modifyHead0 f (b.take s)).length = s := by
        rw [modifyHead0_length, List.length_take]; omega
      rw [h3, h4]
      by_cases hi : i < s
      · rw [List.getElem?_append_left (by omega), Nat.mod_eq_of_lt hi, Nat.div_eq_of_lt hi]
        cases i with
        | zero =>
          rw [if_pos (by omega)]
          cases b with
          | nil => simp at h; omega
          | cons x t =>
            obtain ⟨s', rfl⟩ : ∃ s', s = s' + 1 := ⟨s - 1, by omega⟩
            rfl
        | succ i =>
          rw [if_neg (by omega)]
          cases b with
          | nil => simp at h; omega
          | cons x t =>
            obtain ⟨s', rfl⟩ : ∃ s', s = s' + 1 := ⟨s - 1, by omega⟩
            simp only [List.take_succ_cons, modifyHead0, List.getElem?_cons_succ]
            rw [List.getElem?_take_of_lt (by omega)]
      · rw [List.getElem?_append_right (by omega), hl, ih, List.getElem?_drop]
        have e1 : (i - s) % s = i % s := by
          conv => rhs; rw [show i = (i - s) + s by omega, Nat.add_mod_right]
        have e2 : i / s = (i - s) / s + 1 := by
          conv => lhs; rw [show i = (i - s) + s by omega, Nat.add_div_right _ hs]
        rw [e1, e2, show s + (i - s) = i by omega]
        congr 1
        apply propext
        omega

theorem onHeads_length (b : List (BitVec 32)) : (onHeads s q f b).length = b.length := by
  rcases Nat.lt_trichotomy (onHeads s q f b).length b.length with h | h | h
  · have := onHeads_getElem? hs q f b (onHeads s q f b).length
    rw [List.getElem?_eq_none (Nat.le_refl _), List.getElem?_eq_getElem h] at this
    split at this <;> cases this
  · exact h
  · have := onHeads_getElem? hs q f b b.length
    rw [List.getElem?_eq_getElem h, List.getElem?_eq_none (Nat.le_refl _)] at this
    split at this <;> cases this

/-- The leading packets pass the test. -/
theorem leading_spec (b : List (BitVec 32)) (j : Nat) (hj : j < leading s q b) :
    s * (j + 1) ≤ b.length ∧ ∃ w, b[s * j]? = some w ∧ q w = true := by
  induction b using chunks_induction hs generalizing j with
  | short b h =>
    rw [(onHeads_short hs q id b h).2] at hj; omega
  | step b h ih =>
    obtain ⟨h1, h2⟩ := onHeads_step hs q id b h
    cases hq : q (head0 b) with
    | false => rw [(h2 hq).2] at hj; omega
    | true =>
      rw [(h1 hq).2] at hj
      cases j with
      | zero =>
        refine ⟨by omega, head0 b, ?_, hq⟩
        cases b with
        | nil => simp at h; omega
        | cons x t => rfl
      | succ j =>
        obtain ⟨i1, w, i2, i3⟩ := ih j (by omega)
        rw [List.length_drop] at i1
        rw [List.getElem?_drop] at i2
        refine ⟨?_, w, ?_, i3⟩
        · rw [Nat.mul_succ s (j + 1)]; omega
        · rw [Nat.mul_succ, Nat.add_comm]; exact i2

/-- A run of whole packets which pass the test is leading. -/
theorem le_leading (b : List (BitVec 32)) (p : Nat) (hp : s * p ≤ b.length)
    (h : ∀ j, j < p → ∃ w, b[s * j]? = some w ∧ q w = true) : p ≤ leading s q b := by
  induction b using chunks_induction hs generalizing p with
  | short b hb =>
    cases p with
    | zero => omega
    | succ p => rw [Nat.mul_succ] at hp; omega
  | step b hb ih =>
    cases p with
    | zero => omega
    | succ p =>
      obtain ⟨w, h0, hw⟩ := h 0 (by omega)
      have hh : head0 b = w := by
        cases b with
        | nil => simp at h0
        | cons x t =>
          rw [Nat.mul_zero] at h0
          exact Option.some.inj h0
      have := ((onHeads_step hs q id b hb).1 (by rw [hh]; exact hw)).2
      rw [this]
      have := ih p (by rw [List.length_drop]; rw [Nat.mul_succ] at hp; omega) (by
        intro j hj
        obtain ⟨w, e1, e2⟩ := h (j + 1) (by omega)
        refine ⟨w, ?_, e2⟩
        rw [List.getElem?_drop, Nat.add_comm, ← Nat.mul_succ]; exact e1)
      omega

/-- Only one packet passes the test. -/
theorem onHeads_one (b : List (BitVec 32)) (h : s ≤ b.length) (h0 : q (head0 b) = true)
    (h1 : 2 * s ≤ b.length → ∃ w, b[s]? = some w ∧ q w = false) :
    onHeads s q f b = modifyHead0 f b := by
  have hl : leading s q b = 1 := by
    have e1 : 1 ≤ leading s q b := le_leading hs q b 1 (by omega) (by
      intro j hj
      have : j = 0 := by omega
      subst this
      cases b with
      | nil => simp at h; omega
      | cons x t => exact ⟨x, by simp, h0⟩)
    rcases Nat.lt_or_ge 1 (leading s q b) with h' | h'
    · obtain ⟨a1, w, a2, a3⟩ := leading_spec hs q b 1 h'
      obtain ⟨w', b1, b2⟩ := h1 (by omega)
      rw [Nat.mul_one] at a2
      rw [a2] at b1
      cases b1
      rw [a3] at b2; cases b2
    · omega
  apply List.ext_getElem?
  intro i
  rw [onHeads_getElem? hs, hl]
  cases b with
  | nil => simp at h; omega
  | cons x t =>
    cases i with
    | zero => rw [if_pos ⟨by simp, by simp⟩]; rfl
    | succ i =>
      rw [if_neg]
      · rfl
      · rintro ⟨a1, a2⟩
        have := (Nat.div_lt_iff_lt_mul hs).mp a2
        have := Nat.mod_eq_of_lt (show i + 1 < s by omega)
        omega

end

end Midi2
