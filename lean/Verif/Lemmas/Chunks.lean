import Verif.Model.Chunks

/-! Facts about `chunks_exact` and `chunks`. -/

namespace Midi2

section
variable {α β : Type}

theorem chunksExact_short {k : Nat} {l : List α} (h : l.length < k) : chunksExact k l = [] := by
  unfold chunksExact
  rw [Nat.div_eq_of_lt h]; rfl

theorem chunksExact_cons {k : Nat} (hk : 0 < k) {l : List α} (h : k ≤ l.length) :
    chunksExact k l = l.take k :: chunksExact k (l.drop k) := by
  unfold chunksExact
  have e : l.length / k = (l.drop k).length / k + 1 := by
    rw [List.length_drop, Nat.div_eq_sub_div hk h]
  rw [e, chunksExactAux, if_pos h]

theorem chunksAux_fuel [DecidableEq α] {k : Nat} (hk : 0 < k) (f : Nat) (l : List α)
    (h : l.length ≤ f) : chunksAux k f l = chunksAux k l.length l := by
  induction f using Nat.strongRecOn generalizing l with
  | ind f ih =>
    cases l with
    | nil => cases f <;> rfl
    | cons a t =>
      cases f with
      | zero => simp at h
      | succ f =>
        simp only [chunksAux, List.length_cons, if_neg (List.cons_ne_nil a t)]
        have h1 : ((a :: t).drop k).length ≤ t.length := by simp; omega
        rw [ih f (by omega) _ (by simp at h; omega)]
        by_cases hl : t.length < f
        · rw [ih t.length (by simp at h; omega) _ h1]
        · have e : t.length = f := by simp at h; omega
          rw [e, ih f (by omega) _ (by simp at h; omega)]

theorem chunks_nil [DecidableEq α] {k : Nat} : chunks k ([] : List α) = [] := rfl

theorem chunks_cons [DecidableEq α] {k : Nat} (hk : 0 < k) {l : List α} (h : l ≠ []) :
    chunks k l = l.take k :: chunks k (l.drop k) := by
  unfold chunks
  cases l with
  | nil => exact absurd rfl h
  | cons a t =>
    simp only [List.length_cons, chunksAux, if_neg h]
    rw [chunksAux_fuel hk _ _ (by simp; omega)]

theorem chunksExact_nil {k : Nat} : chunksExact k ([] : List α) = [] := by
  unfold chunksExact; simp [chunksExactAux]

/-- Induction along the chunks of a list. -/
theorem chunks_induction {k : Nat} (hk : 0 < k) {P : List α → Prop}
    (short : ∀ l, l.length < k → P l)
    (step : ∀ l, k ≤ l.length → P (l.drop k) → P l) (l : List α) : P l := by
  generalize hn : l.length = n
  induction n using Nat.strongRecOn generalizing l with
  | ind n ih =>
    by_cases h : l.length < k
    · exact short l h
    · exact step l (by omega) (ih (l.drop k).length (by simp; omega) _ rfl)

theorem chunksExact_length {k : Nat} (hk : 0 < k) (l : List α) :
    (chunksExact k l).length = l.length / k := by
  induction l using chunks_induction hk with
  | short l h => rw [chunksExact_short h, Nat.div_eq_of_lt h]; rfl
  | step l h ih => rw [chunksExact_cons hk h, List.length_cons, ih, List.length_drop,
      ← Nat.div_eq_sub_div hk h]

theorem chunksExact_getElem? {k : Nat} (hk : 0 < k) (l : List α) (i : Nat) :
    (chunksExact k l)[i]? =
      if k * (i + 1) ≤ l.length then some ((l.drop (k * i)).take k) else none := by
  induction l using chunks_induction hk generalizing i with
  | short l h =>
    rw [chunksExact_short h, if_neg]
    · simp
    · have : k * 1 ≤ k * (i + 1) := Nat.mul_le_mul_left k (by omega)
      omega
  | step l h ih =>
    rw [chunksExact_cons hk h]
    cases i with
    | zero => simp [h]
    | succ i =>
      rw [List.getElem?_cons_succ, ih, List.length_drop, List.drop_drop]
      have e : k * (i + 1 + 1) = k + k * (i + 1) := by rw [Nat.mul_succ k (i + 1)]; omega
      have e2 : k * (i + 1) = k + k * i := by rw [Nat.mul_succ]; omega
      by_cases hc : k * (i + 1) ≤ l.length - k
      · rw [if_pos hc, if_pos (by omega), e2]
      · rw [if_neg hc, if_neg (by omega)]

theorem chunksExact_mem_length {k : Nat} {l : List α} (hk : 0 < k) {p : List α}
    (h : p ∈ chunksExact k l) : p.length = k := by
  induction l using chunks_induction hk with
  | short l hs => rw [chunksExact_short hs] at h; cases h
  | step l hs ih =>
    rw [chunksExact_cons hk hs] at h
    rcases List.mem_cons.mp h with e | h
    · rw [e]; simp; omega
    · exact ih h

theorem chunksExact_flatten {k : Nat} (hk : 0 < k) (l : List α) :
    (chunksExact k l).flatten = l.take (k * (l.length / k)) := by
  induction l using chunks_induction hk with
  | short l h => rw [chunksExact_short h, Nat.div_eq_of_lt h]; simp
  | step l h ih =>
    rw [chunksExact_cons hk h, List.flatten_cons, ih, List.length_drop, Nat.div_eq_sub_div hk h,
      Nat.mul_succ, Nat.add_comm, List.take_add]

theorem chunksExact_append {k : Nat} (hk : 0 < k) (l s : List α) (h : k ∣ l.length) :
    chunksExact k (l ++ s) = chunksExact k l ++ chunksExact k s := by
  induction l using chunks_induction hk with
  | short l hs =>
    have : l.length = 0 := Nat.eq_zero_of_dvd_of_lt h hs
    rw [List.length_eq_zero_iff] at this
    subst this
    simp [chunksExact_nil]
  | step l hs ih =>
    have h' : k ∣ (l.drop k).length := by
      rw [List.length_drop]; exact Nat.dvd_sub h (Nat.dvd_refl k)
    rw [chunksExact_cons hk hs, chunksExact_cons hk (by simp; omega), List.take_append_of_le_length hs,
      List.drop_append_of_le_length hs, ih h', List.cons_append]

/-- Whole packets: `chunks` and `chunks_exact` coincide. -/
theorem chunks_eq_chunksExact [DecidableEq α] {k : Nat} (hk : 0 < k) (l : List α)
    (h : k ∣ l.length) : chunks k l = chunksExact k l := by
  induction l using chunks_induction hk with
  | short l hs =>
    have : l.length = 0 := Nat.eq_zero_of_dvd_of_lt h hs
    rw [List.length_eq_zero_iff] at this
    subst this
    rw [chunksExact_nil, chunks_nil]
  | step l hs ih =>
    have h' : k ∣ (l.drop k).length := by
      rw [List.length_drop]; exact Nat.dvd_sub h (Nat.dvd_refl k)
    rw [chunksExact_cons hk hs, chunks_cons hk (by intro e; simp [e] at hs; omega), ih h']

/-- `chunks` is `chunks_exact` plus the remainder. -/
theorem chunks_eq [DecidableEq α] {k : Nat} (hk : 0 < k) (l : List α) :
    chunks k l = chunksExact k l ++
      (if l.drop (k * (l.length / k)) = [] then [] else [l.drop (k * (l.length / k))]) := by
  induction l using chunks_induction hk with
  | short l hs =>
    rw [chunksExact_short hs, Nat.div_eq_of_lt hs]
    simp only [Nat.mul_zero, List.drop_zero, List.nil_append]
    by_cases hl : l = []
    · subst hl; rfl
    · rw [if_neg hl, chunks_cons hk hl, List.take_of_length_le (by omega),
        List.drop_of_length_le (by omega), chunks_nil]
  | step l hs ih =>
    have hl : l ≠ [] := by intro e; simp [e] at hs; omega
    rw [chunks_cons hk hl, ih, chunksExact_cons hk hs, List.cons_append, List.length_drop,
      List.drop_drop, Nat.div_eq_sub_div hk hs, Nat.mul_succ, Nat.add_comm (k * _) k]

theorem head0_take {k : Nat} (hk : 0 < k) (l : List (BitVec 32)) :
    head0 (l.take k) = head0 l := by
  cases l with
  | nil => simp
  | cons a t => cases k with
    | zero => omega
    | succ k => rfl

/-- Heads of chunks of buffers which agree at the positions of the heads. -/
theorem chunksExact_heads_congr {k : Nat} (hk : 0 < k) (g : BitVec 32 → β)
    (b b' : List (BitVec 32)) (hl : b.length = b'.length)
    (h : ∀ i, k ∣ i → (b[i]?).map g = (b'[i]?).map g) :
    (chunksExact k b).map (fun p => g (head0 p)) = (chunksExact k b').map (fun p => g (head0 p)) := by
  induction b using chunks_induction hk generalizing b' with
  | short l hs => rw [chunksExact_short hs, chunksExact_short (by omega)]
  | step l hs ih =>
    rw [chunksExact_cons hk hs, chunksExact_cons (l := b') hk (by omega), List.map_cons,
      List.map_cons,
      ih (b'.drop k) (by simp [hl])]
    · congr 1
      have := h 0 (Nat.dvd_zero k)
      rw [head0_take hk, head0_take hk]
      cases l with
      | nil => simp at hs; omega
      | cons a t => cases b' with
        | nil => simp at hl
        | cons a' t' => simpa [head0] using this
    · intro i hi
      rw [List.getElem?_drop, List.getElem?_drop]
      exact h _ (Nat.dvd_add (Nat.dvd_refl k) hi)

theorem chunks_heads_congr {k : Nat} (hk : 0 < k) (g : BitVec 32 → β)
    (b b' : List (BitVec 32)) (hl : b.length = b'.length)
    (h : ∀ i, k ∣ i → (b[i]?).map g = (b'[i]?).map g) :
    (chunks k b).map (fun p => g (head0 p)) = (chunks k b').map (fun p => g (head0 p)) := by
  rw [chunks_eq hk, chunks_eq hk, List.map_append, List.map_append,
    chunksExact_heads_congr hk g b b' hl h, ← hl]
  congr 1
  have := h (k * (b.length / k)) (Nat.dvd_mul_right _ _)
  have hd : ∀ c : List (BitVec 32), c.drop (k * (b.length / k)) = [] ↔
      c[k * (b.length / k)]? = none := by
    intro c; simp
  have hh : ∀ c : List (BitVec 32), (c.drop (k * (b.length / k))).head? =
      c[k * (b.length / k)]? := by intro c; simp
  cases e : b[k * (b.length / k)]? with
  | none =>
    have e' : b'[k * (b.length / k)]? = none := by
      rw [e] at this; simpa using this.symm
    rw [if_pos ((hd b).mpr e), if_pos ((hd b').mpr e')]
  | some w =>
    cases e' : b'[k * (b.length / k)]? with
    | none => rw [e, e'] at this; simp at this
    | some w' =>
      rw [if_neg (fun c => by simp [(hd b).mp c] at e), if_neg (fun c => by simp [(hd b').mp c] at e')]
      rw [e, e'] at this
      have r : ∀ c : List (BitVec 32), ∀ x, c[k * (b.length / k)]? = some x →
          head0 (c.drop (k * (b.length / k))) = x := by
        intro c x hx
        have := (hh c).trans hx
        unfold head0
        rw [List.headD_eq_head?_getD, this]; rfl
      simp only [List.map_cons, List.map_nil, r b w e, r b' w' e']
      simpa using this

end

/-- `validate_sysex_group_statuses` for predicates on the first word of packets. -/
def statusesLoopW (isContinue isEnd : BitVec 32 → Bool) : List (BitVec 32) → Res Unit
  | [] => .ok ()
  | [p] => if isEnd p then .ok () else .err .invalidData
  | p :: q :: rest =>
    if isContinue p then statusesLoopW isContinue isEnd (q :: rest)
    else .err .invalidData

def statusesW (isComplete isBegin isContinue isEnd : BitVec 32 → Bool) :
    List (BitVec 32) → Res Unit
  | [] => .err .invalidData
  | [p] => if isComplete p then .ok () else .err .invalidData
  | p :: rest =>
    if isBegin p then statusesLoopW isContinue isEnd rest else .err .invalidData

theorem loopW_eq (c e : BitVec 32 → Bool) (ps : List (List (BitVec 32))) :
    validateStatusesLoop (fun p => c (head0 p)) (fun p => e (head0 p)) ps =
      statusesLoopW c e (ps.map head0) := by
  induction ps with
  | nil => rfl
  | cons p ps ih =>
    cases ps with
    | nil => rfl
    | cons q ps => simp only [validateStatusesLoop, List.map_cons, statusesLoopW] at *; rw [ih]

theorem validateStatuses_eq (k : Nat) (t : BitVec 4) (a b c d : BitVec 32 → Bool)
    (buf : List (BitVec 32)) :
    validateStatuses (fun p => a (head0 p)) (fun p => b (head0 p)) (fun p => c (head0 p))
      (fun p => d (head0 p)) k t buf =
    statusesW a b c d (((chunks k buf).map head0).takeWhile (fun w => U32.nibble w 0 == t)) := by
  unfold validateStatuses
  rw [List.takeWhile_map]
  have : ((fun w => U32.nibble w 0 == t) ∘ head0) = fun p => U32.nibble (head0 p) 0 == t := rfl
  rw [this]
  generalize (chunks k buf).takeWhile (fun p => U32.nibble (head0 p) 0 == t) = ps
  cases ps with
  | nil => rfl
  | cons p ps =>
    cases ps with
    | nil => rfl
    | cons q ps =>
      simp only [List.map_cons, statusesW]
      rw [loopW_eq]; rfl

theorem statusesLoopW_map {γ : Type} (g : BitVec 32 → γ) (c e : BitVec 32 → Bool)
    (hc : ∀ x y, g x = g y → c x = c y) (he : ∀ x y, g x = g y → e x = e y) :
    ∀ l l' : List (BitVec 32), l.map g = l'.map g → statusesLoopW c e l = statusesLoopW c e l'
  | [], [], _ => rfl
  | [], _ :: _, h => by simp at h
  | _ :: _, [], h => by simp at h
  | [x], [y], h => by
    simp only [List.map_cons, List.map_nil, List.cons.injEq, and_true] at h
    simp only [statusesLoopW, he x y h]
  | [_], _ :: _ :: _, h => by simp at h
  | _ :: _ :: _, [_], h => by simp at h
  | x :: x' :: l, y :: y' :: l', h => by
    simp only [List.map_cons, List.cons.injEq] at h
    simp only [statusesLoopW, hc x y h.1]
    rw [statusesLoopW_map g c e hc he (x' :: l) (y' :: l') (by simp [h.2])]

theorem statusesW_map {γ : Type} (g : BitVec 32 → γ) (a b c e : BitVec 32 → Bool)
    (ha : ∀ x y, g x = g y → a x = a y) (hb : ∀ x y, g x = g y → b x = b y)
    (hc : ∀ x y, g x = g y → c x = c y) (he : ∀ x y, g x = g y → e x = e y) :
    ∀ l l' : List (BitVec 32), l.map g = l'.map g → statusesW a b c e l = statusesW a b c e l'
  | [], [], _ => rfl
  | [], _ :: _, h => by simp at h
  | _ :: _, [], h => by simp at h
  | [x], [y], h => by
    simp only [List.map_cons, List.map_nil, List.cons.injEq, and_true] at h
    simp only [statusesW, ha x y h]
  | [_], _ :: _ :: _, h => by simp at h
  | _ :: _ :: _, [_], h => by simp at h
  | x :: x' :: l, y :: y' :: l', h => by
    simp only [List.map_cons, List.cons.injEq] at h
    simp only [statusesW, hb x y h.1]
    rw [statusesLoopW_map g c e hc he (x' :: l) (y' :: l') (by simp [h.2])]

theorem takeWhile_map_congr {α γ : Type} (g : α → γ) (p : α → Bool)
    (hp : ∀ x y, g x = g y → p x = p y) :
    ∀ l l' : List α, l.map g = l'.map g → (l.takeWhile p).map g = (l'.takeWhile p).map g
  | [], [], _ => rfl
  | [], _ :: _, h => by simp at h
  | _ :: _, [], h => by simp at h
  | x :: l, y :: l', h => by
    simp only [List.map_cons, List.cons.injEq] at h
    rw [List.takeWhile_cons, List.takeWhile_cons, hp x y h.1]
    split
    · simp [h.1, takeWhile_map_congr g p hp l l' h.2]
    · rfl

theorem all_map_congr {α γ : Type} (g : α → γ) (p : α → Bool)
    (hp : ∀ x y, g x = g y → p x = p y) :
    ∀ l l' : List α, l.map g = l'.map g → l.all p = l'.all p
  | [], [], _ => rfl
  | [], _ :: _, h => by simp at h
  | _ :: _, [], h => by simp at h
  | x :: l, y :: l', h => by
    simp only [List.map_cons, List.cons.injEq] at h
    rw [List.all_cons, List.all_cons, hp x y h.1, all_map_congr g p hp l l' h.2]

end Midi2
