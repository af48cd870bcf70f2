import Verif.Spec.Effort
import Verif.Lemmas.Splice

/-! Counting the work of a splice. -/

namespace Midi2

theorem Res.of_bind_ok {α β : Type} {x : Res α} {f : α → Res β} {b : β} (h : (x >>= f) = .ok b) :
    ∃ a, x = .ok a ∧ f a = .ok b := by
  cases x with
  | ok a => exact ⟨a, rfl, h⟩
  | err e => cases h
  | panic => cases h

theorem usub_inv {a b c : Nat} (h : usub a b = .ok c) : b ≤ a ∧ c = a - b := by
  unfold usub at h
  split at h
  · next hb => exact ⟨hb, by cases h; rfl⟩
  · cases h

/-- How a message answers a resize: a limit that nothing changes; what exceeds it is refused, with
the limit.  `none` is no limit. -/
structure Paced {S β : Type} (ops : SxOps S β) (I : S → Prop) (lim : Option Nat) : Prop where
  resize : ∀ {s n s' r}, I s → ops.resize s n = .ok (s', r) →
    I s' ∧ (r = none → Fits lim n) ∧ ∀ sz, r = some sz → lim = some sz
  compact : ∀ {s s'}, I s → ops.compact s = .ok s' → I s'
  move : ∀ {s t u s'}, I s → ops.moveTail s t u = .ok s' → I s'
  write : ∀ {s v i s'}, I s → ops.writeDatum s v i = .ok s' → I s'

namespace Paced

variable {S β : Type} {ops : SxOps S β} {I : S → Prop} {lim : Option Nat}

theorem fill_effort (P : Paced ops I lim) {begin est : Nat} :
    ∀ (data : List β) {s : S} {e : Effort} {w : Nat} {s' : S} {e' : Effort} {rest : List β}
      {w' : Nat} {ex : Bool}, I s → w ≤ est →
      ops.logged.fill begin est data (s, e) w = .ok ((s', e'), rest, w', ex) →
      I s' ∧ w ≤ w' ∧ w' ≤ est ∧ w' + rest.length = w + data.length ∧
      e' = { e with writes := e.writes + (w' - w) } ∧ (ex = true → rest = []) := by
  intro data
  induction data with
  | nil =>
    intro s e w s' e' rest w' ex hI hw h
    simp only [SxOps.fill, Res.ok.injEq, Prod.mk.injEq] at h
    obtain ⟨⟨rfl, rfl⟩, rfl, rfl, rfl⟩ := h
    refine ⟨hI, Nat.le_refl _, hw, rfl, ?_, fun _ => rfl⟩
    simp
  | cons v data ih =>
    intro s e w s' e' rest w' ex hI hw h
    unfold SxOps.fill at h
    split at h
    · next hlt =>
      obtain ⟨⟨s1, e1⟩, h1, h⟩ := Res.of_bind_ok h
      obtain ⟨s2, h2, h1⟩ := Res.of_bind_ok h1
      simp only [Res.pure_eq, Res.ok.injEq, Prod.mk.injEq] at h1
      obtain ⟨rfl, rfl⟩ := h1
      obtain ⟨i, a, b, c, d, f⟩ := ih (P.write hI h2) (by omega) h
      refine ⟨i, by omega, b, by rw [List.length_cons]; omega, ?_, f⟩
      rw [d]
      congr 1
      show e.writes + 1 + _ = _
      omega
    · next hge =>
      simp only [Res.ok.injEq, Prod.mk.injEq] at h
      obtain ⟨⟨rfl, rfl⟩, rfl, rfl, rfl⟩ := h
      exact ⟨hI, Nat.le_refl _, hw, rfl, by simp, fun h => by cases h⟩

theorem growMore_effort (P : Paced ops I lim) {s : S} {e : Effort} {begin tail initial sp est : Nat}
    {s' : S} {e' : Effort} {est' to : Nat} (hI : I s)
    (h : ops.logged.growMore (s, e) begin tail initial sp est = .ok ((s', e'), est', to)) :
    I s' ∧
    ((begin + est ≤ tail ∧ e' = e ∧ est' = est) ∨
     (tail < begin + est ∧ sp ≤ est + initial ∧
      e' = { e with resizes := e.resizes ++ [est + initial - sp] } ∧
      ((est' = est ∧ Fits lim (est + initial - sp)) ∨
       ∃ c, lim = some c ∧ sp ≤ initial ∧ est' = c - (initial - sp)))) := by
  unfold SxOps.growMore at h
  split at h
  · next ht =>
    obtain ⟨n, h1, h⟩ := Res.of_bind_ok h
    obtain ⟨hn, rfl⟩ := usub_inv h1
    obtain ⟨⟨⟨s1, e1⟩, r⟩, h2, h⟩ := Res.of_bind_ok h
    obtain ⟨⟨s2, r2⟩, h3, h2⟩ := Res.of_bind_ok h2
    simp only [Res.pure_eq, Res.ok.injEq, Prod.mk.injEq] at h2
    obtain ⟨⟨rfl, rfl⟩, rfl⟩ := h2
    obtain ⟨i, hf, hs⟩ := P.resize hI h3
    cases r2 with
    | none =>
      simp only [Res.ok.injEq, Prod.mk.injEq] at h
      obtain ⟨⟨rfl, rfl⟩, rfl, rfl⟩ := h
      exact ⟨i, .inr ⟨ht, hn, rfl, .inl ⟨rfl, hf rfl⟩⟩⟩
    | some sz =>
      obtain ⟨kept, h4, h⟩ := Res.of_bind_ok h
      obtain ⟨hk, rfl⟩ := usub_inv h4
      obtain ⟨t, h5, h⟩ := Res.of_bind_ok h
      simp only [Res.ok.injEq, Prod.mk.injEq] at h
      obtain ⟨⟨rfl, rfl⟩, rfl, rfl⟩ := h
      exact ⟨i, .inr ⟨ht, hn, rfl, .inr ⟨sz, hs sz rfl, hk, rfl⟩⟩⟩
  · next ht =>
    simp only [Res.ok.injEq, Prod.mk.injEq] at h
    obtain ⟨⟨rfl, rfl⟩, rfl, rfl⟩ := h
    exact ⟨hI, .inl ⟨by omega, rfl, rfl⟩⟩

/-- The record after the loop, whichever way it ends. -/
def LoopEnd.record {S : Type} : LoopEnd (S × Effort) → S × Effort
  | .done x _ _ => x
  | .overflow x => x

/-- What the loop adds to the record: at most so many resizes and moves. -/
structure Spent (I : S → Prop) (e : Effort) (r : LoopEnd (S × Effort)) (total written k : Nat) :
    Prop where
  inv : I (LoopEnd.record r).1
  more : ∃ R M, (LoopEnd.record r).2.resizes = e.resizes ++ R ∧
    (LoopEnd.record r).2.moves = e.moves ++ M ∧ R.length ≤ k ∧ M.length ≤ k
  writes : (LoopEnd.record r).2.writes ≤ e.writes + (total - written)
  done : ∀ x w t, r = .done x w t → w = total ∧
    (LoopEnd.record r).2.writes = e.writes + (total - written)

/-- One turn of the loop up to the growth. -/
theorem turn (P : Paced ops I lim) {begin initial sp fuel : Nat} {s : S} {e : Effort}
    {data : List β} {w est add tail : Nat} {r : LoopEnd (S × Effort)} (hI : I s) (hw : w ≤ est)
    (h : ops.logged.mainLoop begin initial sp (fuel + 1) (s, e) data w est add tail = .ok r) :
    (∃ s1, I s1 ∧ w + data.length ≤ est ∧
      r = .done (s1, { e with writes := e.writes + data.length }) (w + data.length) tail) ∨
    (∃ s1 s2 e2 est' to s3 rest, I s1 ∧ est + rest.length = w + data.length ∧ rest ≠ [] ∧
      ops.logged.growMore (s1, { e with writes := e.writes + (est - w) }) begin tail initial sp
        (est + add) = .ok ((s2, e2), est', to) ∧ I s2 ∧ I s3 ∧
      ((est' ≤ est ∧ r = .overflow (s3, { e2 with moves := e2.moves ++ [(tail, to)] })) ∨
       (est < est' ∧ ops.logged.mainLoop begin initial sp fuel
          (s3, { e2 with moves := e2.moves ++ [(tail, to)] }) rest est est' (add * 2)
          (begin + est') = .ok r))) := by
  unfold SxOps.mainLoop at h
  obtain ⟨⟨⟨s1, e1⟩, rest, w1, ex⟩, h1, h⟩ := Res.of_bind_ok h
  obtain ⟨i1, a1, a2, a3, a4, a5⟩ := P.fill_effort data hI hw h1
  simp only at h
  split at h
  · next hex =>
    simp only [Res.pure_eq, Res.ok.injEq] at h
    have : rest = [] := a5 hex
    subst this
    simp only [List.length_nil, Nat.add_zero] at a3
    refine .inl ⟨s1, i1, by omega, ?_⟩
    subst h
    rw [a4, a3]
    congr 4
    omega
  · obtain ⟨_, h2, q⟩ := Res.of_bind_ok h
    clear h
    have hwe : w1 = est := by
      unfold Res.assert at h2
      split at h2
      · next hc => exact eq_of_beq hc
      · cases h2
    subst hwe
    split at q
    · next hem =>
      simp only [Res.pure_eq, Res.ok.injEq] at q
      have : rest = [] := List.isEmpty_iff.mp hem
      subst this
      simp only [List.length_nil, Nat.add_zero] at a3
      refine .inl ⟨s1, i1, by omega, ?_⟩
      rw [← q]
      rw [a4, a3]
      congr 4
      omega
    · next hem =>
      obtain ⟨⟨⟨s2, e2⟩, est', to⟩, h3, q⟩ := Res.of_bind_ok q
      obtain ⟨⟨s3, e3⟩, h4, q⟩ := Res.of_bind_ok q
      obtain ⟨s4, h5, h4⟩ := Res.of_bind_ok h4
      simp only [Res.pure_eq, Res.ok.injEq, Prod.mk.injEq] at h4
      obtain ⟨rfl, rfl⟩ := h4
      have i2 := (P.growMore_effort i1 h3).1
      rw [a4] at h3
      refine .inr ⟨s1, s2, e2, est', to, s4, rest, i1, by omega, fun hn => hem (by rw [hn]; rfl),
        h3, i2, P.move i2 h5, ?_⟩
      simp only at q
      split at q
      · next hge =>
        simp only [Res.pure_eq, Res.ok.injEq] at q
        exact .inl ⟨hge, q.symm⟩
      · next hlt => exact .inr ⟨by omega, q⟩

/-- After a refusal at most one more turn grows. -/
theorem after_refusal (P : Paced ops I lim) {begin initial sp fuel c : Nat} {s : S} {e : Effort}
    {data : List β} {w est add : Nat} {r : LoopEnd (S × Effort)} (hI : I s) (hw : w ≤ est)
    (ha : 1 ≤ add) (hc : lim = some c) (hsp : sp ≤ initial) (he : est = c - (initial - sp))
    (h : ops.logged.mainLoop begin initial sp fuel (s, e) data w est add (begin + est) = .ok r) :
    Spent I e r (w + data.length) w 1 := by
  cases fuel with
  | zero => cases h
  | succ fuel =>
    rcases P.turn hI hw h with ⟨s1, i1, -, rfl⟩ | ⟨s1, s2, e2, est', to, s3, rest, i1, hr, -, hg,
      i2, i3, hcase⟩
    · exact ⟨i1, ⟨[], [], by simp [LoopEnd.record], by simp [LoopEnd.record], by simp, by simp⟩,
        by simp [LoopEnd.record], fun x w' t hx => by
          cases hx
          exact ⟨rfl, by simp [LoopEnd.record]⟩⟩
    · obtain ⟨-, hg⟩ := P.growMore_effort i1 hg
      have key : est' = est ∧ e2.resizes = e.resizes ++ [est + add + initial - sp] ∧
          e2.moves = e.moves ∧ e2.writes = e.writes + (est - w) := by
        rcases hg with ⟨hx, -, -⟩ | ⟨-, -, rfl, ⟨-, hf⟩ | ⟨c', hc', -, rfl⟩⟩
        · omega
        · have := hf c hc
          omega
        · rw [hc] at hc'
          cases hc'
          exact ⟨he.symm, rfl, rfl, rfl⟩
      obtain ⟨rfl, k1, k2, k3⟩ := key
      rcases hcase with ⟨-, rfl⟩ | ⟨hlt, -⟩
      · refine ⟨i3, ⟨_, [(begin + est', to)], k1, by simp [LoopEnd.record, k2], by simp, by simp⟩, ?_,
          fun x w' t hx => by cases hx⟩
        simp only [LoopEnd.record, k3]
        omega
      · omega

/-- The loop grows at most `m` times, and once more on buffers that refuse. -/
theorem loop_effort (P : Paced ops I lim) {begin initial sp : Nat} : ∀ (fuel : Nat) {s : S}
    {e : Effort} {data : List β} {w est add tail m : Nat} {r : LoopEnd (S × Effort)}, I s →
    w ≤ est → 1 ≤ add → w + data.length + add ≤ est + add * 2 ^ m →
    ops.logged.mainLoop begin initial sp fuel (s, e) data w est add tail = .ok r →
    Spent I e r (w + data.length) w (if lim = none ∨ m = 0 then m else m + 1) ∧
    (lim = none → add ≤ est + 1 → (∃ x t, r = .done x (w + data.length) t) ∧
      ∀ R, (LoopEnd.record r).2.resizes = e.resizes ++ R →
        ∀ n ∈ R, n ≤ 2 * (w + data.length) + initial - sp) := by
  intro fuel
  induction fuel with
  | zero => intro s e data w est add tail m r _ _ _ _ h; cases h
  | succ fuel ih =>
    intro s e data w est add tail m r hI hw ha hm h
    rcases P.turn hI hw h with ⟨s1, i1, -, rfl⟩ | ⟨s1, s2, e2, est', to, s3, rest, i1, hr, hne, hg,
      i2, i3, hcase⟩
    · refine ⟨⟨i1, ⟨[], [], by simp [LoopEnd.record], by simp [LoopEnd.record], by simp, by simp⟩,
        by simp [LoopEnd.record], fun x w' t hx => by
          cases hx
          exact ⟨rfl, by simp [LoopEnd.record]⟩⟩, fun _ _ => ⟨⟨_, _, rfl⟩, ?_⟩⟩
      intro R hR
      have : R = [] := by simpa [LoopEnd.record] using hR
      subst this
      simp
    · obtain ⟨-, hg⟩ := P.growMore_effort i1 hg
      have hpos : 0 < rest.length := List.length_pos_iff.mpr hne
      obtain ⟨m, rfl⟩ : ∃ m', m = m' + 1 := by
        cases m with
        | zero => simp only [Nat.pow_zero, Nat.mul_one] at hm; omega
        | succ m => exact ⟨m, rfl⟩
      have hm' : est + rest.length + add * 2 ≤ est + add + add * 2 * 2 ^ m := by
        have : add * 2 ^ (m + 1) = add * 2 * 2 ^ m := by
          rw [Nat.pow_succ, Nat.mul_comm (2 ^ m) 2, Nat.mul_assoc]
        omega
      have hkm : m + 1 ≤ (if lim = none ∨ m + 1 = 0 then m + 1 else m + 1 + 1) := by
        split <;> omega
      have hbound : ∀ {a b : Nat}, a ≤ 1 → 0 ≤ b →
          b ≤ (if lim = none ∨ m = 0 then m else m + 1) →
          a + b ≤ (if lim = none ∨ m + 1 = 0 then m + 1 else m + 1 + 1) := by
        intro a b h1 _ h2
        by_cases hn : lim = none
        · rw [if_pos (.inl hn)] at h2 ⊢; omega
        · rw [if_neg (fun h => h.elim hn (by omega))]
          split at h2 <;> omega
      -- what this turn adds
      have key : e2.moves = e.moves ∧ e2.writes = e.writes + (est - w) ∧
          ((est' = est + add ∧ ∃ R1, e2.resizes = e.resizes ++ R1 ∧ R1.length ≤ 1 ∧
              ∀ n ∈ R1, n = est + add + initial - sp) ∨
           (∃ c, lim = some c ∧ sp ≤ initial ∧ est' = c - (initial - sp) ∧ ∃ R1,
              e2.resizes = e.resizes ++ R1 ∧ R1.length ≤ 1)) := by
        rcases hg with ⟨-, rfl, rfl⟩ | ⟨-, -, rfl, ⟨rfl, hf⟩ | ⟨c', hc', hs, rfl⟩⟩
        · exact ⟨rfl, rfl, .inl ⟨rfl, [], by simp, by simp, by simp⟩⟩
        · exact ⟨rfl, rfl, .inl ⟨rfl, _, rfl, by simp, by simp⟩⟩
        · exact ⟨rfl, rfl, .inr ⟨c', hc', hs, rfl, _, rfl, by simp⟩⟩
      obtain ⟨k1, k2, k3⟩ := key
      clear hg
      rw [← hr]
      rcases hcase with ⟨hle, rfl⟩ | ⟨hlt, hl⟩
      · rcases k3 with ⟨rfl, -⟩ | ⟨c, hc, -, -, R1, hR1, hl1⟩
        · omega
        · refine ⟨⟨i3, ⟨R1, [(tail, to)], by simp [LoopEnd.record, hR1], by simp [LoopEnd.record, k1],
            by omega, by simp only [List.length_singleton]; omega⟩, ?_, fun x w' t hx => by cases hx⟩,
            fun hn => ?_⟩
          · simp only [LoopEnd.record, k2]; omega
          · rw [hn] at hc; cases hc
      · rcases k3 with ⟨rfl, R1, hR1, hl1, hb1⟩ | ⟨c, hc, hs, hest, R1, hR1, hl1⟩
        · obtain ⟨Z, B⟩ := ih (m := m) i3 (by omega) (by omega) hm' hl
          obtain ⟨R2, M2, q1, q2, q3, q4⟩ := Z.more
          refine ⟨⟨Z.inv, ⟨R1 ++ R2, (tail, to) :: M2, ?_, ?_, ?_, ?_⟩, ?_, ?_⟩, ?_⟩
          · rw [q1]; simp [hR1]
          · rw [q2]; simp [k1]
          · rw [List.length_append]
            exact hbound (by omega) (by omega) q3
          · rw [List.length_cons, Nat.add_comm]
            exact hbound (by omega) (by omega) q4
          · have := Z.writes
            simp only [k2] at this
            omega
          · intro x w' t hx
            obtain ⟨y1, y2⟩ := Z.done x w' t hx
            refine ⟨y1, ?_⟩
            simp only [k2] at y2
            omega
          · intro hn hadd
            obtain ⟨B1, B2⟩ := B hn (by omega)
            refine ⟨B1, fun R hR n hn' => ?_⟩
            have hR' : R = R1 ++ R2 := by
              rw [q1] at hR
              simp only [hR1, List.append_assoc] at hR
              exact (List.append_cancel_left hR).symm
            subst hR'
            rcases List.mem_append.mp hn' with hn' | hn'
            · rw [hb1 n hn']
              omega
            · exact B2 R2 (by rw [q1]) n hn'
        · have Z := P.after_refusal i3 (by omega) (by omega) hc hs hest hl
          obtain ⟨R2, M2, q1, q2, q3, q4⟩ := Z.more
          have hk : (if lim = none ∨ m + 1 = 0 then m + 1 else m + 1 + 1) = m + 2 := by
            rw [if_neg (by rw [hc]; simp)]
          refine ⟨⟨Z.inv, ⟨R1 ++ R2, (tail, to) :: M2, ?_, ?_, ?_, ?_⟩, ?_, ?_⟩, fun hn => ?_⟩
          · rw [q1]; simp [hR1]
          · rw [q2]; simp [k1]
          · rw [List.length_append, hk]; omega
          · rw [List.length_cons, hk]; omega
          · have := Z.writes
            simp only [k2] at this
            omega
          · intro x w' t hx
            obtain ⟨y1, y2⟩ := Z.done x w' t hx
            refine ⟨y1, ?_⟩
            simp only [k2] at y2
            omega
          · rw [hn] at hc; cases hc

theorem firstGrow_effort (P : Paced ops I lim) {s : S} {e : Effort} {end' initial sp est : Nat}
    {s' : S} {e' : Effort} {est' : Nat} (hI : I s)
    (h : ops.logged.firstGrow (s, e) end' initial sp est = .ok ((s', e'), est')) :
    I s' ∧ e'.moves = e.moves ∧ e'.writes = e.writes ∧
    ((est ≤ sp ∧ e'.resizes = e.resizes ∧ est' = est) ∨
     (sp < est ∧ e'.resizes = e.resizes ++ [est + initial - sp] ∧
      (est' = est ∨
       ∃ c, lim = some c ∧ sp ≤ initial ∧ est' = c - (initial - sp)))) := by
  unfold SxOps.firstGrow at h
  obtain ⟨g, h0, h⟩ := Res.of_bind_ok h
  obtain ⟨h00, rfl⟩ := usub_inv h0
  split at h
  · next ht =>
    obtain ⟨n, h1, h⟩ := Res.of_bind_ok h
    obtain ⟨hn, rfl⟩ := usub_inv h1
    obtain ⟨⟨⟨s1, e1⟩, r⟩, h2, h⟩ := Res.of_bind_ok h
    obtain ⟨⟨s2, r2⟩, h3, h2⟩ := Res.of_bind_ok h2
    simp only [Res.pure_eq, Res.ok.injEq, Prod.mk.injEq] at h2
    obtain ⟨⟨rfl, rfl⟩, rfl⟩ := h2
    obtain ⟨i, hf, hs⟩ := P.resize hI h3
    cases r2 with
    | none =>
      simp only [Res.ok.injEq, Prod.mk.injEq] at h
      obtain ⟨⟨rfl, rfl⟩, rfl⟩ := h
      exact ⟨i, rfl, rfl, .inr ⟨by omega, rfl, .inl rfl⟩⟩
    | some sz =>
      obtain ⟨kept, h4, h⟩ := Res.of_bind_ok h
      obtain ⟨hk, rfl⟩ := usub_inv h4
      simp only [Res.ok.injEq, Prod.mk.injEq] at h
      obtain ⟨⟨rfl, rfl⟩, rfl⟩ := h
      exact ⟨i, rfl, rfl, .inr ⟨by omega, rfl, .inr ⟨sz, hs sz rfl, hk, rfl⟩⟩⟩
  · next ht =>
    simp only [Res.ok.injEq, Prod.mk.injEq] at h
    obtain ⟨⟨rfl, rfl⟩, rfl⟩ := h
    exact ⟨hI, rfl, rfl, .inl ⟨by omega, rfl, rfl⟩⟩

/-- The work of a splice, whichever way it ends. -/
theorem detail_effort (P : Paced ops I lim) {s : S} {e : Effort} {d : Src β} {rb re : Bound} {s' : S}
    {eff : Effort} {o : Option Error} {m : Nat} (hI : I s)
    (hm : d.items.length + 1 ≤ d.estimate + 2 ^ m)
    (h : ops.logged.trySpliceDetail (s, e) d rb re = .ok ((s', eff), o)) :
    I s' ∧ eff.writes ≤ e.writes + d.items.length ∧
    (o = none → eff.writes = e.writes + d.items.length) ∧
    ∃ R M, eff.resizes = e.resizes ++ R ∧ eff.moves = e.moves ++ M ∧
    R.length ≤ (if lim = none then m + 2 else m + 3) ∧
    M.length ≤ (if lim = none then m + 2 else m + 3) ∧
    ∃ s0 initial, ops.compact s = .ok s0 ∧ ops.payloadSize s0 = .ok initial ∧
      (o = none → R.getLast? =
        some (d.items.length + initial - (re.spliceEnd initial - rb.spliceBegin))) ∧
      (lim = none → o = none ∧ ∀ n ∈ R, n ≤
        max d.estimate (2 * d.items.length) + initial -
          (re.spliceEnd initial - rb.spliceBegin)) := by
  unfold SxOps.trySpliceDetail at h
  obtain ⟨⟨s0, e0⟩, h0, h⟩ := Res.of_bind_ok h
  obtain ⟨s00, hc, h0⟩ := Res.of_bind_ok h0
  simp only [Res.pure_eq, Res.ok.injEq, Prod.mk.injEq] at h0
  obtain ⟨rfl, rfl⟩ := h0
  obtain ⟨initial, h1, h⟩ := Res.of_bind_ok h
  have h1 : ops.payloadSize s00 = .ok initial := h1
  obtain ⟨sp, h2, h⟩ := Res.of_bind_ok h
  obtain ⟨hbe, hsp⟩ := usub_inv h2
  obtain ⟨⟨⟨s1, e1⟩, est⟩, h3, h⟩ := Res.of_bind_ok h
  obtain ⟨i1, f1, f2, f3⟩ := P.firstGrow_effort (P.compact hI hc) h3
  obtain ⟨tail, h4, h⟩ := Res.of_bind_ok h
  obtain ⟨h40, rfl⟩ := usub_inv h4
  obtain ⟨⟨s2, e2⟩, h5, h⟩ := Res.of_bind_ok h
  obtain ⟨s22, h6, h5⟩ := Res.of_bind_ok h5
  simp only [Res.pure_eq, Res.ok.injEq, Prod.mk.injEq] at h5
  obtain ⟨rfl, rfl⟩ := h5
  have i2 := P.move i1 h6
  obtain ⟨r, h7, h⟩ := Res.of_bind_ok h
  -- the loop
  have hR1 : ∃ R1, e1.resizes = e.resizes ++ R1 ∧ R1.length ≤ 1 ∧
      ∀ n ∈ R1, n = d.estimate + initial - sp := by
    rcases f3 with ⟨-, f, -⟩ | ⟨-, f, -⟩
    · exact ⟨[], by rw [List.append_nil]; exact f, by simp, by simp⟩
    · exact ⟨[d.estimate + initial - sp], f, by simp, by simp⟩
  obtain ⟨R1, hR1, hR1l, hR1b⟩ := hR1
  have hloop : Spent I { e1 with moves := e1.moves ++
        [(re.spliceEnd initial, re.spliceEnd initial + est - sp)] } r d.items.length 0
        (if lim = none then m else m + 1) ∧
      (lim = none → (∃ x t, r = .done x d.items.length t) ∧
        ∀ R, (LoopEnd.record r).2.resizes = e1.resizes ++ R →
          ∀ n ∈ R, n ≤ 2 * d.items.length + initial - sp) := by
    have main : est = d.estimate → _ := fun he => P.loop_effort _ (m := m) i2 (Nat.zero_le _)
      (Nat.le_refl 1) (by rw [he]; omega) h7
    have fromMain : est = d.estimate → Spent I { e1 with moves := e1.moves ++
        [(re.spliceEnd initial, re.spliceEnd initial + est - sp)] } r d.items.length 0
        (if lim = none then m else m + 1) ∧
      (lim = none → (∃ x t, r = .done x d.items.length t) ∧
        ∀ R, (LoopEnd.record r).2.resizes = e1.resizes ++ R →
          ∀ n ∈ R, n ≤ 2 * d.items.length + initial - sp) := by
      intro he
      obtain ⟨Z, B⟩ := main he
      rw [Nat.zero_add] at Z B
      refine ⟨⟨Z.inv, ?_, Z.writes, Z.done⟩, fun hn => B hn (by omega)⟩
      obtain ⟨R, M, q1, q2, q3, q4⟩ := Z.more
      refine ⟨R, M, q1, q2, Nat.le_trans q3 ?_, Nat.le_trans q4 ?_⟩ <;>
      · by_cases hn : lim = none
        · rw [if_pos (.inl hn), if_pos hn]
          exact Nat.le_refl _
        · rw [if_neg hn]
          split <;> omega
    rcases f3 with ⟨-, -, he⟩ | ⟨-, -, he | ⟨c, hlc, hs, he⟩⟩
    · exact fromMain he
    · exact fromMain he
    · have hb : re.spliceEnd initial + est - sp = rb.spliceBegin + est := by omega
      rw [hb] at h7
      have Z := P.after_refusal i2 (Nat.zero_le _) (Nat.le_refl 1) hlc hs he h7
      rw [Nat.zero_add] at Z
      refine ⟨⟨Z.inv, ?_, Z.writes, Z.done⟩, fun hn => by rw [hn] at hlc; cases hlc⟩
      obtain ⟨R, M, q1, q2, q3, q4⟩ := Z.more
      refine ⟨R, M, q1, by rw [hb]; exact q2, ?_, ?_⟩ <;>
      · rw [if_neg (by rw [hlc]; simp)]; omega
  obtain ⟨Z, B⟩ := hloop
  obtain ⟨R, M, q1, q2, q3, q4⟩ := Z.more
  have hW : e1.writes = e.writes := f2
  simp only [f1] at q2
  have hR : (LoopEnd.record r).2.resizes = e1.resizes ++ R := q1
  have q1 : (LoopEnd.record r).2.resizes = e.resizes ++ (R1 ++ R) := by
    rw [q1]; simp only [hR1, List.append_assoc]
  rw [List.append_assoc] at q2
  have hkk : (if lim = none then m else m + 1) + 2 = (if lim = none then m + 2 else m + 3) := by
    split <;> omega
  cases r with
  | overflow x =>
    simp only [Res.pure_eq, Res.ok.injEq, Prod.mk.injEq] at h
    obtain ⟨rfl, rfl⟩ := h
    have hw := Z.writes
    simp only [LoopEnd.record, hW] at q1 q2 hw
    refine ⟨Z.inv, by omega, fun h => (by cases h), _, _, q1, q2, ?_, ?_, s00, initial, hc, h1,
      fun h => (by cases h), fun hn => ?_⟩
    · rw [List.length_append]; omega
    · rw [List.length_append, List.length_singleton]; omega
    · obtain ⟨⟨x', t, hx⟩, -⟩ := B hn
      cases hx
  | done x w t =>
    obtain ⟨x1, x2⟩ := x
    obtain ⟨rfl, hw⟩ := Z.done _ w t rfl
    simp only [LoopEnd.record, hW] at q1 q2 hw
    obtain ⟨⟨s5, e5⟩, h8, h⟩ := Res.of_bind_ok h
    obtain ⟨s55, h9, h8⟩ := Res.of_bind_ok h8
    simp only [Res.pure_eq, Res.ok.injEq, Prod.mk.injEq] at h8
    obtain ⟨rfl, rfl⟩ := h8
    have i5 := P.move Z.inv h9
    obtain ⟨n, h10, h⟩ := Res.of_bind_ok h
    obtain ⟨h100, rfl⟩ := usub_inv h10
    obtain ⟨⟨⟨s6, e6⟩, r6⟩, h11, h⟩ := Res.of_bind_ok h
    obtain ⟨⟨s66, r66⟩, h12, h11⟩ := Res.of_bind_ok h11
    simp only [Res.pure_eq, Res.ok.injEq, Prod.mk.injEq] at h11 h
    obtain ⟨⟨rfl, rfl⟩, rfl⟩ := h11
    obtain ⟨⟨rfl, rfl⟩, rfl⟩ := h
    obtain ⟨i6, -, p6⟩ := P.resize i5 h12
    refine ⟨i6, by simp only; omega, fun _ => by simp only; omega,
      R1 ++ R ++ [d.items.length + initial - sp],
      [(re.spliceEnd initial, re.spliceEnd initial + est - sp)] ++ M ++
        [(t, rb.spliceBegin + d.items.length)], ?_, ?_, ?_, ?_, s00, initial, hc, h1,
      fun _ => ?_, fun hn => ⟨?_, ?_⟩⟩
    · simp only [q1, List.append_assoc]
    · simp only [q2, List.append_assoc]
    · simp only [List.length_append, List.length_singleton]; omega
    · simp only [List.length_append, List.length_singleton]; omega
    · simp only [List.getLast?_append, List.getLast?_singleton, Option.some_or, hsp]
    · cases r66 with
      | none => rfl
      | some sz => rw [hn] at p6; cases p6 sz rfl
    · intro n hn'
      simp only [List.mem_append, List.mem_singleton] at hn'
      rw [← hsp]
      rcases hn' with (h | h) | h
      · have := hR1b n h; omega
      · have := (B hn).2 R hR n h; omega
      · omega

end Paced

/-! ### The record changes nothing -/

namespace SxOps

variable {S β : Type} (ops : SxOps S β)

/-- Two outcomes that differ in the record only. -/
inductive Same {A B : Type} (f : A → B) : Res A → Res B → Prop
  | ok (a : A) : Same f (.ok a) (.ok (f a))
  | err (e : Error) : Same f (.err e) (.err e)
  | panic : Same f .panic .panic

theorem Same.refl {A : Type} (x : Res A) : Same (fun a => a) x x := by
  cases x
  · exact .ok _
  · exact .err _
  · exact .panic

theorem Same.bind {A B C D : Type} {f : A → B} {g : C → D} {x : Res A} {y : Res B}
    (h : Same f x y) {p : A → Res C} {q : B → Res D} (k : ∀ a, Same g (p a) (q (f a))) :
    Same g (x >>= p) (y >>= q) := by
  cases h with
  | ok a => exact k a
  | err e => exact .err e
  | panic => exact .panic

theorem Same.pure {A B : Type} {f : A → B} {a : A} {b : B} (h : f a = b) :
    Same f (Pure.pure a) (Pure.pure b) := h ▸ .ok a

theorem Same.ok' {A B : Type} {f : A → B} {a : A} {b : B} (h : f a = b) :
    Same f (.ok a) (.ok b) := h ▸ .ok a

theorem same_move (x : S × Effort) (t u : Nat) :
    Same Prod.fst (ops.logged.moveTail x t u) (ops.moveTail x.1 t u) := by
  show Same _ (ops.moveTail x.1 t u >>= _) _
  cases ops.moveTail x.1 t u
  · exact .ok' rfl
  · exact .err _
  · exact .panic

theorem same_write (x : S × Effort) (v : β) (i : Nat) :
    Same Prod.fst (ops.logged.writeDatum x v i) (ops.writeDatum x.1 v i) := by
  show Same _ (ops.writeDatum x.1 v i >>= _) _
  cases ops.writeDatum x.1 v i
  · exact .ok' rfl
  · exact .err _
  · exact .panic

theorem same_compact (x : S × Effort) :
    Same Prod.fst (ops.logged.compact x) (ops.compact x.1) := by
  show Same _ (ops.compact x.1 >>= _) _
  cases ops.compact x.1
  · exact .ok' rfl
  · exact .err _
  · exact .panic

theorem same_resize (x : S × Effort) (n : Nat) :
    Same (fun y : (S × Effort) × Option Nat => (y.1.1, y.2)) (ops.logged.resize x n)
      (ops.resize x.1 n) := by
  show Same _ (ops.resize x.1 n >>= _) _
  cases ops.resize x.1 n
  · exact .ok' rfl
  · exact .err _
  · exact .panic

theorem same_fill (begin est : Nat) : ∀ (data : List β) (x : S × Effort) (w : Nat),
    Same (fun y : (S × Effort) × List β × Nat × Bool => (y.1.1, y.2))
      (ops.logged.fill begin est data x w) (ops.fill begin est data x.1 w) := by
  intro data
  induction data with
  | nil => intro x w; exact .ok' rfl
  | cons v data ih =>
    intro x w
    unfold SxOps.fill
    split
    · exact .bind (ops.same_write x v _) fun y => ih y _
    · exact .ok' rfl

theorem same_firstGrow (x : S × Effort) (e i sp est : Nat) :
    Same (fun y : (S × Effort) × Nat => (y.1.1, y.2)) (ops.logged.firstGrow x e i sp est)
      (ops.firstGrow x.1 e i sp est) := by
  unfold SxOps.firstGrow
  refine .bind (.refl _) fun g => ?_
  split
  · refine .bind (.refl _) fun n => .bind (ops.same_resize x n) fun y => ?_
    obtain ⟨y, _ | sz⟩ := y
    · exact .ok' rfl
    · exact .bind (.refl _) fun kept => .ok' rfl
  · exact .ok' rfl

theorem same_growMore (x : S × Effort) (b t i sp est : Nat) :
    Same (fun y : (S × Effort) × Nat × Nat => (y.1.1, y.2)) (ops.logged.growMore x b t i sp est)
      (ops.growMore x.1 b t i sp est) := by
  unfold SxOps.growMore
  split
  · refine .bind (.refl _) fun n => .bind (ops.same_resize x n) fun y => ?_
    obtain ⟨y, _ | sz⟩ := y
    · exact .ok' rfl
    · exact .bind (.refl _) fun kept => .bind (.refl _) fun to => .ok' rfl
  · exact .ok' rfl

/-- How the loop ended, without the record. -/
def LoopEnd.forget : LoopEnd (S × Effort) → LoopEnd S
  | .done x w t => .done x.1 w t
  | .overflow x => .overflow x.1

theorem same_mainLoop (b i sp : Nat) : ∀ (fuel : Nat) (x : S × Effort) (data : List β)
    (w est add tail : Nat),
    Same LoopEnd.forget (ops.logged.mainLoop b i sp fuel x data w est add tail)
      (ops.mainLoop b i sp fuel x.1 data w est add tail) := by
  intro fuel
  induction fuel with
  | zero => intros; exact .panic
  | succ fuel ih =>
    intro x data w est add tail
    unfold SxOps.mainLoop
    refine .bind (ops.same_fill b est data x w) fun y => ?_
    obtain ⟨y, rest, w', ex⟩ := y
    simp only
    split
    · exact .pure rfl
    · refine .bind (.refl _) fun _ => ?_
      split
      · exact .pure rfl
      · refine .bind (ops.same_growMore y b tail i sp _) fun z => ?_
        obtain ⟨z, est', to⟩ := z
        refine .bind (ops.same_move z tail to) fun u => ?_
        simp only
        split
        · exact .pure rfl
        · exact ih u rest w' est' (add * 2) (b + est')

theorem same_detail (x : S × Effort) (d : Src β) (rb re : Bound) :
    Same (fun y : (S × Effort) × Option Error => (y.1.1, y.2))
      (ops.logged.trySpliceDetail x d rb re) (ops.trySpliceDetail x.1 d rb re) := by
  unfold SxOps.trySpliceDetail
  refine .bind (ops.same_compact x) fun s => .bind (.refl (ops.payloadSize s.1)) fun n =>
    .bind (.refl _) fun sp => .bind (ops.same_firstGrow s _ n sp _) fun y =>
    .bind (.refl _) fun tail => .bind (ops.same_move y.1 _ tail) fun z =>
    .bind (ops.same_mainLoop _ n sp _ z _ _ _ _ _) fun r => ?_
  cases r with
  | overflow s => exact .pure rfl
  | done s w t =>
    exact .bind (ops.same_move s _ _) fun u => .bind (.refl _) fun k =>
      .bind (ops.same_resize u k) fun v => .pure rfl

theorem same_splice (x : S × Effort) (d : Src β) (rb re : Bound) :
    Same Prod.fst (ops.logged.splice x d rb re) (ops.splice x.1 d rb re) := by
  unfold SxOps.splice
  refine .bind (ops.same_detail x d rb re) fun y => ?_
  obtain ⟨y, _ | e⟩ := y
  · exact .pure rfl
  · exact .panic

theorem same_trySplice (x : S × Effort) (d : Src β) (rb re : Bound) :
    Same (fun y : (S × Effort) × Option Error => (y.1.1, y.2))
      (ops.logged.trySplice x d rb re) (ops.trySplice x.1 d rb re) := by
  unfold SxOps.trySplice
  refine .bind (ops.same_detail x d rb re) fun y => ?_
  obtain ⟨y, _ | e⟩ := y
  · exact .pure rfl
  · exact .bind (ops.same_resize y 0) fun z => .pure rfl

end SxOps

end Midi2
