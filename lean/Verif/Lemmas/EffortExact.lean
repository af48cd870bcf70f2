import Verif.Lemmas.Effort

/-! The whole work of a splice in a growable buffer. -/

namespace Midi2

theorem guesses_lt {items est : Nat} (h : est < items) (add : Nat) :
    guesses items est add =
      (est + (add + 1)) :: guesses items (est + (add + 1)) (2 * add + 1) := by
  rw [guesses, if_pos h]

theorem guesses_ge {items est : Nat} (h : items ≤ est) (add : Nat) : guesses items est add = [] := by
  rw [guesses, if_neg (by omega)]

namespace Paced
variable {S β : Type} {ops : SxOps S β} {I : S → Prop}

/-- What the loop does to the record, from where it leaves the tail. -/
theorem loop_work (P : Paced ops I none) {begin initial sp : Nat} (hsp : sp ≤ initial) :
    ∀ (fuel : Nat) {s : S} {e : Effort} {data : List β} {w est add : Nat} {r : LoopEnd (S × Effort)} (_ : I s)
    (_ : w ≤ est)
    (_ : ops.logged.mainLoop begin initial sp fuel (s, e) data w est (add + 1) (begin + est) = .ok r),
    ∃ s', I s' ∧ ∃ t, r = .done (s',
        { resizes := e.resizes ++ (guesses (w + data.length) est add).map ((initial - sp) + ·)
          moves := e.moves ++ hops (begin + est)
            ((guesses (w + data.length) est add).map (begin + ·))
          writes := e.writes + data.length }) (w + data.length) t ∧
      hops (begin + est) ((guesses (w + data.length) est add ++ [w + data.length]).map (begin + ·)) =
        hops (begin + est) ((guesses (w + data.length) est add).map (begin + ·)) ++
          [(t, begin + (w + data.length))] := by
  intro fuel
  induction fuel with
  | zero => intro s e data w est add r _ _ h; cases h
  | succ fuel ih =>
    intro s e data w est add r hI hw h
    rcases P.turn hI hw h with ⟨s1, i1, hle, rfl⟩ | ⟨s1, s2, e2, est', to, s3, rest, i1, hr, hne, hg,
      i2, i3, hcase⟩
    · refine ⟨s1, i1, begin + est, by rw [guesses_ge hle]; simp [hops], ?_⟩
      rw [guesses_ge hle]
      rfl
    · have hpos : 0 < rest.length := List.length_pos_iff.mpr hne
      have hto : to = begin + est' ∧ est' = est + (add + 1) ∧
          e2 = { e with writes := e.writes + (est - w),
                        resizes := e.resizes ++ [est + (add + 1) + initial - sp] } := by
        obtain ⟨-, hg'⟩ := P.growMore_effort i1 hg
        rcases hg' with ⟨hx, -, -⟩ | ⟨-, -, rfl, ⟨rfl, -⟩ | ⟨c, hc, -⟩⟩
        · omega
        · refine ⟨?_, rfl, rfl⟩
          unfold SxOps.growMore at hg
          rw [if_pos (by omega)] at hg
          obtain ⟨n, -, hg⟩ := Res.of_bind_ok hg
          obtain ⟨⟨⟨s4, e4⟩, r4⟩, hz, hg⟩ := Res.of_bind_ok hg
          obtain ⟨⟨s5, r5⟩, hz5, hz⟩ := Res.of_bind_ok hz
          simp only [Res.pure_eq, Res.ok.injEq, Prod.mk.injEq] at hz
          obtain ⟨⟨rfl, rfl⟩, rfl⟩ := hz
          obtain ⟨-, -, hn⟩ := P.resize i1 hz5
          cases r5 with
          | none =>
            simp only [Res.ok.injEq, Prod.mk.injEq] at hg
            exact hg.2.2.symm
          | some sz => cases hn sz rfl
        · cases hc
      obtain ⟨rfl, rfl, rfl⟩ := hto
      rcases hcase with ⟨hle, -⟩ | ⟨-, hl⟩
      · omega
      · rw [show (add + 1) * 2 = (2 * add + 1) + 1 by omega] at hl
        obtain ⟨s', i', t, rfl, ht⟩ := ih i3 (by omega) hl
        rw [hr] at ht ⊢
        refine ⟨s', i', t, ?_, ?_⟩
        · rw [guesses_lt (est := est) (by omega)]
          simp only [List.map_cons, hops, List.append_assoc, List.singleton_append]
          congr 3
          · congr 2
            omega
          · omega
        · rw [guesses_lt (est := est) (by omega)]
          simp only [List.cons_append, List.map_cons, hops, List.cons.injEq, true_and]
          exact ht

/-- The record of a splice. -/
theorem detail_work (P : Paced ops I none) {s : S} {d : Src β} {rb re : Bound} {s' : S}
    {eff : Effort} {o : Option Error} (hI : I s)
    (h : ops.logged.trySpliceDetail (s, {}) d rb re = .ok ((s', eff), o)) :
    ∃ s0 initial, ops.compact s = .ok s0 ∧ ops.payloadSize s0 = .ok initial ∧
      (re.spliceEnd initial ≤ initial →
        eff = d.work initial rb.spliceBegin (re.spliceEnd initial)) := by
  unfold SxOps.trySpliceDetail at h
  obtain ⟨⟨s0, e0⟩, h0, h⟩ := Res.of_bind_ok h
  obtain ⟨s00, hc, h0⟩ := Res.of_bind_ok h0
  simp only [Res.pure_eq, Res.ok.injEq, Prod.mk.injEq] at h0
  obtain ⟨rfl, rfl⟩ := h0
  obtain ⟨initial, h1, h⟩ := Res.of_bind_ok h
  have h1 : ops.payloadSize s00 = .ok initial := h1
  refine ⟨s00, initial, hc, h1, fun hend => ?_⟩
  obtain ⟨sp, h2, h⟩ := Res.of_bind_ok h
  obtain ⟨hbe, hsp⟩ := usub_inv h2
  obtain ⟨⟨⟨s1, e1⟩, est⟩, h3, h⟩ := Res.of_bind_ok h
  obtain ⟨i1, f1, f2, f3⟩ := P.firstGrow_effort (P.compact hI hc) h3
  obtain ⟨tail, h4, h⟩ := Res.of_bind_ok h
  obtain ⟨h40, rfl⟩ := usub_inv h4
  obtain ⟨⟨s2, e2⟩, h5, h⟩ := Res.of_bind_ok h
  obtain ⟨s22, h6, h5⟩ := Res.of_bind_ok h5
  simp only [Res.pure_eq, Res.ok.injEq, Prod.mk.injEq] at h5
  obtain ⟨rfl, rfl⟩ := h5
  have i2 := P.move i1 h6
  obtain ⟨r, h7, h⟩ := Res.of_bind_ok h
  have hest : est = d.estimate ∧ e1.resizes =
      if sp < d.estimate then [initial - sp + d.estimate] else [] := by
    rcases f3 with ⟨a, b, c⟩ | ⟨a, b, c | ⟨c, hc, -⟩⟩
    · exact ⟨c, by rw [b, if_neg (by omega)]⟩
    · refine ⟨c, ?_⟩
      rw [b, if_pos a]
      simp only [List.nil_append, List.cons.injEq, and_true]
      omega
    · cases hc
  obtain ⟨rfl, hr1⟩ := hest
  clear f3
  have ht0 : re.spliceEnd initial + d.estimate - sp = rb.spliceBegin + d.estimate := by omega
  rw [ht0] at h7
  obtain ⟨s3, i3, t, rfl, ht⟩ := P.loop_work (by omega) _ i2 (Nat.zero_le _) h7
  obtain ⟨⟨s5, e5⟩, h8, h⟩ := Res.of_bind_ok h
  obtain ⟨s55, h9, h8⟩ := Res.of_bind_ok h8
  simp only [Res.pure_eq, Res.ok.injEq, Prod.mk.injEq] at h8
  obtain ⟨rfl, rfl⟩ := h8
  obtain ⟨n, h10, h⟩ := Res.of_bind_ok h
  obtain ⟨h100, rfl⟩ := usub_inv h10
  obtain ⟨⟨⟨s6, e6⟩, r6⟩, h11, h⟩ := Res.of_bind_ok h
  obtain ⟨⟨s66, r66⟩, h12, h11⟩ := Res.of_bind_ok h11
  simp only [Res.pure_eq, Res.ok.injEq, Prod.mk.injEq] at h11 h
  obtain ⟨⟨rfl, rfl⟩, rfl⟩ := h11
  obtain ⟨⟨rfl, rfl⟩, -⟩ := h
  have he : d.upper.getD d.lower = d.estimate := by unfold Src.estimate; cases d.upper <;> rfl
  unfold Src.work
  rw [he, ← hsp]
  simp only [Nat.zero_add] at ht ⊢
  simp only [hr1, f1, f2, List.cons_append, List.map_cons, hops, List.map_append, List.map_nil,
    List.append_assoc, List.nil_append, Nat.zero_add] at ht ⊢
  simp only [Effort.mk.injEq, and_true]
  refine ⟨?_, ?_⟩
  · congr 3
    omega
  · rw [ht]

end Paced

end Midi2
