import Verif.Lemmas.EffortExact

/-! The whole work of a splice in a buffer of fixed size. -/

namespace Midi2

theorem follow_done {room kept first back items est : Nat} (h : items ≤ est) (add : Nat) :
    follow room kept first back items est add =
      ({ resizes := [kept + items], moves := [(first + est, first + items)], writes := items },
        true) := by
  rw [follow, if_pos h]

theorem follow_fits {room kept first back items est add : Nat} (h : est < items)
    (hr : est + (add + 1) ≤ room) :
    follow room kept first back items est add =
      let x := follow room kept first back items (est + (add + 1)) (2 * add + 1)
      ({ x.1 with resizes := (kept + (est + (add + 1))) :: x.1.resizes
                  moves := (first + est, first + (est + (add + 1))) :: x.1.moves }, x.2) := by
  rw [follow, if_neg (by omega), if_pos hr]

theorem follow_last {room kept first back items est add : Nat} (h : est < items)
    (hr : room < est + (add + 1)) (hl : est < room) :
    follow room kept first back items est add =
      let x := follow room kept first back items room (2 * add + 1)
      ({ x.1 with resizes := (kept + (est + (add + 1))) :: x.1.resizes
                  moves := (first + est, first + room - back) :: x.1.moves }, x.2) := by
  rw [follow, if_neg (by omega), if_neg (by omega), if_pos hl]

theorem follow_full {room kept first back items est add : Nat} (h : est < items)
    (hl : room ≤ est) :
    follow room kept first back items est add =
      ({ resizes := [kept + (est + (add + 1)), 0], moves := [(first + est, first + room - back)],
         writes := est }, false) := by
  rw [follow, if_neg (by omega), if_neg (by omega), if_neg (by omega)]

namespace Paced
variable {S β : Type} {ops : SxOps S β} {I : S → Prop}

/-- What fits is not refused. -/
def Tight (ops : SxOps S β) (I : S → Prop) (c : Nat) : Prop :=
  ∀ {s n s' sz}, I s → ops.resize s n = .ok (s', some sz) → c < n

/-- The growth inside the loop. -/
theorem growMore_fixed {c : Nat} (P : Paced ops I (some c)) (T : Tight ops I c) {s : S} {e : Effort}
    {begin tail initial sp est : Nat} {s' : S} {e' : Effort} {est' to : Nat} (hI : I s)
    (ht : tail < begin + est) (hsp : sp ≤ initial)
    (h : ops.logged.growMore (s, e) begin tail initial sp est = .ok ((s', e'), est', to)) :
    e' = { e with resizes := e.resizes ++ [initial - sp + est] } ∧
    ((initial - sp + est ≤ c ∧ est' = est ∧ to = begin + est) ∨
     (c < initial - sp + est ∧ est' = c - (initial - sp) ∧
      to = begin + (c - (initial - sp)) - sp)) := by
  unfold SxOps.growMore at h
  rw [if_pos ht] at h
  obtain ⟨n, h1, h⟩ := Res.of_bind_ok h
  obtain ⟨hn, rfl⟩ := usub_inv h1
  obtain ⟨⟨⟨s1, e1⟩, r⟩, h2, h⟩ := Res.of_bind_ok h
  obtain ⟨⟨s2, r2⟩, h3, h2⟩ := Res.of_bind_ok h2
  simp only [Res.pure_eq, Res.ok.injEq, Prod.mk.injEq] at h2
  obtain ⟨⟨rfl, rfl⟩, rfl⟩ := h2
  have hnn : est + initial - sp = initial - sp + est := by omega
  rw [hnn] at h3
  obtain ⟨i, hf, hs⟩ := P.resize hI h3
  cases r2 with
  | none =>
    simp only [Res.ok.injEq, Prod.mk.injEq] at h
    obtain ⟨⟨rfl, rfl⟩, rfl, rfl⟩ := h
    exact ⟨by rw [hnn], .inl ⟨hf rfl c rfl, rfl, rfl⟩⟩
  | some sz =>
    have := T hI h3
    obtain ⟨kept, h4, h⟩ := Res.of_bind_ok h
    obtain ⟨hk, rfl⟩ := usub_inv h4
    obtain ⟨t, h5, h⟩ := Res.of_bind_ok h
    obtain ⟨-, rfl⟩ := usub_inv h5
    simp only [Res.ok.injEq, Prod.mk.injEq] at h
    obtain ⟨⟨rfl, rfl⟩, rfl, rfl⟩ := h
    cases hs sz rfl
    exact ⟨by rw [hnn], .inr ⟨this, rfl, rfl⟩⟩

/-- What the loop does to the record, from where it leaves the tail. -/
theorem loop_fixed {c : Nat} (P : Paced ops I (some c)) (T : Tight ops I c)
    {begin initial sp : Nat} (hsp : sp ≤ initial) (hc : initial ≤ c) :
    ∀ (fuel : Nat) {s : S} {e : Effort} {data : List β} {w est add : Nat}
    {r : LoopEnd (S × Effort)} (_ : I s) (_ : w ≤ est) (_ : est ≤ c - (initial - sp))
    (_ : ops.logged.mainLoop begin initial sp fuel (s, e) data w est (add + 1) (begin + est) = .ok r),
    ∃ s' E, I s' ∧
      let F := follow (c - (initial - sp)) (initial - sp) begin sp (w + data.length) est add
      E.writes + w = e.writes + F.1.writes ∧
      ((F.2 = true ∧ w + data.length ≤ c - (initial - sp) ∧ ∃ t,
          r = .done (s', E) (w + data.length) t ∧
          E.resizes ++ [initial - sp + (w + data.length)] = e.resizes ++ F.1.resizes ∧
          E.moves ++ [(t, begin + (w + data.length))] = e.moves ++ F.1.moves) ∨
       (F.2 = false ∧ r = .overflow (s', E) ∧ E.resizes ++ [0] = e.resizes ++ F.1.resizes ∧
          E.moves = e.moves ++ F.1.moves)) := by
  intro fuel
  induction fuel with
  | zero => intro s e data w est add r _ _ _ h; cases h
  | succ fuel ih =>
    intro s e data w est add r hI hw hest h
    rcases P.turn hI hw h with ⟨s1, i1, hle, rfl⟩ | ⟨s1, s2, e2, est', to, s3, rest, i1, hr, hne, hg,
      i2, i3, hcase⟩
    · refine ⟨s1, { e with writes := e.writes + data.length }, i1, ?_⟩
      rw [follow_done hle]
      exact ⟨by simp only; omega, .inl ⟨rfl, by omega, _, rfl, rfl, rfl⟩⟩
    · have hpos : 0 < rest.length := List.length_pos_iff.mpr hne
      obtain ⟨rfl, hg'⟩ := growMore_fixed P T i1 (by omega) hsp hg
      rcases hg' with ⟨hle, rfl, rfl⟩ | ⟨hgt, rfl, rfl⟩
      · rcases hcase with ⟨hle, -⟩ | ⟨-, hl⟩
        · omega
        · rw [show (add + 1) * 2 = (2 * add + 1) + 1 by omega] at hl
          obtain ⟨s', E, i', hW, hE⟩ := ih i3 (by omega) (by omega) hl
          rw [hr] at hW hE
          refine ⟨s', E, i', ?_⟩
          rw [follow_fits (by omega) (by omega)]
          simp only at hW hE ⊢
          refine ⟨by omega, ?_⟩
          simp only [List.append_assoc, List.singleton_append] at hE
          exact hE
      · rcases hcase with ⟨hle, rfl⟩ | ⟨hlt, hl⟩
        · refine ⟨s3, { resizes := e.resizes ++ [initial - sp + (est + (add + 1))]
                        moves := e.moves ++ [(begin + est, begin + (c - (initial - sp)) - sp)]
                        writes := e.writes + (est - w) }, i3, ?_⟩
          rw [follow_full (by omega) hle]
          refine ⟨by simp only; omega, .inr ⟨rfl, rfl, by simp, ?_⟩⟩
          simp
        · rw [show (add + 1) * 2 = (2 * add + 1) + 1 by omega] at hl
          obtain ⟨s', E, i', hW, hE⟩ := ih i3 (by omega) (Nat.le_refl _) hl
          rw [hr] at hW hE
          refine ⟨s', E, i', ?_⟩
          rw [follow_last (by omega) (by omega) hlt]
          simp only at hW hE ⊢
          refine ⟨by omega, ?_⟩
          simp only [List.append_assoc, List.singleton_append] at hE
          exact hE

/-- The record of a splice. -/
theorem trySplice_work {c : Nat} (P : Paced ops I (some c)) (T : Tight ops I c) {s : S} {d : Src β}
    {rb re : Bound} {s' : S} {eff : Effort} {o : Option Error} (hI : I s)
    (h : ops.logged.trySplice (s, {}) d rb re = .ok ((s', eff), o)) :
    ∃ s0 initial, ops.compact s = .ok s0 ∧ ops.payloadSize s0 = .ok initial ∧
      (re.spliceEnd initial ≤ initial → initial ≤ c →
        (eff, o.isNone) = d.tryWork c initial rb.spliceBegin (re.spliceEnd initial)) := by
  unfold SxOps.trySplice at h
  obtain ⟨⟨⟨sd, ed⟩, od⟩, hd, h⟩ := Res.of_bind_ok h
  unfold SxOps.trySpliceDetail at hd
  obtain ⟨⟨s0, e0⟩, h0, hd⟩ := Res.of_bind_ok hd
  obtain ⟨s00, hc, h0⟩ := Res.of_bind_ok h0
  simp only [Res.pure_eq, Res.ok.injEq, Prod.mk.injEq] at h0
  obtain ⟨rfl, rfl⟩ := h0
  obtain ⟨initial, h1, hd⟩ := Res.of_bind_ok hd
  have h1 : ops.payloadSize s00 = .ok initial := h1
  refine ⟨s00, initial, hc, h1, fun hend hcap => ?_⟩
  obtain ⟨sp, h2, hd⟩ := Res.of_bind_ok hd
  obtain ⟨hbe, hsp⟩ := usub_inv h2
  obtain ⟨⟨⟨s1, e1⟩, est⟩, h3, hd⟩ := Res.of_bind_ok hd
  obtain ⟨tail, h4, hd⟩ := Res.of_bind_ok hd
  obtain ⟨h40, rfl⟩ := usub_inv h4
  obtain ⟨⟨s2, e2⟩, h5, hd⟩ := Res.of_bind_ok hd
  obtain ⟨s22, h6, h5⟩ := Res.of_bind_ok h5
  simp only [Res.pure_eq, Res.ok.injEq, Prod.mk.injEq] at h5
  obtain ⟨rfl, rfl⟩ := h5
  obtain ⟨r, h7, hd⟩ := Res.of_bind_ok hd
  have hfirst : I s1 ∧ est = min d.estimate (c - (initial - sp)) ∧
      e1 = { resizes := if sp < d.estimate then [initial - sp + d.estimate] else [] } := by
    unfold SxOps.firstGrow at h3
    obtain ⟨g, g0, h3⟩ := Res.of_bind_ok h3
    obtain ⟨g00, rfl⟩ := usub_inv g0
    split at h3
    · next ht =>
      obtain ⟨n, g1, h3⟩ := Res.of_bind_ok h3
      obtain ⟨hn, rfl⟩ := usub_inv g1
      obtain ⟨⟨⟨sa, ea⟩, ra⟩, g2, h3⟩ := Res.of_bind_ok h3
      obtain ⟨⟨sb, rb⟩, g3, g2⟩ := Res.of_bind_ok g2
      simp only [Res.pure_eq, Res.ok.injEq, Prod.mk.injEq] at g2
      obtain ⟨⟨rfl, rfl⟩, rfl⟩ := g2
      have hnn : d.estimate + initial - sp = initial - sp + d.estimate := by omega
      rw [hnn] at g3
      obtain ⟨i, hf, hs⟩ := P.resize (P.compact hI hc) g3
      rw [if_pos (by omega), ← hnn]
      cases rb with
      | none =>
        simp only [Res.ok.injEq, Prod.mk.injEq] at h3
        obtain ⟨⟨rfl, rfl⟩, rfl⟩ := h3
        have := hf rfl c rfl
        exact ⟨i, by omega, rfl⟩
      | some sz =>
        have := T (P.compact hI hc) g3
        obtain ⟨kept, h4, h3⟩ := Res.of_bind_ok h3
        obtain ⟨hk, rfl⟩ := usub_inv h4
        simp only [Res.ok.injEq, Prod.mk.injEq] at h3
        obtain ⟨⟨rfl, rfl⟩, rfl⟩ := h3
        cases hs sz rfl
        exact ⟨i, by omega, rfl⟩
    · next ht =>
      simp only [Res.ok.injEq, Prod.mk.injEq] at h3
      obtain ⟨⟨rfl, rfl⟩, rfl⟩ := h3
      rw [if_neg (by omega)]
      exact ⟨P.compact hI hc, by omega, rfl⟩
  obtain ⟨i1, hest, rfl⟩ := hfirst
  have i2 := P.move i1 h6
  have ht0 : re.spliceEnd initial + est - sp = rb.spliceBegin + est := by omega
  rw [ht0] at h7
  obtain ⟨s3, E, i3, hW, hE⟩ := P.loop_fixed T (by omega) hcap _ i2 (Nat.zero_le _) (by omega) h7
  rw [Nat.zero_add] at hW hE
  have he : d.upper.getD d.lower = d.estimate := by unfold Src.estimate; cases d.upper <;> rfl
  have htw : d.tryWork c initial rb.spliceBegin (re.spliceEnd initial) =
      let F := follow (c - (initial - sp)) (initial - sp) rb.spliceBegin sp d.items.length est 0
      ({ resizes := (if sp < d.estimate then [initial - sp + d.estimate] else []) ++ F.1.resizes
         moves := (re.spliceEnd initial, rb.spliceBegin + est) :: F.1.moves
         writes := F.1.writes }, F.2) := by
    unfold Src.tryWork
    simp only [he, ← hsp, ← hest]
  rw [htw]
  clear htw
  simp only [List.nil_append, Nat.zero_add, Nat.add_zero] at hW hE ⊢
  generalize follow (c - (initial - sp)) (initial - sp) rb.spliceBegin sp d.items.length est 0 = F
    at hW hE ⊢
  rcases hE with ⟨hF, hfit, t, rfl, hR, hM⟩ | ⟨hF, rfl, hR, hM⟩
  · obtain ⟨⟨s5, e5⟩, h8, hd⟩ := Res.of_bind_ok hd
    obtain ⟨s55, h9, h8⟩ := Res.of_bind_ok h8
    simp only [Res.pure_eq, Res.ok.injEq, Prod.mk.injEq] at h8
    obtain ⟨rfl, rfl⟩ := h8
    obtain ⟨n, h10, hd⟩ := Res.of_bind_ok hd
    obtain ⟨h100, rfl⟩ := usub_inv h10
    obtain ⟨⟨⟨s6, e6⟩, r6⟩, h11, hd⟩ := Res.of_bind_ok hd
    obtain ⟨⟨s66, r66⟩, h12, h11⟩ := Res.of_bind_ok h11
    simp only [Res.pure_eq, Res.ok.injEq, Prod.mk.injEq] at h11 hd
    obtain ⟨⟨rfl, rfl⟩, rfl⟩ := h11
    obtain ⟨⟨rfl, rfl⟩, rfl⟩ := hd
    have hnn : d.items.length + initial - sp = initial - sp + d.items.length := by omega
    cases r66 with
    | some sz =>
      have := T (P.move i3 h9) h12
      omega
    | none =>
      simp only [Option.map_none, Res.pure_eq, Res.ok.injEq, Prod.mk.injEq] at h
      obtain ⟨⟨rfl, rfl⟩, rfl⟩ := h
      simp only [hnn, hF, hR, hM, Option.isNone_none, Prod.mk.injEq, Effort.mk.injEq, and_true,
        List.cons_append, List.nil_append, true_and]
      simpa using hW
  · simp only [Res.pure_eq, Res.ok.injEq, Prod.mk.injEq] at hd
    obtain ⟨⟨rfl, rfl⟩, rfl⟩ := hd
    simp only at h
    obtain ⟨⟨⟨s2, e2⟩, r⟩, h2, h⟩ := Res.of_bind_ok h
    obtain ⟨⟨s3, r3⟩, h3, h2⟩ := Res.of_bind_ok h2
    simp only [Res.pure_eq, Res.ok.injEq, Prod.mk.injEq] at h2 h
    obtain ⟨⟨rfl, rfl⟩, rfl⟩ := h2
    obtain ⟨⟨rfl, rfl⟩, rfl⟩ := h
    simp only [hF, hR, hM, Prod.mk.injEq, Effort.mk.injEq, and_true,
      List.cons_append, List.nil_append, true_and]
    refine ⟨by simpa using hW, ?_⟩
    cases r3 <;> rfl

end Paced

end Midi2
