import Verif.Spec.SpliceLow
import Verif.Lemmas.EffortExact

/-! Splices on buffers of fixed size, with an iterator that yields more than it says. -/

namespace Midi2

theorem length_shifted {β : Type} (l : List β) (tail to : Nat) (h1 : to ≤ l.length)
    (h2 : tail ≤ l.length) : (shifted l tail to).length = l.length := by
  unfold shifted
  simp only [List.length_take, List.length_append, List.length_drop]
  omega

namespace SxLaws

variable {S β : Type} {ops : SxOps S β} {R Q P : S → List β → Prop} {lim : Option Nat}

/-- A move of the tail, in whichever direction. -/
theorem shift (L : SxLaws ops R Q P lim) {s : S} {l : List β} {tail to : Nat} (hR : R s l)
    (h1 : tail ≤ l.length) (h2 : to ≤ l.length) :
    ∃ s', ops.moveTail s tail to = .ok s' ∧ R s' (shifted l tail to) := by
  unfold shifted
  rcases Nat.lt_trichotomy tail to with h | h | h
  · obtain ⟨s', e, r⟩ := L.up tail to hR h h2
    refine ⟨s', e, ?_⟩
    rw [List.drop_of_length_le (i := to + (l.length - tail)) (by omega), List.append_nil,
      List.take_append, List.take_of_length_le (by simp; omega)]
    rw [List.length_take, Nat.min_eq_left h2]
    exact r
  · subst h
    obtain ⟨s', e, r⟩ := L.same tail hR
    refine ⟨s', e, ?_⟩
    rw [List.take_append_drop, List.drop_of_length_le (i := tail + (l.length - tail)) (by omega),
      List.append_nil, List.take_length]
    exact r
  · obtain ⟨s', e, r⟩ := L.down tail to hR h h1
    refine ⟨s', e, ?_⟩
    rw [List.take_of_length_le (by simp; omega)]
    exact r

/-- A turn of the loop that writes all items. -/
theorem turn_done (L : SxLaws ops R Q P lim) (pre y : List β) {fuel initial sp : Nat} {s : S}
    {data x mid : List β} {add : Nat} (hR : R s (pre ++ x ++ mid ++ y))
    (hd : data.length ≤ mid.length) :
    ∃ s', ops.mainLoop pre.length initial sp (fuel + 1) s data x.length (x.length + mid.length) add
        (pre.length + (x.length + mid.length)) =
        .ok (.done s' (x ++ data).length (pre.length + (x.length + mid.length))) ∧
      R s' (pre ++ (x ++ data) ++ mid.drop data.length ++ y) := by
  obtain ⟨s1, e1, r1⟩ := L.fill_spec pre y (x.length + mid.length) data s x mid hR rfl
  simp only [SxOps.mainLoop, e1, Res.ok_bind]
  have et : data.take mid.length = data := List.take_of_length_le hd
  have ed : data.drop mid.length = [] := List.drop_of_length_le hd
  rw [et] at r1
  refine ⟨s1, ?_, r1⟩
  by_cases hlt : data.length < mid.length
  · simp only [hlt, decide_true, if_true, Res.pure_eq, List.length_append]
    rw [Nat.min_eq_right hd]
  · have ha : (x.length + min mid.length data.length == x.length + mid.length) = true := by
      simp; omega
    simp only [hlt, decide_false, ha, Res.assert, if_true, Res.ok_bind, ed, List.isEmpty_nil,
      Bool.false_eq_true, if_false, Res.pure_eq, List.length_append]
    rw [Nat.min_eq_right hd]

/-- A turn of the loop that finds too many items and has room for the next estimate. -/
theorem turn_grows (L : SxLaws ops R Q P lim) (pre old post : List β) {fuel : Nat} {s : S}
    {data x mid rest : List β} {add : Nat} (hR : R s (pre ++ x ++ mid ++ (post ++ rest)))
    (hadd : 0 < add) (hd : mid.length < data.length)
    (hfree : lim = none ∨ rest = [] ∨ SxFree ops R Q lim)
    (hf : Fits lim (pre.length + (x.length + mid.length + add) + post.length)) :
    ∃ s' mid', mid'.length = add ∧
      R s' (pre ++ (x ++ data.take mid.length) ++ mid' ++ post) ∧
      ops.mainLoop pre.length (pre ++ old ++ post).length old.length (fuel + 1) s data x.length
          (x.length + mid.length) add (pre.length + (x.length + mid.length)) =
        ops.mainLoop pre.length (pre ++ old ++ post).length old.length fuel s'
          (data.drop mid.length) (x.length + mid.length) (x.length + mid.length + add) (add * 2)
          (pre.length + (x.length + mid.length + add)) := by
  obtain ⟨s1, e1, r1⟩ := L.fill_spec pre (post ++ rest) (x.length + mid.length) data s x mid hR rfl
  have hlt : ¬ data.length < mid.length := by omega
  have ha : (x.length + min mid.length data.length == x.length + mid.length) = true := by
    simp; omega
  have hne : (data.drop mid.length).isEmpty = false := by
    rw [List.isEmpty_eq_false_iff]; intro h
    have := congrArg List.length h
    simp at this; omega
  have em : mid.drop data.length = [] := List.drop_of_length_le (by omega)
  rw [em, List.append_nil] at r1
  have hx : (x ++ data.take mid.length).length = x.length + mid.length := by
    simp; omega
  have hpl : (pre ++ (x ++ data.take mid.length)).length = pre.length + (x.length + mid.length) := by
    rw [List.length_append, hx]
  have r1' : R s1 ((pre ++ (x ++ data.take mid.length)) ++ post ++ rest) := by
    simpa using r1
  obtain ⟨s2, e2, s3, e3, mid', hm, r3⟩ := L.grow r1' hadd
    (by rw [hpl]; exact hf.mono (by omega)) (by
      rcases hfree with h | h | h
      · exact .inl h
      · right; left; rw [h]; exact Nat.zero_le _
      · exact .inr (.inr h))
  refine ⟨s3, mid', hm, r3, ?_⟩
  rw [SxOps.mainLoop]
  simp only [e1, hlt, decide_false, ha, Res.assert, if_true, Res.ok_bind, hne,
    Bool.false_eq_true, if_false]
  unfold SxOps.growMore
  rw [if_pos (by omega), usub_ok (by simp only [List.length_append]; omega)]
  have hsz : x.length + mid.length + add + (pre ++ old ++ post).length - old.length =
      (pre ++ (x ++ data.take mid.length)).length + add + post.length := by
    rw [hpl]; simp only [List.length_append]; omega
  simp only [Res.ok_bind]
  rw [hsz, e2]
  simp only [Res.ok_bind]
  rw [hpl, Nat.add_assoc] at e3
  rw [e3]
  simp only [Res.ok_bind]
  rw [Nat.min_eq_left (by omega), if_neg (by omega)]

/-- A turn of the loop that finds too many items and has no room for the next estimate. -/
theorem turn_refused (L : SxLaws ops R Q P lim) (pre old post : List β) {fuel : Nat} {s : S}
    {data x mid rest : List β} {add c room : Nat} (hR : R s (pre ++ x ++ mid ++ (post ++ rest)))
    (hd : mid.length < data.length) (hl : lim = some c) (hc : c = pre.length + room + post.length)
    (ho : old.length ≤ room) (hr : x.length + mid.length < room)
    (hf : room < x.length + mid.length + add) :
    ∃ s' junk, junk.length = room - (x.length + mid.length) ∧
      R s' (shifted (pre ++ (x ++ data.take mid.length) ++ post ++ junk)
        (pre.length + (x.length + mid.length)) (pre.length + room - old.length)) ∧
      ops.mainLoop pre.length (pre ++ old ++ post).length old.length (fuel + 1) s data x.length
          (x.length + mid.length) add (pre.length + (x.length + mid.length)) =
        ops.mainLoop pre.length (pre ++ old ++ post).length old.length fuel s'
          (data.drop mid.length) (x.length + mid.length) room (add * 2) (pre.length + room) := by
  obtain ⟨s1, e1, r1⟩ := L.fill_spec pre (post ++ rest) (x.length + mid.length) data s x mid hR rfl
  have hlt : ¬ data.length < mid.length := by omega
  have ha : (x.length + min mid.length data.length == x.length + mid.length) = true := by
    simp; omega
  have hne : (data.drop mid.length).isEmpty = false := by
    rw [List.isEmpty_eq_false_iff]; intro h
    have := congrArg List.length h
    simp at this; omega
  have em : mid.drop data.length = [] := List.drop_of_length_le (by omega)
  rw [em, List.append_nil] at r1
  have hx : (x ++ data.take mid.length).length = x.length + mid.length := by
    simp; omega
  have hpl : (pre ++ (x ++ data.take mid.length)).length = pre.length + (x.length + mid.length) := by
    rw [List.length_append, hx]
  have r1' : R s1 ((pre ++ (x ++ data.take mid.length)) ++ post ++ rest) := by
    simpa using r1
  obtain ⟨s2, junk, e2, r2, hj⟩ := L.growFull r1' hl
    (n := (pre ++ (x ++ data.take mid.length)).length + add + post.length) (by rw [hpl]; omega)
  rw [hpl] at hj
  have hlen : (pre ++ (x ++ data.take mid.length) ++ post ++ junk).length = c := by
    rw [List.length_append, List.length_append, hpl]; exact hj
  obtain ⟨s3, e3, r3⟩ := L.shift (tail := pre.length + (x.length + mid.length))
    (to := pre.length + room - old.length) r2 (by rw [hlen]; omega) (by rw [hlen]; omega)
  refine ⟨s3, junk, by omega, r3, ?_⟩
  rw [SxOps.mainLoop]
  simp only [e1, hlt, decide_false, ha, Res.assert, if_true, Res.ok_bind, hne,
    Bool.false_eq_true, if_false]
  unfold SxOps.growMore
  rw [if_pos (by omega), usub_ok (by simp only [List.length_append]; omega)]
  have hsz : x.length + mid.length + add + (pre ++ old ++ post).length - old.length =
      (pre ++ (x ++ data.take mid.length)).length + add + post.length := by
    rw [hpl]; simp only [List.length_append]; omega
  simp only [Res.ok_bind]
  rw [hsz, e2]
  simp only [Res.ok_bind]
  rw [usub_ok (by simp only [List.length_append]; omega)]
  simp only [Res.ok_bind]
  have hroom : c - ((pre ++ old ++ post).length - old.length) = room := by
    simp only [List.length_append]; omega
  rw [hroom, usub_ok (by omega)]
  simp only [Res.ok_bind]
  rw [e3]
  simp only [Res.ok_bind]
  rw [Nat.min_eq_left (by omega), if_neg (by omega)]

/-- The loop when there is room for every estimate. -/
theorem loop_fits (L : SxLaws ops R Q P lim) (pre old post : List β) :
    ∀ (fuel : Nat) (s : S) (data x mid rest : List β) (add : Nat),
      R s (pre ++ x ++ mid ++ (post ++ rest)) → 0 < fuel → data.length + 1 ≤ fuel + mid.length →
      (lim = none ∨ rest = [] ∨ SxFree ops R Q lim) →
      (∀ n ∈ guesses (x ++ data).length (x.length + mid.length) add,
        Fits lim (pre.length + n + post.length)) →
      ∃ s' mid' rest', ops.mainLoop pre.length (pre ++ old ++ post).length old.length fuel s data
          x.length (x.length + mid.length) (add + 1) (pre.length + (x.length + mid.length)) =
          .ok (.done s' (x ++ data).length (pre.length + (x ++ data).length + mid'.length)) ∧
        R s' (pre ++ (x ++ data) ++ mid' ++ (post ++ rest')) := by
  intro fuel
  induction fuel with
  | zero => intro s data x mid rest add _ h; omega
  | succ fuel ih =>
    intro s data x mid rest add hR _ hfuel hfree hg
    by_cases hd : data.length ≤ mid.length
    · obtain ⟨s', e, r⟩ := L.turn_done pre (post ++ rest) (fuel := fuel)
        (initial := (pre ++ old ++ post).length) (sp := old.length) (add := add + 1) hR hd
      refine ⟨s', mid.drop data.length, rest, ?_, r⟩
      rw [e]
      congr 2
      simp only [List.length_append, List.length_drop]
      omega
    · rw [guesses_lt (by rw [List.length_append]; omega)] at hg
      obtain ⟨s1, mid', hm, r1, e1⟩ := L.turn_grows pre old post (fuel := fuel) (data := data) hR
        (Nat.succ_pos add) (by omega) hfree (hg _ (by simp))
      have hx : (x ++ data.take mid.length).length = x.length + mid.length := by
        simp; omega
      have hsplit : (x ++ data.take mid.length) ++ data.drop mid.length = x ++ data := by
        simp [List.append_assoc]
      obtain ⟨s', mid2, rest2, e2, r2⟩ := ih s1 (data.drop mid.length) (x ++ data.take mid.length)
        mid' [] (2 * add + 1) (by simpa using r1) (by omega)
        (by rw [List.length_drop]; omega) (.inr (.inl rfl)) (by
          rw [hsplit, hx, hm]
          exact fun n hn => hg n (List.mem_cons_of_mem _ hn))
      rw [hsplit] at e2 r2
      rw [hx, hm, show 2 * add + 1 + 1 = (add + 1) * 2 by omega] at e2
      exact ⟨s', mid2, rest2, by rw [e1, e2], r2⟩

/-- The loop when there is no room for some estimate, but for the items. -/
theorem loop_low (L : SxLaws ops R Q P lim) (pre old post : List β) {c room : Nat}
    (hl : lim = some c) (hc : c = pre.length + room + post.length) (ho : old.length ≤ room) :
    ∀ (fuel : Nat) (s : S) (data x mid rest : List β) (add : Nat),
      R s (pre ++ x ++ mid ++ (post ++ rest)) → 0 < fuel → data.length + 1 ≤ fuel + mid.length →
      (rest = [] ∨ SxFree ops R Q lim) → (x ++ data).length ≤ room →
      (∃ n ∈ guesses (x ++ data).length (x.length + mid.length) add, room < n) →
      ∃ s' junk est, est = granted room (x.length + mid.length)
          (guesses (x ++ data).length (x.length + mid.length) add) ∧
        ops.mainLoop pre.length (pre ++ old ++ post).length old.length fuel s data
          x.length (x.length + mid.length) (add + 1) (pre.length + (x.length + mid.length)) =
          .ok (.done s' (x ++ data).length (pre.length + room)) ∧
        est < (x ++ data).length ∧ junk.length = room - est ∧
        ∃ sh, sh = shifted (pre ++ (x ++ data).take est ++ post ++ junk) (pre.length + est)
            (pre.length + room - old.length) ∧
          R s' (sh.take (pre.length + est) ++ (x ++ data).drop est ++
            sh.drop (pre.length + (x ++ data).length)) := by
  intro fuel
  induction fuel with
  | zero => intro s data x mid rest add _ h; omega
  | succ fuel ih =>
    intro s data x mid rest add hR _ hfuel hfree hfit ⟨n, hn, hnr⟩
    by_cases hd : data.length ≤ mid.length
    · rw [guesses_ge (by rw [List.length_append]; omega)] at hn
      cases hn
    · have hlt : x.length + mid.length < (x ++ data).length := by rw [List.length_append]; omega
      have hx : (x ++ data.take mid.length).length = x.length + mid.length := by
        simp; omega
      have hsplit : (x ++ data.take mid.length) ++ data.drop mid.length = x ++ data := by
        simp [List.append_assoc]
      rw [guesses_lt hlt] at hn ⊢
      by_cases hg : x.length + mid.length + (add + 1) ≤ room
      · obtain ⟨s1, mid', hm, r1, e1⟩ := L.turn_grows pre old post (fuel := fuel) (data := data) hR
          (Nat.succ_pos add) (by omega) (.inr hfree) (fun c' hc' => by
            rw [hl] at hc'; cases hc'; omega)
        obtain ⟨s', junk, est, h0, h1, h2, h3, sh, h4, h5⟩ := ih s1 (data.drop mid.length)
          (x ++ data.take mid.length) mid' [] (2 * add + 1) (by simpa using r1) (by omega)
          (by rw [List.length_drop]; omega) (.inl rfl) (by rw [hsplit]; exact hfit) (by
            rw [hsplit, hx, hm]
            rcases List.mem_cons.mp hn with h | h
            · omega
            · exact ⟨n, h, hnr⟩)
        rw [hsplit] at h0 h1 h2 h4 h5
        rw [hx, hm] at h0 h1
        rw [show 2 * add + 1 + 1 = (add + 1) * 2 by omega] at h1
        refine ⟨s', junk, est, ?_, by rw [e1, h1], h2, h3, sh, h4, h5⟩
        rw [granted, if_pos hg]
        exact h0
      · obtain ⟨s1, junk, hj, r1, e1⟩ := L.turn_refused pre old post (fuel := fuel)
          (data := data) (room := room) hR (by omega) hl hc ho (by omega) (Nat.lt_of_not_le hg)
        have htk : (x ++ data).take (x.length + mid.length) = x ++ data.take mid.length := by
          rw [← hsplit, ← hx]; exact List.take_left
        have hdp : (x ++ data).drop (x.length + mid.length) = data.drop mid.length := by
          rw [← hsplit, ← hx]; exact List.drop_left
        have hdl : (data.drop mid.length).length = (x ++ data).length - (x.length + mid.length) := by
          rw [List.length_drop, List.length_append]; omega
        have hpl : (pre ++ (x ++ data.take mid.length)).length =
            pre.length + (x.length + mid.length) := by
          rw [List.length_append, hx]
        have hlen : (pre ++ (x ++ data.take mid.length) ++ post ++ junk).length = c := by
          rw [List.length_append, List.length_append, hpl]; omega
        have hsl := length_shifted (pre ++ (x ++ data.take mid.length) ++ post ++ junk)
          (pre.length + (x.length + mid.length)) (pre.length + room - old.length)
          (by rw [hlen]; omega) (by rw [hlen]; omega)
        revert hsl r1
        generalize hsh : shifted (pre ++ (x ++ data.take mid.length) ++ post ++ junk)
          (pre.length + (x.length + mid.length)) (pre.length + room - old.length) = sh
        intro r1 hsl
        rw [hlen] at hsl
        have q1 : (sh.take pre.length).length = pre.length := by rw [List.length_take]; omega
        have q2 : ((sh.drop pre.length).take (x.length + mid.length)).length =
            x.length + mid.length := by
          rw [List.length_take, List.length_drop]; omega
        have q3 : ((sh.drop (pre.length + (x.length + mid.length))).take
            (room - (x.length + mid.length))).length = room - (x.length + mid.length) := by
          rw [List.length_take, List.length_drop]; omega
        have q4 : sh = sh.take pre.length ++ (sh.drop pre.length).take (x.length + mid.length) ++
            (sh.drop (pre.length + (x.length + mid.length))).take (room - (x.length + mid.length)) ++
            sh.drop (pre.length + room) := by
          have a1 : (sh.drop (pre.length + (x.length + mid.length))).take
              (room - (x.length + mid.length)) ++ sh.drop (pre.length + room) =
              sh.drop (pre.length + (x.length + mid.length)) := by
            have := List.take_append_drop (room - (x.length + mid.length))
              (sh.drop (pre.length + (x.length + mid.length)))
            rw [List.drop_drop, show pre.length + (x.length + mid.length) +
              (room - (x.length + mid.length)) = pre.length + room by omega] at this
            exact this
          have a2 : (sh.drop pre.length).take (x.length + mid.length) ++
              sh.drop (pre.length + (x.length + mid.length)) = sh.drop pre.length := by
            rw [← List.drop_drop]
            exact List.take_append_drop _ _
          rw [List.append_assoc, a1, List.append_assoc, a2, List.take_append_drop]
        have r1' := r1
        rw [q4] at r1'
        obtain ⟨fuel, rfl⟩ : ∃ f, fuel = f + 1 := ⟨fuel - 1, by omega⟩
        obtain ⟨s2, e2, r2⟩ := L.turn_done (sh.take pre.length) (sh.drop (pre.length + room))
          (fuel := fuel) (initial := (pre ++ old ++ post).length) (sp := old.length)
          (add := (add + 1) * 2) (data := data.drop mid.length) r1' (by omega)
        have hw : (((sh.drop pre.length).take (x.length + mid.length)) ++
            data.drop mid.length).length = (x ++ data).length := by
          rw [List.length_append, q2, hdl]; omega
        rw [q1, q2, q3, hw, show x.length + mid.length + (room - (x.length + mid.length)) = room by
          omega] at e2
        refine ⟨s2, junk, x.length + mid.length, ?_, by rw [e1, e2], hlt, hj, sh, ?_, ?_⟩
        · rw [granted, if_neg hg]
        · rw [htk]; exact hsh.symm
        · rw [hdp]
          have a3 : sh.take (pre.length + (x.length + mid.length)) =
              sh.take pre.length ++ (sh.drop pre.length).take (x.length + mid.length) := by
            rw [List.take_add]
          have a4 : sh.drop (pre.length + (x ++ data).length) =
              ((sh.drop (pre.length + (x.length + mid.length))).take
                (room - (x.length + mid.length))).drop (data.drop mid.length).length ++
              sh.drop (pre.length + room) := by
            rw [hdl, List.drop_take, List.drop_drop]
            rw [show pre.length + (x.length + mid.length) +
              ((x ++ data).length - (x.length + mid.length)) = pre.length + (x ++ data).length by
              omega]
            rw [show sh.drop (pre.length + room) = (sh.drop (pre.length + (x ++ data).length)).drop
              (room - (x.length + mid.length) - ((x ++ data).length - (x.length + mid.length))) by
              rw [List.drop_drop]; congr 1; omega]
            exact (List.take_append_drop _ _).symm
          rw [a3, a4]
          simpa [List.append_assoc] using r2

/-- Before the loop, when there is room for the size hint. -/
theorem start_fits (L : SxLaws ops R Q P lim) {s0 : S} {est : Nat} (pre old post : List β)
    (hR : R s0 (pre ++ old ++ post)) (hf : Fits lim (pre.length + est + post.length)) :
    ∃ s1, ops.firstGrow s0 (pre.length + old.length) (pre ++ old ++ post).length
        old.length est = .ok (s1, est) ∧
      ∃ s2 mid rest, ops.moveTail s1 (pre.length + old.length) (pre.length + est) = .ok s2 ∧
        mid.length = est ∧ R s2 (pre ++ [] ++ mid ++ (post ++ rest)) ∧
        (old.length ≤ est → rest = []) := by
  unfold SxOps.firstGrow
  rw [usub_ok (by omega)]
  simp only [Res.ok_bind]
  by_cases hg : old.length < est
  · rw [if_pos (by omega), usub_ok (by simp only [List.length_append]; omega)]
    simp only [Res.ok_bind]
    have hsz : est + (pre ++ old ++ post).length - old.length =
        (pre ++ old).length + (est - old.length) + post.length := by
      simp only [List.length_append]; omega
    rw [hsz]
    have hR' : R s0 ((pre ++ old) ++ post ++ []) := by simpa using hR
    obtain ⟨s1, e1, s2, e2, mid, hm, r2⟩ := L.grow (a := pre ++ old) (add := est - old.length) hR' (by omega)
      (hf.mono (by simp only [List.length_append]; omega)) (.inr (.inl (Nat.zero_le _)))
    rw [e1]
    simp only [Res.ok_bind]
    refine ⟨s1, rfl, s2, old ++ mid, [], ?_, ?_, ?_, fun _ => rfl⟩
    · rw [← e2]; congr 1 <;> simp only [List.length_append] <;> omega
    · simp; omega
    · simpa using r2
  · rw [if_neg (by omega)]
    refine ⟨s0, rfl, ?_⟩
    by_cases hz : est = old.length
    · obtain ⟨s2, e2, r2⟩ := L.same (pre.length + old.length) hR
      exact ⟨s2, old, [], by rw [hz]; exact e2, hz.symm, by simpa using r2, fun _ => rfl⟩
    · obtain ⟨s2, e2, r2⟩ := L.down (pre.length + old.length) (pre.length + est) hR
        (by omega) (by simp)
      refine ⟨s2, old.take est, (pre ++ old ++ post).drop
        (pre.length + est + ((pre ++ old ++ post).length - (pre.length + old.length))),
        e2, by simp; omega, ?_, fun h => absurd (by omega) hz⟩
      have e : (pre ++ old ++ post).take (pre.length + est) = pre ++ old.take est := by
        rw [List.append_assoc, List.take_append, List.take_of_length_le (by omega),
          show pre.length + est - pre.length = est by omega,
          List.take_append_of_le_length (by omega)]
      have e' : (pre ++ old ++ post).drop (pre.length + old.length) = post := by
        rw [show pre.length + old.length = (pre ++ old).length by simp]
        exact List.drop_left
      rw [e, e'] at r2
      simpa using r2

/-- After the loop. -/
theorem finish_spec (L : SxLaws ops R Q P lim) {s : S} {m : List β} {tail to n post initial sp begin : Nat}
    (hR : R s m) (h1 : tail + post ≤ m.length) (h2 : begin + to ≤ tail)
    (h3 : to + initial = n + sp) (h4 : n = begin + to + post) :
    ∃ s', ops.finish begin initial sp (.done s to tail) = .ok (s', none) ∧
      P s' (m.take (begin + to) ++ (m.drop tail).take post) := by
  obtain ⟨s1, e1, r1⟩ := L.shift (tail := tail) (to := begin + to) hR (by omega) (by omega)
  obtain ⟨s2, e2, p2⟩ := L.shrink n r1
    (by rw [length_shifted _ _ _ (by omega) (by omega)]; omega)
  have e : (shifted m tail (begin + to)).take n = m.take (begin + to) ++ (m.drop tail).take post := by
    unfold shifted
    rw [List.take_take, Nat.min_eq_left (by omega), List.append_assoc, List.take_append,
      List.take_of_length_le (by rw [List.length_take]; omega), List.length_take,
      Nat.min_eq_left (by omega), List.take_append_of_le_length (by rw [List.length_drop]; omega),
      show n - (begin + to) = post by omega]
  rw [e] at p2
  refine ⟨s2, ?_, p2⟩
  unfold SxOps.finish
  simp only [e1, Res.ok_bind]
  rw [usub_ok (by omega)]
  simp only [Res.ok_bind]
  rw [show to + initial - sp = n by omega, e2]
  rfl

/-- `try_splice_sysex_data` with a size hint that is too low. -/
theorem trySplice_low (L : SxLaws ops R Q P lim) {s s0 : S} (d : Src β) (rb re : Bound)
    (pre old post : List β) {c room : Nat} (hl : lim = some c)
    (hcr : c = pre.length + room + post.length)
    (hc : ops.compact s = .ok s0) (hR : R s0 (pre ++ old ++ post))
    (hb : rb.spliceBegin = pre.length)
    (he : re.spliceEnd (pre ++ old ++ post).length = pre.length + old.length)
    (hfree : old.length ≤ d.estimate ∨ SxFree ops R Q lim)
    (hlow : d.estimate < d.items.length) (hfit : d.items.length ≤ room) :
    ((∀ n ∈ guesses d.items.length d.estimate 0, n ≤ room) →
      ∃ s', ops.trySplice s d rb re = .ok (s', none) ∧ P s' (pre ++ d.items ++ post)) ∧
    ((∃ n ∈ guesses d.items.length d.estimate 0, room < n) →
      ∃ s' junk, ops.trySplice s d rb re = .ok (s', none) ∧
        junk.length = room - granted room d.estimate (guesses d.items.length d.estimate 0) ∧
        P s' (d.misplaced (pre ++ old ++ post) pre.length (pre.length + old.length) room junk)) := by
  have ho : old.length ≤ room := by
    have := L.bound hR c hl
    simp only [List.length_append] at this
    omega
  obtain ⟨s1, e1, s2, mid, rest, e2, hm, r2, hrest⟩ := L.start_fits (est := d.estimate) pre old post hR
    (fun c' hc' => by rw [hl] at hc'; cases hc'; omega)
  have hfree' : rest = [] ∨ SxFree ops R Q lim := hfree.imp_left hrest
  have run : ∀ {s3 t}, ops.mainLoop pre.length (pre ++ old ++ post).length old.length
        (d.items.length + 1) s2 d.items 0 d.estimate 1 (pre.length + d.estimate) =
        .ok (.done s3 d.items.length t) → ∀ {s4}, ops.finish pre.length (pre ++ old ++ post).length
          old.length (.done s3 d.items.length t) = .ok (s4, none) →
      ops.trySplice s d rb re = .ok (s4, none) := by
    intro s3 t hloop s4 hfin
    unfold SxOps.trySplice
    rw [ops.trySpliceDetail_eq]
    unfold SxOps.toLoop
    rw [hc]
    simp only [Res.ok_bind]
    rw [L.size hR]
    simp only [Res.ok_bind]
    rw [hb, he, usub_ok (by omega)]
    simp only [Res.ok_bind]
    rw [show pre.length + old.length - pre.length = old.length by omega, e1]
    simp only [Res.ok_bind]
    rw [usub_ok (by omega)]
    simp only [Res.ok_bind]
    rw [show pre.length + old.length + d.estimate - old.length = pre.length + d.estimate by omega, e2]
    simp only [Res.ok_bind]
    rw [hloop]
    simp only [Res.ok_bind, Res.pure_eq]
    rw [hfin]
    rfl
  constructor
  · intro hg
    obtain ⟨s3, mid', rest', e3, r3⟩ := L.loop_fits pre old post (d.items.length + 1) s2 d.items [] mid
      rest 0 r2 (by omega) (by omega) (.inr hfree') (by
        intro n hn c' hc'
        rw [hl] at hc'
        cases hc'
        have := hg n (by simpa [hm] using hn)
        omega)
    simp only [List.nil_append, List.length_nil, Nat.zero_add, hm] at e3 r3
    obtain ⟨s4, e4, p4⟩ := L.finish_spec (begin := pre.length) (to := d.items.length)
      (tail := pre.length + d.items.length + mid'.length) (post := post.length)
      (initial := (pre ++ old ++ post).length) (sp := old.length) r3
      (by simp only [List.length_append]; omega) (by omega)
      (n := pre.length + d.items.length + post.length)
      (by simp only [List.length_append]; omega) rfl
    refine ⟨s4, run e3 e4, ?_⟩
    have a1 : (pre ++ d.items ++ mid' ++ (post ++ rest')).take (pre.length + d.items.length) =
        pre ++ d.items := by
      rw [List.append_assoc (pre ++ d.items), show pre.length + d.items.length =
        (pre ++ d.items).length by simp]
      exact List.take_left
    have a2 : ((pre ++ d.items ++ mid' ++ (post ++ rest')).drop
        (pre.length + d.items.length + mid'.length)).take post.length = post := by
      rw [show pre.length + d.items.length + mid'.length = (pre ++ d.items ++ mid').length by
        simp only [List.length_append], List.drop_left]
      exact List.take_left
    rw [a1, a2] at p4
    exact p4
  · intro hg
    obtain ⟨s3, junk, est, h0, e3, h2, h3, sh, h4, r3⟩ := L.loop_low pre old post hl hcr ho
      (d.items.length + 1) s2 d.items [] mid rest 0 r2 (by omega) (by omega) hfree'
      (by simpa using hfit) (by simpa [hm] using hg)
    simp only [List.nil_append, List.length_nil, Nat.zero_add, hm] at h0 e3 h2 h4 r3
    have hlen : (pre ++ d.items.take est ++ post ++ junk).length = c := by
      simp only [List.length_append, List.length_take]; omega
    have hsl : sh.length = c := by
      rw [h4, length_shifted _ _ _ (by rw [hlen]; omega) (by rw [hlen]; omega), hlen]
    have q1 : (sh.take (pre.length + est) ++ d.items.drop est).length =
        pre.length + d.items.length := by
      simp only [List.length_append, List.length_take, List.length_drop]; omega
    obtain ⟨s4, e4, p4⟩ := L.finish_spec (begin := pre.length) (to := d.items.length)
      (tail := pre.length + room) (post := post.length)
      (initial := (pre ++ old ++ post).length) (sp := old.length) r3
      (by rw [List.length_append, q1, List.length_drop]; omega) (by omega)
      (n := pre.length + d.items.length + post.length)
      (by simp only [List.length_append]; omega) rfl
    refine ⟨s4, junk, run e3 e4, by rw [h3, h0], ?_⟩
    have a1 : (sh.take (pre.length + est) ++ d.items.drop est ++
        sh.drop (pre.length + d.items.length)).take (pre.length + d.items.length) =
        sh.take (pre.length + est) ++ d.items.drop est := by
      rw [← q1]; exact List.take_left
    have a2 : ((sh.take (pre.length + est) ++ d.items.drop est ++
        sh.drop (pre.length + d.items.length)).drop (pre.length + room)).take post.length =
        sh.drop (pre.length + room) := by
      rw [List.drop_append, q1, List.drop_of_length_le (by rw [q1]; omega), List.nil_append,
        List.drop_drop, show pre.length + d.items.length +
          (pre.length + room - (pre.length + d.items.length)) = pre.length + room by omega]
      exact List.take_of_length_le (by rw [List.length_drop]; omega)
    rw [a1, a2] at p4
    have hest : d.upper.getD d.lower = d.estimate := by unfold Src.estimate; cases d.upper <;> rfl
    have b1 : (pre ++ old ++ post).take pre.length = pre := by
      rw [List.append_assoc]; exact List.take_left
    have b2 : (pre ++ old ++ post).drop (pre.length + old.length) = post := by
      rw [show pre.length + old.length = (pre ++ old).length by simp]
      exact List.drop_left
    unfold Src.misplaced
    simp only
    rw [hest, ← h0, b1, b2, show pre.length + old.length - pre.length = old.length by omega, ← h4]
    exact p4

end SxLaws

end Midi2
