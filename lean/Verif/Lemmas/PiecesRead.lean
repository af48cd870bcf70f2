import Verif.Props.Pieces

/-! Messages that arrive in pieces: the reader of Spec/Pieces.lean, piece by piece. -/

namespace Midi2

/-- What is left when the messages that have arrived are taken. -/
theorem takeMessages_front {todo : List (UmpKind × Buf .ump)} {r : Buf .ump} (F : AtFront todo r)
    (hms : ∀ m ∈ todo, UmpMessage.tryFrom m.2 = .ok m ∧ m.1.data m.2 = .ok m.2) :
    (TornMessage todo r → ∀ n, r.length ≤ n → takeMessages n r = .panic) ∧
    (¬ TornMessage todo r → ∀ n, r.length ≤ n → takeMessages n r = .ok ([], r)) := by
  have nil : ∀ n, takeMessages n [] = .ok ([], []) := fun n => by cases n <;> rfl
  rcases F with ⟨rfl, rfl⟩ | ⟨m, post, i, rfl, hi, rfl⟩
  · refine ⟨?_, fun _ n _ => nil n⟩
    rintro ⟨done, m, post, n, h, -⟩
    cases done <;> cases h
  · obtain ⟨h1, h2⟩ := hms m List.mem_cons_self
    obtain ⟨g1, g2⟩ := C76_message_prefix_exactly m.2 m.1 h1 h2 i hi
    have hl : (m.2.take i).length = i := by rw [List.length_take]; omega
    constructor
    · rintro ⟨done, m', post', n, e1, e2, e3, e4⟩ j hj
      obtain ⟨-, rfl, rfl⟩ := split_unique (done := []) e1 hi e2 e3
      obtain ⟨a1, a2⟩ := g1 e4
      have hp : 0 < (m.2.take i).length := by
        refine List.length_pos_iff.mpr fun e => ?_
        rw [e] at a1
        cases a1
      obtain ⟨j, rfl⟩ : ∃ x, j = x + 1 := ⟨j - 1, by omega⟩
      unfold takeMessages
      rw [a1]
      show (UmpMessage.data (m.1, m.2.take i) >>= fun d => _) = _
      rw [a2]; rfl
    · intro hT j hj
      have hc : ¬ m.1.CutInLast m.2 i := fun hc => hT ⟨[], m, post, i, rfl, hi, rfl, hc⟩
      obtain ⟨e, he⟩ := g2 hc
      cases j with
      | zero => rfl
      | succ j =>
        unfold takeMessages
        rw [he]

/-- One piece. -/
theorem takeMessages_piece {ms : List (UmpKind × Buf .ump)}
    (hms : ∀ m ∈ ms, UmpMessage.tryFrom m.2 = .ok m ∧ m.1.data m.2 = .ok m.2)
    (htol : ∀ pre m post c, ms = pre ++ m :: post → c <+: (post.map Prod.snd).flatten →
      m.1.Allows m.2 c) {w : Buf .ump} (hw : w <+: (ms.map Prod.snd).flatten) :
    ∃ done todo r, ms = done ++ todo ∧ w = (done.map Prod.snd).flatten ++ r ∧ AtFront todo r ∧
      (TornMessage ms w ↔ TornMessage todo r) ∧
      (TornMessage todo r → takeMessages w.length w = .panic) ∧
      (¬ TornMessage todo r → takeMessages w.length w = .ok (done, r)) := by
  obtain ⟨done, todo, r, rfl, rfl, F⟩ := split_messages ms w hw
  have hr : r <+: (todo.map Prod.snd).flatten := by
    rw [List.map_append, List.flatten_append] at hw
    exact (List.prefix_append_right_inj _).mp hw
  obtain ⟨f1, f2⟩ := takeMessages_front F fun m hm => hms m (List.mem_append_right _ hm)
  have hT : TornMessage (done ++ todo) ((done.map Prod.snd).flatten ++ r) ↔ TornMessage todo r := by
    constructor
    · rintro ⟨done', m', post', n', e1, e2, e3, e4⟩
      rcases F with ⟨rfl, rfl⟩ | ⟨m, post, i, rfl, hi, rfl⟩
      · exfalso
        have := congrArg (fun ms => (ms.map Prod.snd).flatten.length) e1
        simp only [List.append_nil, List.map_append, List.map_cons, List.flatten_append,
          List.flatten_cons, List.length_append] at this
        have h3 := congrArg List.length e3
        rw [List.append_nil, List.length_append, List.length_take] at h3
        omega
      · obtain ⟨rfl, rfl, rfl⟩ := split_unique e1 hi e2 e3
        exact ⟨[], m, post, i, rfl, hi, rfl, e4⟩
    · rintro ⟨d, m, post, n, rfl, e2, rfl, e4⟩
      exact ⟨done ++ d, m, post, n, by rw [List.append_assoc], e2, by
        rw [List.map_append, List.flatten_append, List.append_assoc], e4⟩
  refine ⟨done, todo, r, rfl, rfl, F, hT, fun h => ?_, fun h => ?_⟩
  · rw [takeMessages_of hr (f1 h) done (fun m hm => hms m (List.mem_append_left _ hm)) htol _
      (Nat.le_refl _)]
    rfl
  · rw [takeMessages_of hr (f2 h) done (fun m hm => hms m (List.mem_append_left _ hm)) htol _
      (Nat.le_refl _), Res.ok_bind, List.append_nil]

/-- All pieces. -/
theorem readMessages_pieces : ∀ (ps : List (Buf .ump)) {ms : List (UmpKind × Buf .ump)}
    {r : Buf .ump}, (∀ m ∈ ms, UmpMessage.tryFrom m.2 = .ok m ∧ m.1.data m.2 = .ok m.2) →
    (∀ pre m post c, ms = pre ++ m :: post → c <+: (post.map Prod.snd).flatten →
      m.1.Allows m.2 c) → AtFront ms r → ¬ TornMessage ms r →
    r ++ ps.flatten <+: (ms.map Prod.snd).flatten →
    ((∀ pre post, ps = pre ++ post → ¬ TornMessage ms (r ++ pre.flatten)) →
      ∃ outs todo rest, readMessages ps r = .ok (outs, rest) ∧ outs.length = ps.length ∧
        ms = outs.flatten ++ todo ∧ AtFront todo rest ∧
        r ++ ps.flatten = (outs.flatten.map Prod.snd).flatten ++ rest) ∧
    ((∃ pre post, ps = pre ++ post ∧ TornMessage ms (r ++ pre.flatten)) →
      readMessages ps r = .panic)
  | [], ms, r, hms, htol, F, hN, hw => by
    refine ⟨fun _ => ⟨[], ms, r, rfl, rfl, rfl, F, ?_⟩, ?_⟩
    · rw [List.flatten_nil, List.append_nil]; rfl
    · rintro ⟨pre, post, h, hT⟩
      obtain ⟨rfl, -⟩ := List.nil_eq_append_iff.mp h
      rw [List.flatten_nil, List.append_nil] at hT
      exact absurd hT hN
  | p :: ps, ms, r, hms, htol, F, hN, hw => by
    rw [List.flatten_cons, ← List.append_assoc] at hw
    obtain ⟨done, todo, s, rfl, e2, F', hT, t1, t2⟩ :=
      takeMessages_piece hms htol ((List.prefix_append _ _).trans hw)
    have hx : readMessages (p :: ps) r = takeMessages (r ++ p).length (r ++ p) >>= fun x =>
      readMessages ps x.2 >>= fun y => .ok (x.1 :: y.1, y.2) := rfl
    rw [hx]
    -- the rest of the pieces, seen from the messages that remain
    have shift : ∀ w, TornMessage (done ++ todo) ((done.map Prod.snd).flatten ++ w) →
        s <+: w → TornMessage todo w := by
      rintro w ⟨d, m, post, n, a1, a2, a3, a4⟩ hs
      by_cases hd : done.length ≤ d.length
      · obtain ⟨d', rfl⟩ : ∃ d', d = done ++ d' := by
          have := congrArg (List.take done.length) a1
          rw [List.take_left, List.take_append_of_le_length hd] at this
          exact ⟨d.drop done.length, by
            have h2 := List.take_append_drop done.length d
            rw [← this] at h2
            exact h2.symm⟩
        rw [List.append_assoc] at a1
        rw [List.map_append, List.flatten_append, List.append_assoc] at a3
        exact ⟨d', m, post, n, List.append_cancel_left a1, a2, List.append_cancel_left a3, a4⟩
      · exfalso
        obtain ⟨e, he⟩ : ∃ e, done = d ++ m :: e := by
          have h1 := congrArg (List.take done.length) a1
          rw [List.take_left, List.take_append, List.take_of_length_le (by omega)] at h1
          obtain ⟨j, hj⟩ : ∃ j, done.length - d.length = j + 1 := ⟨done.length - d.length - 1, by omega⟩
          rw [hj, List.take_succ_cons] at h1
          exact ⟨_, h1⟩
        rw [he] at a3
        have := congrArg List.length a3
        simp only [List.map_append, List.map_cons, List.flatten_append, List.flatten_cons,
          List.length_append, List.length_take] at this
        omega
    have back : ∀ w, TornMessage todo w →
        TornMessage (done ++ todo) ((done.map Prod.snd).flatten ++ w) := by
      rintro w ⟨d, m, post, n, rfl, a2, rfl, a4⟩
      exact ⟨done ++ d, m, post, n, by rw [List.append_assoc], a2, by
        rw [List.map_append, List.flatten_append, List.append_assoc], a4⟩
    by_cases hs : TornMessage todo s
    · rw [t1 hs]
      refine ⟨fun h => absurd (hT.mpr hs) ?_, fun _ => rfl⟩
      have := h [p] ps rfl
      rwa [List.flatten_cons, List.flatten_nil, List.append_nil] at this
    · rw [t2 hs, Res.ok_bind]
      have hw' : s ++ ps.flatten <+: (todo.map Prod.snd).flatten := by
        rw [e2, List.append_assoc, List.map_append, List.flatten_append] at hw
        exact (List.prefix_append_right_inj _).mp hw
      obtain ⟨g1, g2⟩ := readMessages_pieces ps (ms := todo) (r := s)
        (fun m hm => hms m (List.mem_append_right _ hm))
        (fun pre m post c h => htol (done ++ pre) m post c (by rw [h, List.append_assoc])) F' hs hw'
      have hcat : ∀ pre : List (Buf .ump), r ++ (p :: pre).flatten =
          (done.map Prod.snd).flatten ++ (s ++ pre.flatten) := fun pre => by
        rw [List.flatten_cons, ← List.append_assoc, e2, List.append_assoc]
      constructor
      · intro h
        obtain ⟨outs, rest', rest, b1, b2, b3, b4, b5⟩ := g1 fun pre post hp hX =>
          h (p :: pre) post (by rw [hp]; rfl) (by rw [hcat]; exact back _ hX)
        refine ⟨done :: outs, rest', rest, by rw [b1]; rfl, by
          rw [List.length_cons, List.length_cons, b2], by
          rw [List.flatten_cons, List.append_assoc, ← b3], b4, ?_⟩
        rw [hcat, b5, List.flatten_cons, List.map_append, List.flatten_append, List.append_assoc]
      · rintro ⟨pre, post, hp, hX⟩
        cases pre with
        | nil =>
          rw [List.flatten_nil, List.append_nil] at hX
          exact absurd hX hN
        | cons q pre =>
          obtain ⟨rfl, hp'⟩ := List.cons.inj hp
          rw [hcat] at hX
          rw [g2 ⟨pre, post, hp', shift _ hX (List.prefix_append _ _)⟩]
          rfl

end Midi2
