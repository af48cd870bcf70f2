import Verif.Lemmas.PiecesRead

/-! C76 for whole messages: a stream of messages arrives in pieces of any size. -/

namespace Midi2

/-- C76, exactly: the messages of a stream, each well-formed by itself and tolerating what follows
it (C12), arrive in pieces.  If no piece ends within the last of several packets of a message, as
in C76_message_prefix_exactly, the reader has after the last piece all messages that have arrived.
Otherwise it panics. -/
theorem C76_messages_exactly (ms : List (UmpKind × Buf .ump))
    (hms : ∀ m ∈ ms, UmpMessage.tryFrom m.2 = .ok m ∧ m.1.data m.2 = .ok m.2)
    (htol : ∀ pre m post c, ms = pre ++ m :: post → c <+: (post.map Prod.snd).flatten →
      m.1.Allows m.2 c)
    (ps : List (Buf .ump)) (hps : ps.flatten <+: (ms.map Prod.snd).flatten) :
    ((∀ pre post, ps = pre ++ post → ¬ TornMessage ms pre.flatten) →
      ∃ outs todo rest, readMessages ps [] = .ok (outs, rest) ∧ outs.length = ps.length ∧
        ms = outs.flatten ++ todo ∧ ps.flatten = (outs.flatten.map Prod.snd).flatten ++ rest ∧
        (∀ m, todo.head? = some m → rest.length < m.2.length) ∧
        (ps.flatten = (ms.map Prod.snd).flatten → outs.flatten = ms ∧ rest = [])) ∧
    ((∃ pre post, ps = pre ++ post ∧ TornMessage ms pre.flatten) → readMessages ps [] = .panic) := by
  have hlen : ∀ m ∈ ms, 0 < m.2.length := fun m hm => by
    refine List.length_pos_iff.mpr fun e => ?_
    have := (hms m hm).1
    rw [e] at this
    cases this
  have F : AtFront ms [] := by
    cases ms with
    | nil => exact .inl ⟨rfl, rfl⟩
    | cons m ms => exact .inr ⟨m, ms, 0, rfl, hlen m List.mem_cons_self, rfl⟩
  have hN : ¬ TornMessage ms [] := by
    rintro ⟨done, m, post, n, e1, e2, e3, e4⟩
    have h3 := (List.nil_eq_append_iff.mp e3).2
    have hm : m ∈ ms := by rw [e1]; exact List.mem_append_right _ List.mem_cons_self
    have h4 := ((C76_message_prefix_exactly m.2 m.1 (hms m hm).1 (hms m hm).2 n e2).1 e4).1
    rw [h3] at h4
    cases h4
  obtain ⟨g1, g2⟩ := readMessages_pieces ps hms htol F hN hps
  refine ⟨fun h => ?_, g2⟩
  obtain ⟨outs, todo, rest, h1, h2, h3, h4, h5⟩ := g1 h
  have hhead : ∀ m, todo.head? = some m → rest.length < m.2.length := by
    intro m hm
    rcases h4 with ⟨rfl, -⟩ | ⟨m', post, n, rfl, hn, rfl⟩
    · cases hm
    · cases hm
      rw [List.length_take]
      omega
  refine ⟨outs, todo, rest, h1, h2, h3, h5, hhead, fun he => ?_⟩
  have h5 : ps.flatten = (outs.flatten.map Prod.snd).flatten ++ rest := h5
  have hr : rest = (todo.map Prod.snd).flatten := by
    have h6 := he.symm.trans h5
    rw [h3, List.map_append, List.flatten_append] at h6
    exact (List.append_cancel_left h6).symm
  cases todo with
  | nil =>
    rw [List.append_nil] at h3
    exact ⟨h3.symm, hr⟩
  | cons m todo =>
    have := hhead m rfl
    rw [hr, List.map_cons, List.flatten_cons, List.length_append] at this
    omega

-- A timing clock, a sysex7 message in two packets and a note on, in pieces of one, two and four words.
example : readMessages [[0x10F80000], [0x30160001, 0x02030405], [0x30310600, 0, 0x40953C00, 0x80000000]] [] =
    .ok ([[(.fixed Msg.sysTimingClock, [0x10F80000])], [],
      [(.sysex .s7, [0x30160001, 0x02030405, 0x30310600, 0]),
       (.fixed Msg.cv2NoteOn, [0x40953C00, 0x80000000])]], []) := by decide +kernel

-- Cut within the second packet of the sysex7 message.
example : readMessages [[0x10F80000, 0x30160001, 0x02030405, 0x30310600], [0, 0x40953C00, 0x80000000]] [] =
    .panic := by decide +kernel

end Midi2
