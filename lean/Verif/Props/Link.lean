import Verif.Lemmas.Link
import Verif.Props.Pieces

/-!
# C78: messages over a line that cuts them into pieces
-/

namespace Midi2

open Rx

/-- C78: any whole messages are sent one after the other, packet by packet.  Whatever part of their
words has come in, in whatever pieces, and whatever the receiver has in its buffers from before: it
does not panic, and has put together exactly the messages that have arrived completely, in the order
in which they were sent, as their packets have them. -/
theorem C78_line (ms : List (UmpKind × List (BitVec 32)))
    (hms : ∀ m ∈ ms, UmpMessage.tryFrom m.2 = .ok m ∧ UmpMessage.data m = .ok m.2) :
    ∃ ps, sendAll ms = .ok ps ∧ ∀ pieces h, pieces.flatten <+: ps.flatten →
      ∃ t, Arrived ms pieces.flatten t ∧ line true h pieces = .ok (t.map inPackets) := by
  obtain ⟨all, h1, h2, h3⟩ := line_all ms hms
  refine ⟨_, h1, fun pieces h hp => ?_⟩
  obtain ⟨s, r, rest, rfl, e2, e3, -, -⟩ := packetsOf_front all (fun x hx => packet_whole (h2 x hx)) _ hp
  obtain ⟨outs, rest', k1, -, k3, -⟩ := C76_packets_careful pieces
  obtain ⟨q1, q2⟩ := k3.unique e2
  obtain ⟨t, u, p, o, w1, w2, w3, w4, w5⟩ := h3 (s.map Prod.snd) (r.map Prod.snd) h (List.map_append)
  refine ⟨t, ⟨u, p, w1, w2, ?_, fun m u' hu => ?_⟩, ?_⟩
  · rw [e2.words, w3, List.flatten_append, List.append_assoc]
    exact List.prefix_append _ _
  · obtain ⟨r₁, v1, ⟨c, v2⟩, v3⟩ := w5 m u' hu
    refine ⟨_, v3, fun hq => ?_⟩
    obtain ⟨a, b, rfl, rfl, rfl⟩ := List.map_eq_append_iff.mp v2.symm
    have := hq.length_le
    rw [e2.words, List.flatten_append, List.length_append, List.length_append] at this
    have := e3 a (fun e => v1 (by rw [e]; rfl)) (List.prefix_append _ _)
    omega
  · unfold line
    rw [k1, Res.ok_bind]
    show (receive true h (outs.flatten.map Prod.snd) >>= fun got => .ok (got.map Prod.snd)) = _
    rw [q1]
    exact w4

/-- C78: what is put together is the message that was sent: the same variant, and `data()` gives the
same words. -/
theorem C78_same (m : UmpKind × List (BitVec 32)) (hm : UmpMessage.tryFrom m.2 = .ok m)
    (hd : UmpMessage.data m = .ok m.2) :
    UmpMessage.tryFrom (inPackets m).2 = .ok (inPackets m) ∧ (inPackets m).1 = m.1 ∧
      UmpMessage.data (inPackets m) = .ok m.2 := by
  obtain ⟨kind, xs, P⟩ := Whole.parts ⟨hm, hd⟩
  rw [P.inPackets]
  exact ⟨P.parsed, rfl, P.data⟩

/-- The messages that have arrived are determined by the words. -/
theorem C78_arrived_unique (ms t t' : List (UmpKind × List (BitVec 32))) (w : List (BitVec 32))
    (A : Arrived ms w t) (B : Arrived ms w t') : t = t' := by
  have key : ∀ {t t' : List (UmpKind × List (BitVec 32))}, Arrived ms w t → Arrived ms w t' →
      t.length ≤ t'.length := by
    intro t t' A B
    obtain ⟨u, p, a1, a2, a3, a4⟩ := A
    obtain ⟨u', p', b1, b2, b3, b4⟩ := B
    refine Nat.le_of_not_lt fun hlt => ?_
    have h1 : t' <+: t := List.prefix_of_prefix_length_le (l₃ := ms) ⟨u', b1.symm⟩ ⟨u, a1.symm⟩
      (Nat.le_of_lt hlt)
    obtain ⟨c, hc⟩ := h1
    cases c with
    | nil =>
      have := congrArg List.length hc
      rw [List.append_nil] at this
      omega
    | cons m c =>
      have hu : u' = m :: (c ++ u) := by
        have : t' ++ u' = t' ++ (m :: (c ++ u)) := by rw [← b1, a1, ← hc, List.append_assoc]; rfl
        exact List.append_cancel_left this
      obtain ⟨q, q1, q2⟩ := b4 m _ hu
      refine q2 (List.IsPrefix.trans ?_ a3)
      -- the packets of the beginning are the beginning of the packets
      have front : ∀ (x y : List (UmpKind × List (BitVec 32))) (a b : List (List (BitVec 32))),
          sendAll x = .ok a → sendAll (x ++ y) = .ok b → a <+: b := by
        intro x
        induction x with
        | nil => intro y a b ha _; cases ha; exact List.nil_prefix
        | cons m x ih =>
          intro y a b ha hb
          have ha : (send m >>= fun ps => sendAll x >>= fun qs => Res.ok (ps ++ qs)) = .ok a := ha
          have hb : (send m >>= fun ps => sendAll (x ++ y) >>= fun qs => Res.ok (ps ++ qs)) = .ok b := hb
          obtain ⟨ps, s1, ha⟩ := bind_inv ha
          obtain ⟨qs, s2, ha⟩ := bind_inv ha
          rw [s1, Res.ok_bind] at hb
          obtain ⟨rs, s3, hb⟩ := bind_inv hb
          cases ha
          cases hb
          exact (List.prefix_append_right_inj _).mpr (ih y qs rs s2 s3)
      have : q <+: p := front (t' ++ [m]) c q p q1 (by
        rw [List.append_assoc, show [m] ++ c = m :: c from rfl, hc]; exact a2)
      obtain ⟨d, rfl⟩ := this
      rw [List.flatten_append]
      exact List.prefix_append _ _
  have hl := Nat.le_antisymm (key A B) (key B A)
  obtain ⟨u, p, a1, -⟩ := A
  obtain ⟨u', p', b1, -⟩ := B
  exact (List.append_inj (a1.symm.trans b1) hl).1

/-- C78: once all words have come in the receiver has all messages. -/
theorem C78_line_all (ms : List (UmpKind × List (BitVec 32)))
    (hms : ∀ m ∈ ms, UmpMessage.tryFrom m.2 = .ok m ∧ UmpMessage.data m = .ok m.2) :
    ∃ ps, sendAll ms = .ok ps ∧ ∀ pieces h, pieces.flatten = ps.flatten →
      line true h pieces = .ok (ms.map inPackets) := by
  obtain ⟨ps, h1, h2⟩ := C78_line ms hms
  refine ⟨ps, h1, fun pieces h hp => ?_⟩
  obtain ⟨t, A, e⟩ := h2 pieces h (by rw [hp]; exact List.prefix_refl _)
  have B : Arrived ms pieces.flatten ms := ⟨[], ps, by rw [List.append_nil], h1,
    by rw [hp]; exact List.prefix_refl _, fun m u' e => nomatch e⟩
  rw [e, C78_arrived_unique ms t ms _ A B]

/-- C78: the reader need not wait for the words a packet announces if no message of MIDI 2.0 channel
voice, flex data or stream type is sent. -/
theorem C78_greedy (ms : List (UmpKind × List (BitVec 32)))
    (hms : ∀ m ∈ ms, UmpMessage.tryFrom m.2 = .ok m ∧ UmpMessage.data m = .ok m.2)
    (ht : ∀ m ∈ ms, ∀ n, fieldAt m.2 0 0 4 = some n → n ≠ 4 ∧ n ≠ 13 ∧ n ≠ 15)
    (ps : List (List (BitVec 32))) (hs : sendAll ms = .ok ps)
    (pieces : List (List (BitVec 32))) (hp : pieces.flatten <+: ps.flatten)
    (h : Lane → List (BitVec 32)) : line false h pieces = line true h pieces := by
  obtain ⟨all, h1, h2, -⟩ := line_all ms hms
  cases Res.ok.inj (hs.symm.trans h1)
  have hty : ∀ x ∈ all, ∀ n, fieldAt x.2 0 0 4 = some n → n ≠ 4 ∧ n ≠ 13 ∧ n ≠ 15 := by
    have : ∀ (ms : List (UmpKind × List (BitVec 32))) (ps : List (List (BitVec 32))),
        (∀ m ∈ ms, Whole m) → sendAll ms = .ok ps → ∀ x ∈ ps, ∃ m ∈ ms, laneAt x = laneAt m.2 := by
      intro ms
      induction ms with
      | nil => intro ps _ h x hx; cases h; cases hx
      | cons m ms ih =>
        intro ps hw hs x hx
        obtain ⟨kind, xs, P⟩ := (hw m List.mem_cons_self).parts
        obtain ⟨all', s1, rfl⟩ := sendAll_cons P hs
        rcases List.mem_append.mp hx with hx | hx
        · exact ⟨m, List.mem_cons_self, P.lane x hx⟩
        · obtain ⟨m', a, b⟩ := ih all' (fun m hm => hw m (List.mem_cons_of_mem _ hm)) s1 x hx
          exact ⟨m', List.mem_cons_of_mem _ a, b⟩
    intro x hx n hn
    obtain ⟨m, hm, e⟩ := this ms _ hms h1 x.2 (List.mem_map_of_mem hx)
    refine ht m hm n ?_
    have e1 : field (x.2.headD 0) 0 4 = field (m.2.headD 0) 0 4 := congrArg Prod.fst e
    have hm0 : m.2 ≠ [] := fun e0 => by
      have := (hms m hm).1
      rw [e0] at this
      revert this
      rw [show UmpMessage.tryFrom [] = .err .invalidData by decide +kernel]
      exact fun h => nomatch h
    cases hx2 : x.2 with
    | nil => rw [hx2] at hn; cases hn
    | cons a l =>
      cases hm2 : m.2 with
      | nil => exact absurd hm2 hm0
      | cons b l' =>
        rw [hx2, fieldAt_cons] at hn
        rw [hx2, hm2] at e1
        rw [fieldAt_cons, ← hn]
        exact congrArg some e1.symm
  have hN : NeverTorn pieces := by
    intro pre post e qs r Q k T
    have hp' : pre.flatten <+: (all.map Prod.snd).flatten := by
      refine List.IsPrefix.trans ?_ hp
      rw [e, List.flatten_append]
      exact List.prefix_append _ _
    obtain ⟨s, r', rest, e1, e2, -, e4, e5⟩ :=
      packetsOf_front all (fun x hx => packet_whole (h2 x hx)) _ hp'
    obtain ⟨-, rfl⟩ := Q.unique e2
    cases r' with
    | nil =>
      have := T.type
      rw [e4 rfl] at this
      cases this
    | cons x r' =>
      obtain ⟨c, hc⟩ := e5 x r' rfl
      have hx := hty x (by rw [e1]; simp) k.code (by
        rw [← hc, fieldAt_left c (fieldAt_zero_ne T.type)]; exact T.type)
      rcases T.kind with rfl | rfl | rfl
      · exact hx.1 rfl
      · exact hx.2.1 rfl
      · exact hx.2.2 rfl
  unfold line
  rw [(C76_packets_exactly pieces).1 hN]

-- Two system exclusive messages of the same group, a note and a discovery, cut anywhere; laid out in
-- one slice they cannot be told apart (`C74_one_slice_violation`).
example : (∀ m ∈ [((.sysex .s7, [0x30160102, 0x03040506, 0x30310700, 0]) : UmpKind × List (BitVec 32)),
      (.sysex .s7, [0x30010200, 0]), (.fixed Msg.cv2NoteOn, [0x40903C00, 0x80000000]),
      (.fixed Msg.streamFunctionBlockDiscovery, [0xF010FF03])],
      UmpMessage.tryFrom m.2 = .ok m ∧ UmpMessage.data m = .ok m.2) ∧
    line true (fun _ => [7]) [[0x30160102], [0x03040506, 0x30310700], [], [0, 0x30010200, 0, 0x40903C00],
        [0x80000000, 0xF010FF03, 0], [0, 0]] =
      .ok [(.sysex .s7, [0x30160102, 0x03040506, 0x30310700, 0]), (.sysex .s7, [0x30010200, 0]),
        (.fixed Msg.cv2NoteOn, [0x40903C00, 0x80000000]),
        (.fixed Msg.streamFunctionBlockDiscovery, [0xF010FF03, 0, 0, 0])] ∧
    line true (fun _ => [7]) [[0x30160102], [0x03040506, 0x30310700], [], [0, 0x30010200, 0, 0x40903C00]] =
      .ok [(.sysex .s7, [0x30160102, 0x03040506, 0x30310700, 0]), (.sysex .s7, [0x30010200, 0])] := by
  decide +kernel

/-- C78 needs the reader to wait for messages of MIDI 2.0 channel voice, flex data and stream type:
a note cut in two has arrived at a reader that does not wait with velocity 0. -/
theorem C78_greedy_violation :
    sendAll [(.fixed Msg.cv2NoteOn, [0x40903C00, 0x80000000])] = .ok [[0x40903C00, 0x80000000]] ∧
    line true (fun _ => []) [[0x40903C00], [0x80000000]] =
      .ok [(.fixed Msg.cv2NoteOn, [0x40903C00, 0x80000000])] ∧
    line false (fun _ => []) [[0x40903C00], [0x80000000]] =
      .ok [(.fixed Msg.cv2NoteOn, [0x40903C00, 0])] := by
  decide +kernel

end Midi2
