import Verif.Lemmas.Reassembly

/-!
# C75: messages can be put together from packets that arrive mixed
-/

namespace Midi2

open Rx

/-- C75: the receiver takes anything off the line, in any state, without a panic. -/
theorem C75_never_panics (keep : Bool) (h : Lane → List (BitVec 32)) (s : List (List (BitVec 32))) :
    ∃ out, receive keep h s = .ok out := receive_ok keep s h

example : receive true (fun _ => [])
      [[0x30160102, 0x03040506], [], [0xE0000000], [0x30310700, 0]] =
    .ok [((3, 0, 0), .sysex .s7, [0x30160102, 0x03040506, 0x30310700, 0])] := by decide +kernel

/-- C75: what is received with a type, group and stream id depends on nothing but the packets with
that type, group and stream id: other traffic, and its loss or damage, changes nothing. -/
theorem C75_lanes_independent (keep : Bool) (l : Lane) (h h' : Lane → List (BitVec 32))
    (s s' : List (List (BitVec 32))) (out out' : List Got) (hh : h l = h' l)
    (hs : s.filter (fun x => decide (laneAt x = l)) = s'.filter (fun x => decide (laneAt x = l)))
    (ho : receive keep h s = .ok out) (ho' : receive keep h' s' = .ok out') :
    onLane l out = onLane l out' := by
  have e1 := receive_lane keep l s h out ho
  have e2 := receive_lane keep l s' h' out' ho'
  rw [hh, hs, e2] at e1
  exact (Res.ok.inj e1).symm

-- A packet of group 1 between the packets of group 0.
example : ∃ out, receive true (fun _ => [])
      [[0x30160102, 0x03040506], [0x31310800, 0], [0x30310700, 0]] = .ok out ∧
    onLane (3, 0, 0) out = [((3, 0, 0), .sysex .s7, [0x30160102, 0x03040506, 0x30310700, 0])] :=
  have ⟨out, h⟩ := C75_never_panics true (fun _ => [])
    [[0x30160102, 0x03040506], [0x31310800, 0], [0x30310700, 0]]
  ⟨out, h, C75_lanes_independent true (3, 0, 0) (fun _ => []) (fun _ => []) _
    [[0x30160102, 0x03040506], [0x30310700, 0]] out
    [((3, 0, 0), .sysex .s7, [0x30160102, 0x03040506, 0x30310700, 0])] rfl (by decide) h
    (by decide +kernel)⟩

/-- C75, for both receivers and up to any point.  `S l` are the messages somebody sends with the
type, group and stream id `l`, one after the other; there may be such a sender for every `l` of
interest (`A`).  Going through `packets()` of all of them does not panic.  Let the transport mix the
packets of the senders in any way, with any other words in between, and stop at any point; and let
the receiver have any rubbish from before in its buffers.  Then the receiver does not panic, and for
every `l` of interest it has received exactly the messages whose last packet has come in, each as it
was sent, in the order in which they were sent; a receiver that drops what ends with
`UnexpectedEnd(Valid)` misses exactly the `Sysex8` messages of several packets with an empty last
one. -/
theorem C75_interleaved_exactly (keep : Bool) (A : Lane → Prop)
    (S : Lane → List (UmpKind × List (BitVec 32))) (hS : ∀ l, A l → ∀ m ∈ S l, Sent l m) :
    ∃ f : Lane → List (List (BitVec 32)), (∀ l, A l → sendAll (S l) = .ok (f l)) ∧
      ∀ s f' h, Mixed A f s f' → ∃ out, receive keep h s = .ok out ∧
        ∀ l, A l → ∃ t u, S l = t ++ u ∧ Received keep l t (onLane l out) ∧ Left u (f' l) := by
  have hex : ∀ l, ∃ x, A l → sendAll (S l) = .ok x := fun l => by
    by_cases hA : A l
    · obtain ⟨x, hx⟩ := sendAll_ok (hS l hA)
      exact ⟨x, fun _ => hx⟩
    · exact ⟨[], fun h => absurd h hA⟩
  refine ⟨fun l => Classical.choose (hex l), fun l => Classical.choose_spec (hex l), ?_⟩
  intro s f' h M
  obtain ⟨out, ho⟩ := receive_ok keep s h
  refine ⟨out, ho, fun l hA => ?_⟩
  have hall := Classical.choose_spec (hex l) hA
  have hsplit := mixed_filter M
    (fun l hA => sendAll_lane (hS l hA) (Classical.choose_spec (hex l) hA)) l hA
  obtain ⟨t, u, o, h1, h2, h3, h4⟩ := receive1_all (keep := keep) (hS l hA) hall hsplit (h l)
  cases Res.ok.inj (h2.symm.trans (receive_lane keep l s h out ho))
  exact ⟨t, u, h1, h3, h4⟩

/-- What the senders of the example send: a `Sysex7` of two packets with group 0, two messages with
group 1, a `Sysex8` with an empty last packet with stream id 9. -/
def sampleSenders : Lane → List (UmpKind × List (BitVec 32)) := fun l =>
  if l = (3, 0, 0) then [(.sysex .s7, [0x30160102, 0x03040506, 0x30310700, 0])]
  else if l = (3, 1, 0) then [(.sysex .s7, [0x31010800, 0]), (.sysex .s7, [0x31010900, 0])]
  else if l = (5, 0, 9) then [(.sysex .s8, [0x50120901, 0, 0, 0, 0x50310900, 0, 0, 0])]
  else []

/-- They meet the hypotheses. -/
theorem sampleSenders_sent :
    ∀ l, (l = (3, 0, 0) ∨ l = (3, 1, 0) ∨ l = (5, 0, 9)) → ∀ m ∈ sampleSenders l, Sent l m := by
  intro l hl m hm
  rcases hl with rfl | rfl | rfl
  · have hm : m ∈ [(UmpKind.sysex .s7, [(0x30160102 : BitVec 32), 0x03040506, 0x30310700, 0])] := hm
    cases List.mem_singleton.mp hm
    exact ⟨by decide +kernel, by decide +kernel, by decide +kernel⟩
  · have hm : m ∈ [(UmpKind.sysex .s7, [(0x31010800 : BitVec 32), 0]), (.sysex .s7, [0x31010900, 0])] :=
      hm
    rcases List.mem_cons.mp hm with rfl | hm
    · exact ⟨by decide +kernel, by decide +kernel, by decide +kernel⟩
    · cases List.mem_singleton.mp hm
      exact ⟨by decide +kernel, by decide +kernel, by decide +kernel⟩
  · have hm : m ∈ [(UmpKind.sysex .s8, [(0x50120901 : BitVec 32), 0, 0, 0, 0x50310900, 0, 0, 0])] := hm
    cases List.mem_singleton.mp hm
    exact ⟨by decide +kernel, by decide +kernel, by decide +kernel⟩

example : ∃ f : Lane → List (List (BitVec 32)),
    sendAll (sampleSenders (3, 0, 0)) = .ok (f (3, 0, 0)) ∧
    ∀ s f' h, Mixed (fun l => l = (3, 0, 0) ∨ l = (3, 1, 0) ∨ l = (5, 0, 9)) f s f' →
      ∃ out, receive false h s = .ok out :=
  have ⟨f, h1, h2⟩ := C75_interleaved_exactly false _ sampleSenders sampleSenders_sent
  ⟨f, h1 _ (.inl rfl), fun s f' h M => have ⟨out, ho, _⟩ := h2 s f' h M; ⟨out, ho⟩⟩

theorem Rx.received_all {keep : Bool} {l : Lane} {t : List (UmpKind × List (BitVec 32))}
    {out : List Got} (R : Received keep l t out) (hE : ∀ m ∈ t, ¬ (keep = false ∧ EmptyEnd m)) :
    out.map (fun g => (g.2.1, UmpMessage.data g.2)) = t.map fun m => (m.1, .ok m.2) := by
  induction R with
  | nil => rfl
  | got _ hd _ ih =>
    rw [List.map_cons, List.map_cons, ih fun m hm => hE m (List.mem_cons_of_mem _ hm)]
    exact congrArg (· :: _) (congrArg (Prod.mk _) hd)
  | lost hk he _ _ => exact absurd ⟨hk, he⟩ (hE _ List.mem_cons_self)

/-- C75: a receiver that keeps what ends with `UnexpectedEnd(Valid)` has, once all packets have come
in, in whatever order the transport mixed them, every message of every sender, of the same variant
and with the same `data()`, in the order in which it was sent. -/
theorem C75_interleaved (A : Lane → Prop) (S : Lane → List (UmpKind × List (BitVec 32)))
    (hS : ∀ l, A l → ∀ m ∈ S l, Sent l m) :
    ∃ f : Lane → List (List (BitVec 32)), (∀ l, A l → sendAll (S l) = .ok (f l)) ∧
      ∀ s h f', Mixed A f s f' → (∀ l, A l → f' l = []) → ∃ out, receive true h s = .ok out ∧
        ∀ l, A l → (onLane l out).map (fun g => (g.2.1, UmpMessage.data g.2)) =
          (S l).map fun m => (m.1, .ok m.2) := by
  obtain ⟨f, h1, h2⟩ := C75_interleaved_exactly true A S hS
  refine ⟨f, h1, fun s h f' M hf => ?_⟩
  obtain ⟨out, ho, hr⟩ := h2 s f' h M
  refine ⟨out, ho, fun l hA => ?_⟩
  obtain ⟨t, u, e1, e2, e3⟩ := hr l hA
  cases u with
  | nil =>
    rw [List.append_nil] at e1
    rw [e1]
    exact Rx.received_all e2 fun m hm h => nomatch h.1
  | cons m u =>
    obtain ⟨d, r₁, r₂, a1, -, -, a4⟩ := e3
    rw [hf l hA] at a4
    exact absurd (List.append_eq_nil_iff.mp a4.symm).1 a1

/-- All packets of the three senders, mixed, with a clock and an empty slice in between. -/
def sampleTransport : List (List (BitVec 32)) :=
  [[0x31010800, 0], [0x50120901, 0, 0, 0], [0x30160102, 0x03040506], [0x10F80000], [0x31010900, 0], [],
    [0x50310900, 0, 0, 0], [0x30310700, 0]]

-- The transport does carry what the senders send.
example (f : Lane → List (List (BitVec 32)))
    (hf : ∀ l, (l = (3, 0, 0) ∨ l = (3, 1, 0) ∨ l = (5, 0, 9)) →
      sendAll (sampleSenders l) = .ok (f l)) :
    ∃ f', Mixed (fun l => l = (3, 0, 0) ∨ l = (3, 1, 0) ∨ l = (5, 0, 9)) f sampleTransport f' ∧
      ∀ l, (l = (3, 0, 0) ∨ l = (3, 1, 0) ∨ l = (5, 0, 9)) → f' l = [] := by
  have h1 : f (3, 0, 0) = [[0x30160102, 0x03040506], [0x30310700, 0]] :=
    Res.ok.inj ((hf _ (.inl rfl)).symm.trans (by decide +kernel))
  have h2 : f (3, 1, 0) = [[0x31010800, 0], [0x31010900, 0]] :=
    Res.ok.inj ((hf _ (.inr (.inl rfl))).symm.trans (by decide +kernel))
  have h3 : f (5, 0, 9) = [[0x50120901, 0, 0, 0], [0x50310900, 0, 0, 0]] :=
    Res.ok.inj ((hf _ (.inr (.inr rfl))).symm.trans (by decide +kernel))
  refine ⟨_, .next (3, 1, 0) _ _ (.inr (.inl rfl)) h2 <| .next (5, 0, 9) _ _ (.inr (.inr rfl)) h3 <|
    .next (3, 0, 0) _ _ (.inl rfl) h1 <| .other _ (by decide) <|
    .next (3, 1, 0) _ _ (.inr (.inl rfl)) rfl <| .other _ (by decide) <|
    .next (5, 0, 9) _ _ (.inr (.inr rfl)) rfl <| .next (3, 0, 0) _ _ (.inl rfl) rfl .stop, ?_⟩
  rintro l (rfl | rfl | rfl) <;> rfl

-- What a receiver with rubbish in its buffers makes of it.
example : receive true (fun _ => [7]) sampleTransport =
    .ok [((3, 1, 0), .sysex .s7, [0x31010800, 0]), ((1, 0, 0), .fixed Msg.sysTimingClock, [0x10F80000]),
      ((3, 1, 0), .sysex .s7, [0x31010900, 0]),
      ((5, 0, 9), .sysex .s8, [0x50120901, 0, 0, 0, 0x50310900, 0, 0, 0]),
      ((3, 0, 0), .sysex .s7, [0x30160102, 0x03040506, 0x30310700, 0])] := by decide +kernel

/-- C75: a `Sysex8` the parser accepts, whose last packet has no payload, is lost to a receiver that
drops what ends with `UnexpectedEnd(Valid)`: this is the `status()` of the last packet. -/
theorem C75_empty_end_lost :
    ∃ m : UmpKind × List (BitVec 32), Sent (5, 0, 0) m ∧
      ∃ ps, send m = .ok ps ∧ receive false (fun _ => []) ps = .ok [] :=
  ⟨(.sysex .s8, [0x50120001, 0, 0, 0, 0x50310000, 0, 0, 0]),
    ⟨by decide +kernel, by decide +kernel, by decide +kernel⟩,
    [[0x50120001, 0, 0, 0], [0x50310000, 0, 0, 0]], by decide +kernel, by decide +kernel⟩

end Midi2
