import Verif.Lemmas.Router
import Verif.Props.Reassembly

/-!
# C83: moving packets to other groups moves the messages
-/

namespace Midi2

open Rx

/-- C83: for every whole message with a group, `set_group` of the message and `set_group` of each of
its packets send the same words.  The message stays whole and of its variant, and goes over the lane
of the new group. -/
theorem C83_message (l : Lane) (m : UmpKind × List (BitVec 32)) (h : Sent l m) (hG : Grouped l)
    (g : BitVec 4) :
    ∃ b' ps ps', withGroup g m = .ok (m.1, b') ∧ Sent (l.1, g.toNat, l.2.2) (m.1, b') ∧
      send m = .ok ps ∧ send (m.1, b') = .ok ps' ∧ routeAll (fun _ => g) ps = .ok ps' := by
  obtain ⟨m', h1, h2, h3, ps, h4, h5, h6⟩ := move_sent (fun _ => g) h
  unfold move at h1
  rw [if_pos hG] at h1
  unfold moveLane at h3
  rw [if_pos hG] at h3
  obtain ⟨k', b'⟩ := m'
  cases h2
  exact ⟨b', ps, _, h1, h3, h4, h5, routeAll_packets _ fun x hx => (h6 x hx).2⟩

-- C83: a `Sysex7` of two packets goes from group 0 to group 11.
example : Sent (3, 0, 0) (.sysex .s7, [0x30160102, 0x03040506, 0x30310700, 0]) ∧ Grouped (3, 0, 0) ∧
    withGroup 11 (.sysex .s7, [0x30160102, 0x03040506, 0x30310700, 0]) =
      .ok (.sysex .s7, [0x3B160102, 0x03040506, 0x3B310700, 0]) ∧
    routeAll (fun _ => 11) [[0x30160102, 0x03040506], [0x30310700, 0]] =
      .ok [[0x3B160102, 0x03040506], [0x3B310700, 0]] :=
  ⟨⟨by decide +kernel, by decide +kernel, by decide +kernel⟩, by decide, by decide +kernel,
    by decide +kernel⟩

/-- C83: the router takes anything off the line without a panic. -/
theorem C83_never_panics (f : BitVec 4 → BitVec 4) (s : List (List (BitVec 32))) :
    ∃ s', routeAll f s = .ok s' := routeAll_ok f s

example : routeAll (· + 1) [[0x2F904040], [], [0xE0000000], [0xF0000101],
      [0x30160102, 0x03040506, 7]] =
    .ok [[0x20904040], [0xF0000101, 0, 0, 0], [0x31160102, 0x03040506]] := by decide +kernel

/-- C83: behind a transport that mixes the packets of any senders with each other and with anything
else, and a router with a map of groups that maps no two groups to one, the receiver gets of every
sender exactly what it gets of the same messages after `set_group`: each of them in turn (`Received`,
as in C75), up to the first that has not come in whole (`Left`). -/
theorem C83_router_exactly (keep : Bool) (f : BitVec 4 → BitVec 4) (hf : ∀ a b, f a = f b → a = b)
    (A : Lane → Prop) (S : Lane → List (UmpKind × List (BitVec 32)))
    (hS : ∀ l, A l → ∀ m ∈ S l, Sent l m) (F F' : Lane → List (List (BitVec 32)))
    (hF : ∀ l, A l → sendAll (S l) = .ok (F l)) (s : List (List (BitVec 32))) (M : Mixed A F s F')
    (h : Lane → List (BitVec 32)) :
    ∃ s' out, routeAll f s = .ok s' ∧ receive keep h s' = .ok out ∧
      ∀ l, A l → ∃ t u t' u' r', S l = t ++ u ∧ moveAll f l t = .ok t' ∧ moveAll f l u = .ok u' ∧
        Received keep (moveLane f l) t' (onLane (moveLane f l) out) ∧
        routeAll f (F' l) = .ok r' ∧ Left u' r' := by
  obtain ⟨s', hs'⟩ := routeAll_ok f s
  obtain ⟨out, ho⟩ := receive_ok keep s' h
  refine ⟨s', out, hs', ho, fun l hA => ?_⟩
  have hsplit := mixed_filter M (fun l hA => sendAll_lane (hS l hA) (hF l hA)) l hA
  obtain ⟨S', a1, a2, a3, a4⟩ := moveAll_sent f (hS l hA) (hF l hA)
  have hfil := routeAll_filter hf l hs'
  rw [routeAll_packets f (fun x hx => a4 x (by rw [hsplit]; exact List.mem_append_left _ hx))] at hfil
  rw [hsplit, List.map_append, Res.ok.inj hfil] at a3
  obtain ⟨t', u', o, h1, h2, h3, h4⟩ :=
    receive1_all (keep := keep) a2 a3 rfl (h (moveLane f l))
  cases Res.ok.inj (h2.symm.trans (receive_lane keep (moveLane f l) s' h out ho))
  obtain ⟨t, u, c1, c2, c3⟩ := moveAll_split (hS l hA) a1 h1
  exact ⟨t, u, t', u', _, c1, c2, c3, h3,
    routeAll_packets f (fun x hx => a4 x (by rw [hsplit]; exact List.mem_append_right _ hx)), h4⟩

/-- C83: once all packets have come through, a receiver that keeps what ends with
`UnexpectedEnd(Valid)` has every message of every sender, of the same variant, and with the `data()`
that `set_group` of the message gives. -/
theorem C83_router (f : BitVec 4 → BitVec 4) (hf : ∀ a b, f a = f b → a = b)
    (A : Lane → Prop) (S : Lane → List (UmpKind × List (BitVec 32)))
    (hS : ∀ l, A l → ∀ m ∈ S l, Sent l m) (F F' : Lane → List (List (BitVec 32)))
    (hF : ∀ l, A l → sendAll (S l) = .ok (F l)) (s : List (List (BitVec 32))) (M : Mixed A F s F')
    (hend : ∀ l, A l → F' l = []) (h : Lane → List (BitVec 32)) :
    ∃ s' out, routeAll f s = .ok s' ∧ receive true h s' = .ok out ∧
      ∀ l, A l → ∃ S', moveAll f l (S l) = .ok S' ∧
        (onLane (moveLane f l) out).map (fun g => (g.2.1, UmpMessage.data g.2)) =
          S'.map fun m => (m.1, .ok m.2) := by
  obtain ⟨s', out, h1, h2, h3⟩ := C83_router_exactly true f hf A S hS F F' hF s M h
  refine ⟨s', out, h1, h2, fun l hA => ?_⟩
  obtain ⟨t, u, t', u', r', e1, e2, e3, e4, e5, e6⟩ := h3 l hA
  rw [hend l hA] at e5
  cases e5
  cases u' with
  | cons m u' =>
    obtain ⟨d, r₁, r₂, g1, -, -, g4⟩ := e6
    exact absurd (List.append_eq_nil_iff.mp g4.symm).1 g1
  | nil =>
    have hu : u = [] := by
      cases u with
      | nil => rfl
      | cons m u =>
        exfalso
        obtain ⟨m', k1, -⟩ := move_sent f (hS l hA m (by rw [e1]; simp))
        have hu : ∀ x ∈ u, Sent l x := fun x hx => hS l hA x (by rw [e1]; simp [hx])
        obtain ⟨qs, hq⟩ := sendAll_ok hu
        obtain ⟨S', b1, -⟩ := moveAll_sent f hu hq
        exact absurd ((moveAll_cons k1 b1).symm.trans e3) (by simp)
    subst hu
    rw [List.append_nil] at e1
    exact ⟨t', by rw [e1]; exact e2, received_all e4 fun m _ c => absurd c.1 (by decide)⟩

/-- The packets of the senders of C75. -/
def samplePackets : Lane → List (List (BitVec 32)) := fun l =>
  if l = (3, 0, 0) then [[0x30160102, 0x03040506], [0x30310700, 0]]
  else if l = (3, 1, 0) then [[0x31010800, 0], [0x31010900, 0]]
  else if l = (5, 0, 9) then [[0x50120901, 0, 0, 0], [0x50310900, 0, 0, 0]]
  else []

-- C83: two groups change places; packets are mixed with each other and with a note on.
example : ∃ s' out, routeAll (· ^^^ 1) [[0x30160102, 0x03040506], [0x31010800, 0], [0x20904040],
      [0x30310700, 0]] = .ok s' ∧ receive true (fun _ => []) s' = .ok out ∧
    onLane (3, 1, 0) out = [((3, 1, 0), .sysex .s7, [0x31160102, 0x03040506, 0x31310700, 0])] ∧
    onLane (3, 0, 0) out = [((3, 0, 0), .sysex .s7, [0x30010800, 0])] :=
  ⟨[[0x31160102, 0x03040506], [0x30010800, 0], [0x21904040], [0x31310700, 0]],
    [((3, 0, 0), .sysex .s7, [0x30010800, 0]), ((2, 1, 0), .fixed Msg.cv1NoteOn, [0x21904040]),
      ((3, 1, 0), .sysex .s7, [0x31160102, 0x03040506, 0x31310700, 0])],
    by decide +kernel, by decide +kernel, by decide +kernel, by decide +kernel⟩

-- C83: the hypotheses hold of these senders.
example : ∃ s' out, routeAll (· ^^^ 1) [[0x30160102, 0x03040506], [0x31010800, 0], [0x20904040],
      [0x30310700, 0]] = .ok s' ∧ receive false (fun _ => []) s' = .ok out := by
  obtain ⟨s', out, h1, h2, -⟩ := C83_router_exactly false (· ^^^ 1) (by decide)
    (fun l => l = (3, 0, 0) ∨ l = (3, 1, 0) ∨ l = (5, 0, 9)) sampleSenders sampleSenders_sent
    samplePackets _ (by rintro l (rfl | rfl | rfl) <;> decide +kernel) _
    (.next (3, 0, 0) [0x30160102, 0x03040506] [[0x30310700, 0]] (.inl rfl) rfl
      (.next (3, 1, 0) [0x31010800, 0] [[0x31010900, 0]] (.inr (.inl rfl)) rfl
        (.other [0x20904040] (by decide +kernel)
          (.next (3, 0, 0) [0x30310700, 0] [] (.inl rfl) rfl .stop))))
    (fun _ => [])
  exact ⟨s', out, h1, h2⟩

/-- C83: the map must not merge groups.  Two senders send a message of two packets each, the
transport delivers all packets, and behind a router that maps their groups to one the receiver gets
one message that nobody sent. -/
theorem C83_merge_violation :
    ∃ m₀ m₁ m : UmpKind × List (BitVec 32), Sent (3, 0, 0) m₀ ∧ Sent (3, 1, 0) m₁ ∧
      ∃ a b c d s', send m₀ = .ok [a, b] ∧ send m₁ = .ok [c, d] ∧
        routeAll (fun _ => 0) [a, c, b, d] = .ok s' ∧
        receive true (fun _ => []) s' = .ok [((3, 0, 0), m)] ∧
        withGroup 0 m₀ ≠ .ok m ∧ withGroup 0 m₁ ≠ .ok m :=
  ⟨(.sysex .s7, [0x30160102, 0x03040506, 0x30310700, 0]),
    (.sysex .s7, [0x31161112, 0x13141516, 0x31311700, 0]),
    (.sysex .s7, [0x30161112, 0x13141516, 0x30310700, 0]),
    ⟨by decide +kernel, by decide +kernel, by decide +kernel⟩,
    ⟨by decide +kernel, by decide +kernel, by decide +kernel⟩,
    [0x30160102, 0x03040506], [0x30310700, 0], [0x31161112, 0x13141516], [0x31311700, 0],
    [[0x30160102, 0x03040506], [0x30161112, 0x13141516], [0x30310700, 0], [0x30311700, 0]],
    by decide +kernel, by decide +kernel, by decide +kernel, by decide +kernel,
    by decide +kernel, by decide +kernel⟩

end Midi2
