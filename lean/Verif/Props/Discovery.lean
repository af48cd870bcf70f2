import Verif.Lemmas.Discovery
import Verif.Props.Link

/-!
# C86: endpoint discovery works
-/

namespace Midi2

open Rx Discovery

/-- C86: one side sends an `EndpointDiscovery`, among other messages; the other answers with the
notifications it was asked for, among other messages; the words come in in any pieces.  The first side
has then been told what it asked for, as the other side set it, and nothing else. -/
theorem C86_dialogue (r : Request) (dev : Device) (hn : NulFree dev.name) (hi : NulFree dev.id)
    (before after before' after' : List (UmpKind × List (BitVec 32)))
    (hb : ∀ m ∈ before ++ after, UmpMessage.tryFrom m.2 = .ok m ∧ UmpMessage.data m = .ok m.2 ∧
      m.1 ≠ .fixed Msg.streamEndpointDiscovery)
    (hb' : ∀ m ∈ before' ++ after', UmpMessage.tryFrom m.2 = .ok m ∧ UmpMessage.data m = .ok m.2 ∧
      m.1 ∉ notifications) :
    ∃ q ps, ask r = .ok q ∧ sendAll (before ++ q :: after) = .ok ps ∧
      ∀ pieces h, pieces.flatten = ps.flatten → ∃ qs as ps', line true h pieces = .ok qs ∧
        answers dev qs = .ok as ∧ sendAll (before' ++ as ++ after') = .ok ps' ∧
        ∀ pieces' h', pieces'.flatten = ps'.flatten → ∃ rs, line true h' pieces' = .ok rs ∧
          learnAll ⟨none, none, none, none, none⟩ rs = .ok (dev.told r) := by
  obtain ⟨x, q1, q2, -⟩ := ask_ok r
  obtain ⟨as, a1, a2, a3⟩ := answer_ok dev r hn hi q1
  obtain ⟨ps, s1, s2⟩ := C78_line_all (before ++ (.fixed Msg.streamEndpointDiscovery, x) :: after) (by
    intro m hm
    rcases List.mem_append.mp hm with hm | hm
    · exact ⟨(hb m (List.mem_append_left _ hm)).1, (hb m (List.mem_append_left _ hm)).2.1⟩
    · rcases List.mem_cons.mp hm with rfl | hm
      · exact q2
      · exact ⟨(hb m (List.mem_append_right _ hm)).1, (hb m (List.mem_append_right _ hm)).2.1⟩)
  refine ⟨_, ps, q1, s1, fun pieces h hp => ?_⟩
  obtain ⟨ps', t1, t2⟩ := C78_line_all (before' ++ as ++ after') (by
    intro m hm
    rcases List.mem_append.mp hm with hm | hm
    · rcases List.mem_append.mp hm with hm | hm
      · exact ⟨(hb' m (List.mem_append_left _ hm)).1, (hb' m (List.mem_append_left _ hm)).2.1⟩
      · exact (a2 m hm).1
    · exact ⟨(hb' m (List.mem_append_right _ hm)).1, (hb' m (List.mem_append_right _ hm)).2.1⟩)
  have other : ∀ {l : List (UmpKind × List (BitVec 32))} {P : UmpKind → Prop}, (∀ m ∈ l, P m.1) →
      ∀ m ∈ l.map inPackets, P m.1 := by
    intro l P hl m hm
    obtain ⟨m', hm', rfl⟩ := List.mem_map.mp hm
    rw [inPackets_kind]; exact hl m' hm'
  refine ⟨_, as, ps', s2 pieces h hp, ?_, t1, fun pieces' h' hp' => ⟨_, t2 pieces' h' hp', ?_⟩⟩
  · rw [List.map_append, List.map_cons]
    have o1 := answers_other (dev := dev) (other (P := (· ≠ .fixed Msg.streamEndpointDiscovery)) fun m hm => (hb m (List.mem_append_left _ hm)).2.2)
    have o2 := answers_other (dev := dev) (other (P := (· ≠ .fixed Msg.streamEndpointDiscovery)) fun m hm => (hb m (List.mem_append_right _ hm)).2.2)
    have e : inPackets (.fixed Msg.streamEndpointDiscovery, x) =
      (.fixed Msg.streamEndpointDiscovery, x) := if_neg (by dsimp only; decide)
    have := answers_append o1 (show answers dev (inPackets (.fixed Msg.streamEndpointDiscovery, x) ::
      after.map inPackets) = .ok as by rw [e, answers, a1, Res.ok_bind, o2]; simp)
    rwa [List.nil_append] at this
  · rw [List.map_append, List.map_append, List.append_assoc,
      learn_other (other (P := (· ∉ notifications)) fun m hm => (hb' m (List.mem_append_left _ hm)).2.2)]
    have e : as.map inPackets = as := by
      conv => rhs; rw [← List.map_id as]
      exact List.map_congr_left fun m hm => (a2 m hm).2
    have l := learn_other (k := dev.told r) (b := [])
      (other (P := (· ∉ notifications)) fun m hm => (hb' m (List.mem_append_right _ hm)).2.2)
    rw [List.append_nil] at l
    rw [e, a3, l]
    rfl

-- C86: a device with a name of two packets is asked for its name and its identity, between notes.
example :
    let r : Request := ⟨1, 1, false, true, true, false, false⟩
    let dev : Device := ⟨⟨1, 1, true, true, true, false, false, 3⟩,
      ⟨(0, 0x21, 0x09), 0x123, 0x3FFF, (1, 2, 3, 4)⟩, "Synthesiser Ünicorn", "XK-1", ⟨2, true, false⟩⟩
    let note : UmpKind × List (BitVec 32) := (.fixed Msg.cv2NoteOn, [0x40903C00, 0x80000000])
    NulFree dev.name ∧ NulFree dev.id ∧
    (∀ m ∈ [note] ++ [note], UmpMessage.tryFrom m.2 = .ok m ∧ UmpMessage.data m = .ok m.2 ∧
      m.1 ≠ .fixed Msg.streamEndpointDiscovery ∧ m.1 ∉ notifications) ∧
    dev.told r = ⟨none, some ⟨(0, 0x21, 0x09), 0x123, 0x3FFF, (1, 2, 3, 4)⟩,
      some "Synthesiser Ünicorn", none, none⟩ ∧
    (ask r >>= fun q => .ok q.2) = .ok [0xF0000101, 0x06, 0, 0] := by
  refine ⟨by simp [NulFree], by simp [NulFree], by decide +kernel, by decide +kernel, by decide +kernel⟩

end Midi2
