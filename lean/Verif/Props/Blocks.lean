import Verif.Lemmas.Blocks
import Verif.Props.Link

/-!
# C87: function block discovery works
-/

namespace Midi2

open Rx Discovery

/-- C87: one side sends a `FunctionBlockDiscovery`, among other messages; the other answers with the
infos and names it was asked for, among other messages; the words come in in any pieces.  The first
side has then been told the infos and the names of the blocks it asked for, as the other side set them,
each name with the number of its block, in the order of the blocks, and nothing else. -/
theorem C87_blocks (r : BlockRequest) (blocks : List Block) (hn : ∀ b ∈ blocks, NulFree b.name)
    (before after before' after' : List (UmpKind × List (BitVec 32)))
    (hb : ∀ m ∈ before ++ after, UmpMessage.tryFrom m.2 = .ok m ∧ UmpMessage.data m = .ok m.2 ∧
      m.1 ≠ .fixed Msg.streamFunctionBlockDiscovery)
    (hb' : ∀ m ∈ before' ++ after', UmpMessage.tryFrom m.2 = .ok m ∧ UmpMessage.data m = .ok m.2 ∧
      m.1 ≠ .fixed Msg.streamFunctionBlockInfo ∧ m.1 ≠ .streamText .functionBlockName) :
    ∃ q ps, askBlocks r = .ok q ∧ sendAll (before ++ q :: after) = .ok ps ∧
      ∀ pieces h, pieces.flatten = ps.flatten → ∃ qs as ps', line true h pieces = .ok qs ∧
        answersB blocks qs = .ok as ∧ sendAll (before' ++ as ++ after') = .ok ps' ∧
        ∀ pieces' h', pieces'.flatten = ps'.flatten → ∃ rs, line true h' pieces' = .ok rs ∧
          learnAllB ⟨[], []⟩ rs = .ok (blocksTold blocks r) := by
  obtain ⟨w, q1, q2, r1, r2, r3⟩ := askBlocks_ok r
  obtain ⟨as, a1, a2, a3⟩ := answerBlocks_ok r hn
  obtain ⟨ps, s1, s2⟩ := C78_line_all
    (before ++ (.fixed Msg.streamFunctionBlockDiscovery, [w]) :: after) (by
    intro m hm
    rcases List.mem_append.mp hm with hm | hm
    · exact ⟨(hb m (List.mem_append_left _ hm)).1, (hb m (List.mem_append_left _ hm)).2.1⟩
    · rcases List.mem_cons.mp hm with rfl | hm
      · exact q2
      · exact ⟨(hb m (List.mem_append_right _ hm)).1, (hb m (List.mem_append_right _ hm)).2.1⟩)
  refine ⟨_, ps, q1, s1, fun pieces h hp => ?_⟩
  obtain ⟨ps', t1, t2⟩ := C78_line_all (before' ++ as ++ after') (by
    intro m hm
    rcases List.mem_append.mp hm with hm | hm
    · rcases List.mem_append.mp hm with hm | hm
      · exact ⟨(hb' m (List.mem_append_left _ hm)).1, (hb' m (List.mem_append_left _ hm)).2.1⟩
      · exact (a2 m hm).1
    · exact ⟨(hb' m (List.mem_append_right _ hm)).1, (hb' m (List.mem_append_right _ hm)).2.1⟩)
  have other : ∀ {l : List (UmpKind × List (BitVec 32))} {P : UmpKind → Prop}, (∀ m ∈ l, P m.1) →
      ∀ m ∈ l.map inPackets, P m.1 := by
    intro l P hl m hm
    obtain ⟨m', hm', rfl⟩ := List.mem_map.mp hm
    rw [inPackets_kind]; exact hl m' hm'
  refine ⟨_, as, ps', s2 pieces h hp, ?_, t1, fun pieces' h' hp' => ⟨_, t2 pieces' h' hp', ?_⟩⟩
  · rw [List.map_append, List.map_cons]
    have o1 := answersB_other (bl := blocks)
      (other (P := (· ≠ .fixed Msg.streamFunctionBlockDiscovery))
        fun m hm => (hb m (List.mem_append_left _ hm)).2.2)
    have o2 := answersB_other (bl := blocks)
      (other (P := (· ≠ .fixed Msg.streamFunctionBlockDiscovery))
        fun m hm => (hb m (List.mem_append_right _ hm)).2.2)
    have e : inPackets (.fixed Msg.streamFunctionBlockDiscovery, [w]) =
      (.fixed Msg.streamFunctionBlockDiscovery, [w, 0, 0, 0]) := rfl
    have := answersB_append o1 (show answersB blocks
      (inPackets (.fixed Msg.streamFunctionBlockDiscovery, [w]) :: after.map inPackets) = .ok as by
        rw [e, answersB, answerB, if_pos rfl, r1, Res.ok_bind, r2, Res.ok_bind, r3, Res.ok_bind, a1,
          Res.ok_bind, o2]
        simp)
    rwa [List.nil_append] at this
  · rw [List.map_append, List.map_append, List.append_assoc,
      learnB_other (other (P := fun k => k ≠ .fixed Msg.streamFunctionBlockInfo ∧
        k ≠ .streamText .functionBlockName) fun m hm => (hb' m (List.mem_append_left _ hm)).2.2)]
    have e : as.map inPackets = as := by
      conv => rhs; rw [← List.map_id as]
      exact List.map_congr_left fun m hm => (a2 m hm).2
    have l := learnB_other (k := blocksTold blocks r) (b := [])
      (other (P := fun k => k ≠ .fixed Msg.streamFunctionBlockInfo ∧
        k ≠ .streamText .functionBlockName) fun m hm => (hb' m (List.mem_append_right _ hm)).2.2)
    rw [List.append_nil] at l
    rw [e, a3, List.nil_append, List.nil_append, l]
    rfl

/-- C87: the request cannot be made in a `Vec`: its `new()` panics. -/
theorem C87_blocks_violation : Msg.streamFunctionBlockDiscovery.newVec .ump = .panic := by
  decide +kernel

-- C87: of a device with two blocks, one with a name of two packets, everything is asked for.
example :
    let bl : List Block := [⟨⟨true, 3, 1, 2, 1, 4, .receiver, none, .bidirectional⟩, "Synthesiser Ünicorn"⟩,
      ⟨⟨false, 9, 0, 1, 0, 0, .sender, none, .output⟩, "B"⟩]
    let note : UmpKind × List (BitVec 32) := (.fixed Msg.cv2NoteOn, [0x40903C00, 0x80000000])
    (∀ b ∈ bl, NulFree b.name) ∧
    (∀ m ∈ [note] ++ [note], UmpMessage.tryFrom m.2 = .ok m ∧ UmpMessage.data m = .ok m.2 ∧
      m.1 ≠ .fixed Msg.streamFunctionBlockDiscovery ∧ m.1 ≠ .fixed Msg.streamFunctionBlockInfo ∧
      m.1 ≠ .streamText .functionBlockName) ∧
    (blocksTold bl ⟨0xFF, false, true⟩).names = [(3, "Synthesiser Ünicorn"), (9, "B")] ∧
    (blocksTold bl ⟨9, true, true⟩).names = [(9, "B")] ∧
    (blocksTold bl ⟨9, true, false⟩).infos.length = 1 ∧
    (askBlocks ⟨9, true, true⟩ >>= fun q => .ok q.2) = .ok [0xF0100903] := by
  refine ⟨by simp [NulFree], by decide +kernel, by decide +kernel, by decide +kernel,
    by decide +kernel, by decide +kernel⟩

end Midi2
