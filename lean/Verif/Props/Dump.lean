import Verif.Lemmas.Dump
import Verif.Props.Link
import Verif.Props.Cable
import Verif.Lemmas.Recorder

/-!
# C88: large data can be sent with a message in a small array
-/

namespace Midi2

open Rx Dump Sx

theorem ours_inPackets (k : Sx) (g : BitVec 4) (m : UmpKind × List (BitVec 32)) :
    ours k g (inPackets m) = ours k g m := by
  unfold inPackets
  split
  · next h => unfold ours; rw [h]; rfl
  · rfl

theorem filter_inPackets {k : Sx} {p : UmpKind × List (BitVec 32) → Bool}
    (hp : ∀ m, p (inPackets m) = p m) (hk : ∀ m, p m = true → m.1 = .sysex k)
    (all : List (UmpKind × List (BitVec 32))) : (all.map inPackets).filter p = all.filter p := by
  rw [List.filter_map, show p ∘ inPackets = p from funext hp]
  conv => rhs; rw [← List.map_id (all.filter p)]
  refine List.map_congr_left fun m hm => if_neg ?_
  rw [hk m (List.mem_filter.mp hm).2]
  exact fun e => nomatch e

/-- C88: a message in a `[u32; n]` is changed by rounds of fallible calls and sent after every round,
among other messages that are not of its kind.  The calls return what they should, and the messages
the far side puts together from the pieces show after every round what the calls make of a group and
a plain list of bytes. -/
theorem C88_rounds (k : Sx) (dbg : Bool) (n : Nat) (hn : k.layout.words ≤ n)
    (rounds : List (List (SxTryCall k))) (hr : Dump.InRange n rounds (0, [])) :
    ∃ b ms, k.newArray n = .ok b ∧
      transmit k dbg rounds b = .ok (ms, (shown n rounds (0, [])).map Prod.snd) ∧
      ∀ all, (∀ m ∈ all, m.1 ≠ .sysex k →
          UmpMessage.tryFrom m.2 = .ok m ∧ UmpMessage.data m = .ok m.2) →
        all.filter (fun m => m.1 == .sysex k) = ms →
        ∃ ps, sendAll all = .ok ps ∧ ∀ pieces h, pieces.flatten = ps.flatten →
          ∃ rs, line true h pieces = .ok rs ∧
            (rs.filter fun m => m.1 == .sysex k).map (fun m => (Sx.group m.2, k.payloadList m.2)) =
              (shown n rounds (0, [])).map fun x => (.ok x.1.1, .ok x.1.2) := by
  have hn' := hn
  rw [words_eq] at hn'
  obtain ⟨b, e, _, S⟩ := newArray_strict k dbg hn'
  obtain ⟨ms, t1, t2, t3, t4⟩ := transmit_ok hn' rounds (s := (0, [])) S hr
  refine ⟨b, ms, e, t1, fun all ho hf => ?_⟩
  obtain ⟨ps, s1, s2⟩ := C78_line_all all (by
    intro m hm
    by_cases hk : m.1 = .sysex k
    · exact t2 m (hf ▸ List.mem_filter.mpr ⟨hm, by simpa using hk⟩)
    · exact ho m hm hk)
  refine ⟨ps, s1, fun pieces h hp => ⟨_, s2 pieces h hp, ?_⟩⟩
  rw [filter_inPackets (k := k) (fun m => by rw [inPackets_kind]) (fun m h => by simpa using h), hf, t4]

/-- C88: data of any length, cut into blocks of `c` bytes which the array has room for, go through a
message in a `[u32; n]`: there is a message for every block, and whatever other messages are sent in
between, the far side gets all bytes in order. -/
theorem C88_dump (k : Sx) (dbg : Bool) (n c : Nat) (hn : k.layout.words ≤ n) (hc : c ≠ 0)
    (hr : c ≤ k.layout.room n) (g : BitVec 4) (bytes : List k.Byte) :
    ∃ ms, dump k dbg n c g bytes = .ok ms ∧ ms.length = (bytes.length + c - 1) / c ∧
      ∀ all, (∀ m ∈ all, ours k g m = false →
          UmpMessage.tryFrom m.2 = .ok m ∧ UmpMessage.data m = .ok m.2) →
        all.filter (ours k g) = ms →
        ∃ ps, sendAll all = .ok ps ∧ ∀ pieces h, pieces.flatten = ps.flatten →
          ∃ rs, line true h pieces = .ok rs ∧ gather k g rs = .ok bytes := by
  have hn' := hn
  rw [words_eq] at hn'
  obtain ⟨b, e, _, S⟩ := newArray_strict k dbg hn'
  obtain ⟨ms, t1, t2, t3, t4⟩ := dumpBlocks_ok (dbg := dbg) hn (blocksOf c bytes)
    (S.setGroup g (zeroId_setGroup g)) (fun l hl => Nat.le_trans (blocksOf_length _ l hl) hr)
  refine ⟨ms, by rw [dump, e, Res.ok_bind, t1], by rw [t4, length_blocksOf hc], fun all ho hf => ?_⟩
  obtain ⟨ps, s1, s2⟩ := C78_line_all all (by
    intro m hm
    cases hk : ours k g m with
    | true => exact (t2 m (hf ▸ List.mem_filter.mpr ⟨hm, hk⟩)).1
    | false => exact ho m hm hk)
  refine ⟨ps, s1, fun pieces h hp => ⟨_, s2 pieces h hp, ?_⟩⟩
  rw [gather_filter, filter_inPackets (k := k) (ours_inPackets k g)
    (fun m h => by unfold ours at h; simp at h; exact h.1), hf, t3, flatten_blocksOf hc]

/-- C88: exactly the blocks the array has room for can be sent: with larger blocks, and data that has
one, the first call reports `BufferOverflow`. -/
theorem C88_dump_exactly (k : Sx) (dbg : Bool) (n c : Nat) (hn : k.layout.words ≤ n) (hc : c ≠ 0)
    (g : BitVec 4) (bytes : List k.Byte) :
    (c ≤ k.layout.room n ∨ bytes.length ≤ k.layout.room n →
      ∃ ms, dump k dbg n c g bytes = .ok ms ∧ gather k g ms = .ok bytes) ∧
    (k.layout.room n < c → k.layout.room n < bytes.length →
      dump k dbg n c g bytes = .err .bufferOverflow) := by
  have hn' := hn
  rw [words_eq] at hn'
  obtain ⟨b, e, _, S⟩ := newArray_strict k dbg hn'
  have S := S.setGroup g (zeroId_setGroup g)
  refine ⟨fun h => ?_, fun h1 h2 => ?_⟩
  · obtain ⟨ms, t1, t2, t3, t4⟩ := dumpBlocks_ok (dbg := dbg) hn (blocksOf c bytes) S (fun l hl => by
      rcases h with h | h
      · exact Nat.le_trans (blocksOf_length _ l hl) h
      · exact Nat.le_trans (blocksOf_length' _ l hl) h)
    exact ⟨ms, by rw [dump, e, Res.ok_bind, t1], by rw [t3, flatten_blocksOf hc]⟩
  · rw [dump, e, Res.ok_bind, blocksOf, dif_neg (by
      rintro (rfl | h)
      · cases h2
      · exact hc h), dumpBlocks]
    obtain ⟨b', e', -⟩ := try_exec_strict (inv_zeroId k) (fun b g h => zeroId_setGroup g h) hn' S
      (.setPayload ⟨bytes.take c, (bytes.take c).length, some (bytes.take c).length⟩) trivial
    have ha : (SxTryCall.setPayload ⟨bytes.take c, (bytes.take c).length,
        some (bytes.take c).length⟩ : SxTryCall k).apply n (g, []) = ((g, []), some .bufferOverflow) := by
      unfold SxTryCall.apply
      refine if_neg fun h => ?_
      have := (room_iff k hn _).mp h
      have : (bytes.take c).length ≤ k.layout.room n := this
      rw [List.length_take] at this
      omega
    rw [ha] at e'
    have e' : (k.ops dbg .fixed).trySetPayload _ ⟨bytes.take c, (bytes.take c).length,
      some (bytes.take c).length⟩ = .ok (b', some .bufferOverflow) := e'
    rw [e']
    rfl

/-- C88: the same with a `Sysex7` message in a `[u8; n]`, of which two bytes are `F0` and `F7`, on a
MIDI 1.0 cable: whatever else is on the cable, real time messages within the blocks included, the
reader of C82 gets all bytes in order. -/
theorem C88_dump_bytes (n c : Nat) (hc : c ≠ 0) (hn : c + 2 ≤ n) (bytes : List (BitVec 7)) :
    ∃ ms, dumpBytes n c bytes = .ok ms ∧ ms.length = (bytes.length + c - 1) / c ∧
      ∀ w all, Cable.On Cable.Plain none [] [] w all →
        all.filter (fun x => x.head? == some 0xF0) = ms →
        ∃ got st, Cable.read (none, []) w = .ok (got, st) ∧ gatherBytes got = .ok bytes := by
  have e := ((C08_sysex7_bytes [] n).2.2.2.2.2 (by omega)).2
  refine ⟨(blocksOf c bytes).map sysexBytes, ?_, by rw [List.length_map, length_blocksOf hc],
    fun w all hw hf => ?_⟩
  · rw [dumpBytes, e, Res.ok_bind]
    refine dumpBlocksBytes_ok (n := n) _ (sysexBytes_accepted [] _) ?_ fun l hl => ?_
    · rw [List.length_append, sysexBytes_length, List.length_replicate]; simp; omega
    · have := blocksOf_length _ l hl
      omega
  · obtain ⟨got, st, h1, h2, h3⟩ := C82_cable w all hw
    refine ⟨got, st, h1, ?_⟩
    rw [gatherBytes_ok (fun m hm => (h3 m hm).1) (by rw [h2, hf]), flatten_blocksOf hc]

-- C88: two blocks of three bytes in a `[u8; 5]`, on a cable with a clock within the first one and a
-- note between them.
example : dumpBlocksBytes [[1, 2, 3], [4, 5]] [0xF0, 0xF7, 0, 0, 0] =
      .ok [[0xF0, 1, 2, 3, 0xF7], [0xF0, 4, 5, 0xF7]] ∧
    Cable.On Cable.Plain none [] []
      [0xF0, 1, 0xF8, 2, 3, 0xF7, 0x93, 60, 100, 0xF0, 4, 5, 0xF7]
      [[0xF8], [0xF0, 1, 2, 3, 0xF7], [0x93, 60, 100], [0xF0, 4, 5, 0xF7]] := by
  have clock : Cable.Plain [0xF8] := plain_short 0xF8 0xF9 1 (by decide)
  have s1 : Cable.Plain [0xF0, 1, 2, 3, 0xF7] :=
    ⟨.sysex [1, 2, 3] (by decide), by decide, by decide, by decide⟩
  have s2 : Cable.Plain [0xF0, 4, 5, 0xF7] :=
    ⟨.sysex [4, 5] (by decide), by decide, by decide, by decide⟩
  refine ⟨by decide +kernel, ?_⟩
  refine .status 0xF0 [1, 2, 3, 0xF7] (by decide) s1 ?_
  refine .byte 1 [2, 3, 0xF7] (.clock 0xF8 (by decide) clock (.byte 2 _ (.byte 3 _ (.byte 0xF7 [] ?_))))
  refine .status 0x93 [60, 100] (by decide) (plain_short 0x80 0xC0 3 (by decide)) ?_
  refine .byte 60 _ (.byte 100 [] ?_)
  exact .status 0xF0 [4, 5, 0xF7] (by decide) s2 (.byte 4 _ (.byte 5 _ (.byte 0xF7 [] .stop)))

-- C88: three rounds on a `[u32; 4]`, of which the second asks for too much.
example :
    let rounds : List (List (SxTryCall .s7)) :=
      [[.setGroup 3, .setPayload ⟨[1, 2, 3, 4, 5, 6, 7], 0, none⟩],
        [.insertPayload ⟨[9, 9], 2, some 2⟩ 3, .appendPayload ⟨[1, 2, 3, 4], 4, some 4⟩],
        [.appendByte 5, .setPayloadByte 0 6]]
    Dump.InRange 4 rounds (0, []) ∧
    shown 4 rounds (0, []) = [((3, [1, 2, 3, 4, 5, 6, 7]), [none, none]),
      ((3, []), [none, some .bufferOverflow]), ((3, [6]), [none, none])] := by
  refine ⟨?_, by decide +kernel⟩
  simp only [Dump.InRange, SxTryCall.AllInRange, SxTryCall.InRange]
  decide +kernel

-- C88: a `[u32; 4]` has room for twelve bytes of `Sysex7` and 13 of `Sysex8`; 20 bytes in two blocks,
-- and a note on between them.
example : sysex7Layout.room 4 = 12 ∧ sysex8Layout.room 4 = 13 ∧ sysex7Layout.room 5 = 12 ∧
    ∃ m1 m2, dump .s7 true 4 12 5 ((List.range 20).map (BitVec.ofNat 7)) = .ok [m1, m2] ∧
      let note : UmpKind × List (BitVec 32) := (.fixed Msg.cv2NoteOn, [0x40903C00, 0x80000000])
      UmpMessage.tryFrom note.2 = .ok note ∧ UmpMessage.data note = .ok note.2 ∧
      [m1, note, m2].filter (ours .s7 5) = [m1, m2] ∧
      m2.2 = [0x35160C0D, 0x0E0F1011, 0x35321213, 0] := by
  have e : blocksOf 12 ((List.range 20).map (BitVec.ofNat 7)) =
      [((List.range 20).map (BitVec.ofNat 7)).take 12, ((List.range 20).map (BitVec.ofNat 7)).drop 12] := by
    rw [blocksOf, dif_neg (by decide), blocksOf, dif_neg (by decide), blocksOf, dif_pos (by decide)]
    rfl
  refine ⟨by decide, by decide, by decide, (.sysex .s7, [0x35160001, 0x02030405, 0x35360607, 0x08090A0B]),
    (.sysex .s7, [0x35160C0D, 0x0E0F1011, 0x35321213, 0]), ?_, by decide +kernel⟩
  unfold dump
  rw [show blocksOf 12 ((List.range 20).map (BitVec.ofNat 7)) = _ from e]
  decide +kernel

end Midi2
