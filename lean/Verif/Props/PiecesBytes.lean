import Verif.Lemmas.PiecesBytes

/-! # C76 over bytes: MIDI 1.0 bytes that arrive in pieces -/

namespace Midi2

/-- C76 over bytes, in full: whatever the bytes are and however they are cut, the reader never
panics, and after every piece it has the messages that are complete by then, and no others. -/
theorem C76_bytes (ps : List (List (BitVec 8))) :
    ∃ outs rest, readBytePieces ps [] = .ok (outs, rest) ∧ outs.length = ps.length ∧
      BytesOf ps.flatten outs.flatten rest ∧
      ∀ pre post, ps = pre ++ post → ∃ r, BytesOf pre.flatten (outs.take pre.length).flatten r :=
  readBytePieces_of ps BytesOf.nil

/-- The messages of a stream are determined by the stream, so any two ways of cutting it give the
same messages and leave the same bytes. -/
theorem C76_bytes_however_cut (ps ps' : List (List (BitVec 8))) (h : ps.flatten = ps'.flatten) :
    ∃ outs outs' rest, readBytePieces ps [] = .ok (outs, rest) ∧
      readBytePieces ps' [] = .ok (outs', rest) ∧ outs.flatten = outs'.flatten := by
  obtain ⟨outs, rest, h1, -, h3, -⟩ := C76_bytes ps
  obtain ⟨outs', rest', g1, -, g3, -⟩ := C76_bytes ps'
  rw [h] at h3
  obtain ⟨e1, e2⟩ := h3.unique g3
  subst e2
  exact ⟨outs, outs', rest, h1, g1, e1⟩

/-- So what somebody sends message by message arrives, however the transport cuts it. -/
theorem C76_bytes_sent (ms : List (BytesKind × List (BitVec 8)))
    (hms : ∀ m ∈ ms, BytesMessage.tryFrom m.2 = .ok m ∧ BytesMessage.data m = .ok m.2)
    (ps : List (List (BitVec 8))) (h : ps.flatten = (ms.map Prod.snd).flatten) :
    ∃ outs, readBytePieces ps [] = .ok (outs, []) ∧ outs.flatten = ms := by
  obtain ⟨outs, rest, h1, -, h3, -⟩ := C76_bytes ps
  have R : BytesOf ps.flatten ms [] := ⟨by rw [h, List.append_nil], hms, BytesOf.nil.stop⟩
  obtain ⟨e1, rfl⟩ := h3.unique R
  exact ⟨outs, h1, e1⟩

-- Two notes, the first cut in two, a clock and a system exclusive message in three pieces.
example : readBytePieces [[0x90, 0x3C], [0x40, 0xF8, 0xF0, 1], [2], [0xF7, 0x80, 0x3C, 0]] [] =
    .ok ([[], [(.fixed Msg.cv1NoteOn, [0x90, 0x3C, 0x40]), (.fixed Msg.sysTimingClock, [0xF8])], [],
      [(.sysex7, [0xF0, 1, 2, 0xF7]), (.fixed Msg.cv1NoteOff, [0x80, 0x3C, 0])]], []) := by
  decide +kernel

example : ∀ m ∈ [(BytesKind.sysex7, [0xF0#8, 1, 2, 0xF7]), (.fixed Msg.cv1NoteOff, [0x80, 0x3C, 0])],
    BytesMessage.tryFrom m.2 = .ok m ∧ BytesMessage.data m = .ok m.2 := by
  decide +kernel

end Midi2
