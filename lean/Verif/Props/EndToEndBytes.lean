import Verif.Props.EndToEndLine
import Verif.Props.LinkGateway

/-!
# C80 over bytes: what is built over bytes is read from a byte stream, and behind a gateway
-/

namespace Midi2

open Rx Gateway

/-- A build over bytes makes a message by itself with the values set, and `into_ump` keeps them. -/
theorem ByteBuilt.made (dbg : Bool) (b : ByteBuilt) (hb : b.Legal) :
    ∃ m, b.make = .ok m ∧ BytesKind.Alone m ∧ b.Reads m ∧ ¬ Blocked m ∧
      ∀ u, toUmp dbg m = .ok u → b.ReadsUmp u := by
  match b, hb with
  | .fixed d calls, ⟨hd, hn, hc⟩ =>
    obtain ⟨b, x, h0, h1, h2, h3, h4, h5⟩ := built_fixed_bytes hd hn calls hc
    have A : BytesKind.Alone (.fixed d, x) := ⟨h3, h0⟩
    have hB : ¬ Blocked (.fixed d, x) := by
      intro e
      have e : d = Msg.sysSongPositionPointer := e
      rw [e] at hn
      exact hn rfl
    refine ⟨(.fixed d, x), ?_, A, ⟨rfl, h4, h5⟩, hB, fun u hu => ?_⟩
    · show ((d.newVec .bytes >>= runSetters .bytes calls) >>= _) = _
      rw [h1, Res.ok_bind, h2]; rfl
    · obtain ⟨u', e, ⟨S, -⟩, -⟩ := (toUmp_exactly dbg A.is).2 hB
      cases Res.ok.inj (hu.symm.trans e)
      obtain ⟨k, u⟩ := u
      match k, S with
      | .fixed d', ⟨e', _, g, S⟩ =>
        subst e'
        refine ⟨rfl, g, fun pre n f v post e hp => ?_, fun n f hf ha hcs => ?_⟩
        · obtain ⟨c1, c2, -⟩ := hc ⟨n, f, v⟩ (by rw [e]; simp)
          rw [S n f c1 c2]; exact h4 pre n f v post e hp
        · rw [S n f hf ha]; exact h5 n f hf ha hcs
  | .sysex cs, hr =>
    obtain ⟨b, x, h0, ha, h1, h2, h3, h4⟩ := built_sysex7_bytes cs hr
    have A : BytesKind.Alone (.sysex7, x) := ⟨h3, h0⟩
    obtain ⟨u', w1, w2, -⟩ := C25_bytes_to_ump dbg x ha _ h4
    have hu' : toUmp dbg (.sysex7, x) = .ok (.sysex .s7, u') := by
      show (Sxb.fromBytes dbg x >>= _) = _
      rw [w1]; rfl
    refine ⟨(.sysex7, x), ?_, A, ⟨rfl, h4⟩, fun e => ?_, fun u hu => ?_⟩
    · show ((Sxb.newVec >>= SxCall.execAllBytes cs) >>= _) = _
      rw [h1, Res.ok_bind, h2]; rfl
    · have := (toUmp_exactly dbg A.is).1 e
      rw [hu'] at this
      cases this
    · cases Res.ok.inj (hu.symm.trans hu')
      exact ⟨rfl, w2.group, w2.payload⟩
  | .query v cs, ⟨hv, hc⟩ =>
    have hv : ∃ n, ciSize v = some n := by rcases hv with rfl | rfl <;> exact ⟨_, rfl⟩
    obtain ⟨n, hv⟩ := hv
    obtain ⟨b, x, u', -, h0, h1, h2, h3, h4, h5, h6, -, h8⟩ := built_query hv dbg cs hc
    have A : BytesKind.Alone (.sysex7, x) := ⟨h3, h0⟩
    have hu' : toUmp dbg (.sysex7, x) = .ok (.sysex .s7, u') := by
      show (Sxb.fromBytes dbg x >>= _) = _
      rw [h6]; rfl
    have hB : ¬ Blocked (.sysex7, x) := fun e => by
      have := (toUmp_exactly dbg A.is).1 e
      rw [hu'] at this
      cases this
    refine ⟨(.sysex7, x), ?_, A, ⟨rfl, h4, h5⟩, hB, fun u hu => ?_⟩
    · show ((Ci.newVec v >>= CiCall.run cs) >>= _) = _
      rw [h1, Res.ok_bind, h2]; rfl
    · cases Res.ok.inj (hu.symm.trans hu')
      obtain ⟨u'', e, ⟨S, -⟩, -⟩ := (toUmp_exactly dbg A.is).2 hB
      cases Res.ok.inj (hu.symm.trans e)
      obtain ⟨l, -, H⟩ := S
      exact ⟨rfl, H.group, x, h8, h4, h5⟩

theorem ByteBuilt.made_all (dbg : Bool) (bs : List ByteBuilt) (hbs : ∀ b ∈ bs, b.Legal) :
    ∃ ms, each ByteBuilt.make bs = .ok ms ∧ Pairs ByteBuilt.Reads bs ms ∧
      (∀ m ∈ ms, BytesKind.Alone m ∧ ¬ Blocked m) ∧
      Pairs (fun b m => ∀ u, toUmp dbg m = .ok u → b.ReadsUmp u) bs ms := by
  obtain ⟨ms, h1, h2⟩ := each_exists (f := ByteBuilt.make) (as := bs)
    (P := fun b m => (∀ u, toUmp dbg m = .ok u → b.ReadsUmp u) ∧ b.Reads m ∧
      (BytesKind.Alone m ∧ ¬ Blocked m))
    fun b hb => by
      obtain ⟨m, a1, a2, a3, a4, a5⟩ := ByteBuilt.made dbg b (hbs b hb)
      exact ⟨m, a1, a5, a3, a2, a4⟩
  obtain ⟨h3, h4⟩ := Pairs.all_right (S := fun b m => ∀ u, toUmp dbg m = .ok u → ByteBuilt.ReadsUmp b u)
    (Q := fun m => BytesKind.Alone m ∧ ¬ Blocked m) h2
  exact ⟨ms, h1, h4, h3, h2.mono fun b m _ h => h.1⟩

/-- C80 over bytes: messages built over bytes by any histories of calls are sent over a line that
cuts them anywhere.  At every point the reader has exactly the messages that have come in, the bytes
of the next one that are there are kept, and every getter returns what was last set. -/
theorem C80_bytes (bs : List ByteBuilt) (hbs : ∀ b ∈ bs, b.Legal) :
    ∃ ms, each ByteBuilt.make bs = .ok ms ∧
      ∀ pieces : List (List (BitVec 8)), pieces.flatten <+: (ms.map Prod.snd).flatten →
        ∃ outs rest, readBytePieces pieces [] = .ok (outs, rest) ∧
          pieces.flatten = ((ms.take outs.flatten.length).map Prod.snd).flatten ++ rest ∧
          (∀ m, ms[outs.flatten.length]? = some m → rest.length < m.2.length) ∧
          Pairs ByteBuilt.Reads (bs.take outs.flatten.length) outs.flatten := by
  obtain ⟨ms, h1, h2, h3, -⟩ := ByteBuilt.made_all true bs hbs
  refine ⟨ms, h1, fun pieces hp => ?_⟩
  obtain ⟨n, rest, hn, B, hrest⟩ := bytesOf_front ms (fun m hm => (h3 m hm).1) _ hp
  obtain ⟨outs, rest', k1, -, k3, -⟩ := C76_bytes pieces
  obtain ⟨e1, rfl⟩ := k3.unique B
  have hl : outs.flatten.length = n := by
    rw [e1, List.length_take, Nat.min_eq_left hn]
  rw [← hl] at hrest
  refine ⟨outs, _, k1, ?_, hrest, ?_⟩
  · rw [hl, ← e1]; exact k3.bytes
  · rw [← List.take_append_drop n ms, ← e1] at h2
    exact h2.front

/-- C80, behind a gateway: the messages built over bytes are taken off the pieces, translated with
`into_ump` and sent on packet by packet, again cut anywhere.  At every point the far side has the
first of them, and every getter returns there what was last set over bytes; the group is 0. -/
theorem C80_gateway (dbg : Bool) (bs : List ByteBuilt) (hbs : ∀ b ∈ bs, b.Legal) :
    ∃ ms, each ByteBuilt.make bs = .ok ms ∧
      ∀ pieces : List (List (BitVec 8)), pieces.flatten <+: (ms.map Prod.snd).flatten →
        ∃ outs rest us ps, readBytePieces pieces [] = .ok (outs, rest) ∧
          each (toUmp dbg) outs.flatten = .ok us ∧ sendAll us = .ok ps ∧
          ∀ careful pieces' h, pieces'.flatten <+: ps.flatten →
            ∃ got, line careful h pieces' = .ok got ∧ Arrived us pieces'.flatten got ∧
              Pairs ByteBuilt.ReadsUmp (bs.take got.length) got := by
  obtain ⟨ms, h1, -, h3, h4⟩ := ByteBuilt.made_all dbg bs hbs
  refine ⟨ms, h1, fun pieces hp => ?_⟩
  obtain ⟨outs, rest, n, us, ps, k1, k2, -, -, k5, k6, k7, k8⟩ :=
    C78_gateway_exactly dbg ms (fun m hm => (h3 m hm).1) (fun m hm => (h3 m hm).2) pieces hp
  refine ⟨outs, rest, us, ps, k1, k5, k7, fun careful pieces' h hp' => ?_⟩
  obtain ⟨t, A, e, -⟩ := k8 careful pieces' h hp'
  refine ⟨t, e, A, ?_⟩
  obtain ⟨u, p, a1, -⟩ := A
  have key : ∀ {bs : List ByteBuilt} {ms : List (BytesKind × List (BitVec 8))}
      {us : List (UmpKind × List (BitVec 32))},
      Pairs (fun b m => ∀ u, toUmp dbg m = .ok u → ByteBuilt.ReadsUmp b u) bs ms →
      each (toUmp dbg) ms = .ok us → Pairs ByteBuilt.ReadsUmp bs us := by
    intro bs ms us h
    induction h generalizing us with
    | nil => intro e; cases e; exact .nil
    | cons h1 _ ih =>
      intro e
      obtain ⟨u, e1, e⟩ := bind_inv e
      obtain ⟨us', e2, e⟩ := bind_inv e
      cases e
      exact .cons (h1 u e1) (ih e2)
  rw [← List.take_append_drop n ms, ← k2] at h4
  have := key h4.front k5
  rw [a1] at this
  have := this.front
  rw [List.take_take] at this
  rwa [Nat.min_eq_left (by rw [← k6, a1, List.length_append]; omega)] at this

/-- A note on on channel 3, a `Sysex7` and a discovery query. -/
def sampleByteBuilt : List ByteBuilt :=
  [.fixed Msg.cv1NoteOn [⟨"channel", .hybrid .u4 ⟨0x0F, 0, 0⟩ ⟨0x000F0000, 0, 0, 0⟩, (3 : BitVec 4)⟩],
    .sysex [.appendByte (7 : BitVec 7), .appendByte (8 : BitVec 7)],
    .query 2 [⟨.outputPathId, (5 : BitVec 7)⟩]]

theorem sampleByteBuilt_legal : ∀ b ∈ sampleByteBuilt, b.Legal := by
  intro b hb
  simp only [sampleByteBuilt, List.mem_cons, List.not_mem_nil, or_false] at hb
  rcases hb with rfl | rfl | rfl
  · refine ⟨by simp [Msg.hybridAll, Msg.cv1All], by decide, fun c hc => ?_⟩
    simp only [List.mem_cons, List.not_mem_nil, or_false] at hc
    rcases hc with rfl
    exact ⟨by simp [Msg.cv1NoteOn], by decide, rfl⟩
  · simp only [ByteBuilt.Legal, SxCall.AllInRange]
    trivial
  · exact ⟨.inr rfl, by decide⟩

-- Eight bytes: the note, the system exclusive message and a byte of the query.
example : (each ByteBuilt.make sampleByteBuilt >>= fun ms =>
      readBytePieces [(ms.map Prod.snd).flatten.take 2, ((ms.map Prod.snd).flatten.take 8).drop 2] []) =
    .ok ([[], [(.fixed Msg.cv1NoteOn, [0x93, 0, 0]), (.sysex7, [0xF0, 7, 8, 0xF7])]], [0xF0]) := by
  decide +kernel

-- The same behind the gateway, with three words of the four that it sends.
example : (each ByteBuilt.make sampleByteBuilt >>= fun ms =>
      readBytePieces [(ms.map Prod.snd).flatten.take 8] [] >>= fun x => each (toUmp true) x.1.flatten >>=
      fun us => sendAll us >>= fun ps => line false (fun _ => [7]) [ps.flatten.take 3]) =
    .ok [(.fixed Msg.cv1NoteOn, [0x20930000]), (.sysex .s7, [0x30020708, 0])] := by
  decide +kernel

end Midi2
