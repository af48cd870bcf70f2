import Verif.Props.PacketView
import Verif.Props.Truncated

/-!
# C33, C55, exactly

When going through `packets()` panics, and what it yields otherwise, for every message the
parser accepts.
-/

namespace Midi2

/-- C33, exactly.  If the last packet of a parsed message is truncated, `packets()` panics (as
does `data()`).  Otherwise whatever sequence of `next` and `nth` calls is made, no call panics
and the packets returned are those of a fixed list, all of the kind that belongs to the message
type.  That list is `data()` cut into parts, except for `FunctionBlockDiscovery`, where `data()`
is one word and the only packet is that word followed by three zeros. -/
theorem C33_packet_values_exactly (b b' : Buf .ump) (k : UmpKind)
    (hok : UmpMessage.tryFrom b = .ok (k, b')) :
    (¬ k.Complete b → UmpMessage.data (k, b') = .panic ∧ UmpMessage.packets (k, b') = .panic) ∧
    (k.Complete b → ∃ d ps h, ∃ items : List Packet, UmpMessage.data (k, b') = .ok d ∧ d <+: b ∧
      UmpMessage.packets (k, b') = .ok ps ∧ (k, h) ∈ umpTable ∧
      (∀ p ∈ items, p.1.code = h.type) ∧
      (∀ cs : List ItCall, ItCall.packetsExecAll cs ps = .ok (ItCall.packetListAll cs items)) ∧
      (k ≠ .fixed Msg.streamFunctionBlockDiscovery →
        (items.map Prod.snd).flatten = d ∧ ∀ p ∈ items, p.2.length = k.packetWords) ∧
      (k = .fixed Msg.streamFunctionBlockDiscovery →
        ∃ w, d = [w] ∧ items = [(.umpStream, [w, 0, 0, 0])])) := by
  refine ⟨(C06_ump_message_exactly b b' k hok).2, fun hc => ?_⟩
  obtain ⟨d, ps, a1, a2, -, a3, -⟩ := C33_ump_message_packets_partial b b' k hok hc
  by_cases hf : k = .fixed Msg.streamFunctionBlockDiscovery
  · subst hf
    obtain ⟨rfl, hk, h, he, ho⟩ := C10_ump_variant b b' _ hok
    have hd := (table_demands _ he _ rfl).1
    have hl : 1 ≤ b'.length :=
      ((tryFrom_iff Msg.streamFunctionBlockDiscovery .ump b').mp hk).1
    obtain ⟨p, q1, q2, q3, -⟩ := C33_fixed_packets hd b' hl
    cases b' with
    | nil => cases hl
    | cons w t =>
      have q3 : p = [w] := q3
      subst q3
      have e1 : d = [w] := Res.ok.inj (a1.symm.trans q2)
      have e2 : ps = [[w]] := Res.ok.inj (a3.symm.trans q1)
      subst e1; subst e2
      have hT : h.type = 15 := by
        have : ∀ e ∈ umpTable, e.1 = .fixed Msg.streamFunctionBlockDiscovery → e.2.type = 15 := by
          decide +kernel
        exact this _ he rfl
      have h0 : fieldAt (w :: t) 0 0 4 = some 15 := by rw [← hT]; exact ho.1
      have hA : PacketKind.umpStream.Accepts [w] :=
        ⟨Nat.le_refl 1, h0, (fun h => by rcases h with h | h <;> cases h), (fun h => by cases h)⟩
      have hp : ∀ c ∈ [[w]], Packet.tryFrom c = .ok (.umpStream, c ++ [0, 0, 0]) := by
        intro c hc
        cases List.mem_singleton.mp hc
        exact (C34_packet_accepts_exactly [w]).1 _ hA
      refine ⟨_, _, h, [(.umpStream, [w, 0, 0, 0])], a1, a2, a3, he, ?_, fun cs => ?_,
        fun hne => absurd rfl hne, fun _ => ⟨w, rfl, rfl⟩⟩
      · intro q hq
        cases List.mem_singleton.mp hq
        exact hT.symm
      · exact packets_run_map (f := fun c => c ++ [0, 0, 0]) cs hp
  · obtain ⟨d', ps', h, items, h1, h2, h3, h4, h5, h6⟩ := C33_packet_values_partial b b' k hok hc hf
    cases Res.ok.inj (a1.symm.trans h1)
    cases Res.ok.inj (a3.symm.trans h2)
    exact ⟨d, ps, h, items, h1, a2, h2, h3, fun p hp => (h5 p hp).1, h6,
      fun _ => ⟨h4, fun p hp => (h5 p hp).2⟩, fun e => absurd e hf⟩

-- The three cases.
example : UmpMessage.tryFrom [0x30160001, 0x02030405, 0x30310600] =
      .ok (.sysex .s7, [0x30160001, 0x02030405, 0x30310600]) ∧
    UmpMessage.packets (.sysex .s7, [0x30160001, 0x02030405, 0x30310600]) = .panic ∧
    UmpMessage.tryFrom [0xF0100103, 0, 0, 0] =
      .ok (.fixed Msg.streamFunctionBlockDiscovery, [0xF0100103, 0, 0, 0]) ∧
    (UmpMessage.packets (.fixed Msg.cv1NoteOn, [0x20903C40])).bind
      (ItCall.packetsExecAll [.next, .next]) =
      .ok [(some (.channelVoice1, [0x20903C40]), 0), (none, 0)] := by decide +kernel

/-- C55, exactly.  If the last packet of an accepted message is truncated, `packets()` and
`payload()` panic.  Otherwise the packets are accepted as packets, have the group and the stream
id of the message, their payloads one after the other are the payload of the message, and each
has the status its place calls for, except this: the last of several packets of a `Sysex8` says
that the message ended unexpectedly if and only if it has no payload and all its bytes behind the
stream id are zero. -/
theorem C55_sysex_exactly (k : Sx) (dbg : Bool) (b : Buf .ump) (h : k.tryFrom b = .ok b) :
    (¬ k.layout.Untruncated b → k.dataPackets b = .panic ∧ k.payloadList b = .panic) ∧
    (k.layout.Untruncated b →
      ∃ l ps, ∃ ls : List (List k.Byte), k.payloadList b = .ok l ∧ k.dataPackets b = .ok ps ∧
        ls.length = ps.length ∧ ls.flatten = l ∧
        ∀ (j : Nat) p q, ps[j]? = some p → ls[j]? = some q →
          k.packetKind.tryFrom p = .ok p ∧ Packet.group p = Sx.group b ∧
          (k = .s8 → Packet.streamId p = Sx.streamId b) ∧
          (∃ st, Packet.sysexStatus k p = .ok st ∧
            let early := k = .s8 ∧ ps.length ≠ 1 ∧ j + 1 = ps.length ∧ q = [] ∧
              octetVal p 3 = 0 ∧ p.tail = [0, 0, 0]
            (early → st = .unexpectedEnd true) ∧
            (¬ early → statusOfCode (statusCode ps.length j) = some st)) ∧
          Packet.len dbg k p 0 = .ok q.length ∧
          ∀ m, ItCall.packetExecAll dbg true k p (List.replicate m .next) 0 =
            .ok (ItCall.listExecAll true (List.replicate m .next) q)) := by
  constructor
  · intro hu
    obtain ⟨-, h1, h2, -⟩ := (C06_sysex_exactly k b h).2 hu
    exact ⟨h1, h2⟩
  · intro hu
    obtain ⟨l, ps, ls, h1, h2, h3, h4, h5⟩ := C55_sysex_partial k dbg b h hu
    refine ⟨l, ps, ls, h1, h2, h3, h4, fun j p q hp hq => ?_⟩
    obtain ⟨g1, g2, g3, ⟨st, g4, g5⟩, g6, g7⟩ := h5 j p q hp hq
    refine ⟨g1, g2, g3, ⟨st, g4, ?_⟩, g6, g7⟩
    cases k with
    | s7 =>
      refine ⟨fun e => (nomatch e.1), fun _ => g5.resolve_right fun e => nomatch e.1⟩
    | s8 =>
      obtain ⟨st', c, n, i, e1, -, e2, e3, -, e4, e5, e6⟩ := C34_sysex8_status p p g1
      cases Res.ok.inj (g4.symm.trans e1)
      obtain ⟨d, ps', q1, -, q3, -, q5, -⟩ := C33_sysex_packets .s8 b h hu
      cases Res.ok.inj (h2.symm.trans q3)
      have hpl : p.length = 4 := q5 p (List.mem_of_getElem? hp)
      have ht : p.take 4 = p := List.take_of_length_le (by omega)
      rw [ht] at e4
      constructor
      · rintro ⟨-, a1, a2, rfl, a4, a5⟩
        refine e4.mpr ⟨?_, ?_, a4, a5⟩
        · rcases g5 with g5 | ⟨-, -, -, -, g5⟩
          · have hc : statusCode ps.length j = 3 := by
              unfold statusCode
              rw [if_neg a1, if_neg (by omega), if_pos a2]
            rcases e6 with e6 | ⟨v, rfl⟩
            · rw [hc] at g5
              cases g5
              match c, e6 with
              | 3, _ => rfl
            · cases v
              · exact (e5.mp rfl).1
              · exact (e4.mp rfl).1
          · exact (e4.mp g5).1
        · have hF : Packet.len dbg .s8 p 0 = .ok 0 := g6
          cases p with
          | nil => cases hpl
          | cons w t =>
            rw [fieldAt_cons] at e3
            cases Option.some.inj e3
            rw [← Packet.size_nibble]
            revert hF
            unfold Packet.len Packet.payloadSize
            show (usub (U32.nibble w 3).toNat 1 >>= fun n => if dbg && decide (n > 13) then Res.panic
              else pure n) >>= (fun n => usub n 0) = _ → _
            unfold usub
            split
            · rw [Res.ok_bind]
              split
              · intro e; cases e
              · intro e
                have := Res.ok.inj e
                omega
            · intro e; cases e
      · intro hne
        rcases g5 with g5 | ⟨-, a1, a2, rfl, g5⟩
        · exact g5
        · obtain ⟨-, -, b1, b2⟩ := e4.mp g5
          exact absurd ⟨rfl, a1, a2, rfl, b1, b2⟩ hne

-- An empty last packet, with and without a byte in the padding.
example : Sx.s8.tryFrom [0x50120007, 0, 0, 0, 0x50310000, 0, 0, 0] =
      .ok [0x50120007, 0, 0, 0, 0x50310000, 0, 0, 0] ∧
    Sx.s8.tryFrom [0x50120007, 0, 0, 0, 0x50310000, 0, 0, 1] =
      .ok [0x50120007, 0, 0, 0, 0x50310000, 0, 0, 1] ∧
    Packet.sysexStatus .s8 [0x50310000, 0, 0, 0] = .ok (.unexpectedEnd true) ∧
    Packet.sysexStatus .s8 [0x50310000, 0, 0, 1] = .ok .end_ := by decide +kernel

end Midi2
