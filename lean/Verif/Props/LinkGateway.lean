import Verif.Props.Link
import Verif.Props.Gateway
import Verif.Props.PiecesBytes

/-!
# C78: MIDI 1.0 over a line of UMP
-/

namespace Midi2

open Rx Gateway

/-- The messages of the beginning of a stream of byte messages. -/
theorem bytesOf_front : ∀ (ms : List (BytesKind × Buf .bytes)), (∀ m ∈ ms, BytesKind.Alone m) →
    ∀ w : Buf .bytes, w <+: (ms.map Prod.snd).flatten → ∃ n rest, n ≤ ms.length ∧
      BytesOf w (ms.take n) rest ∧ ∀ m, ms[n]? = some m → rest.length < m.2.length
  | [], _, w, hw => by
    have : w = [] := List.prefix_nil.mp hw
    subst this
    exact ⟨0, [], Nat.le_refl _, .nil, fun m e => nomatch e⟩
  | m :: ms, hms, w, hw => by
    have A := hms m List.mem_cons_self
    rw [List.map_cons, List.flatten_cons] at hw
    by_cases hx : m.2 <+: w
    · obtain ⟨c, rfl⟩ := hx
      obtain ⟨n, rest, h1, h2, h3⟩ := bytesOf_front ms
        (fun y hy => hms y (List.mem_cons_of_mem _ hy)) c ((List.prefix_append_right_inj _).mp hw)
      refine ⟨n + 1, rest, Nat.succ_le_succ h1, ⟨?_, ?_, h2.stop⟩, fun m' e => ?_⟩
      · rw [List.take_succ_cons, List.map_cons, List.flatten_cons, List.append_assoc, ← h2.bytes]
      · intro p hp
        rw [List.take_succ_cons] at hp
        rcases List.mem_cons.mp hp with rfl | hp
        · exact A
        · exact h2.alone p hp
      · rw [List.getElem?_cons_succ] at e
        exact h3 m' e
    · have hlt : w.length < m.2.length := by
        refine Nat.lt_of_not_le fun hle => hx ?_
        exact List.prefix_of_prefix_length_le (List.prefix_append _ _) hw hle
      have hwx : w <+: m.2 := List.prefix_of_prefix_length_le hw (List.prefix_append _ _) (Nat.le_of_lt hlt)
      refine ⟨0, w, Nat.zero_le _, ⟨rfl, (fun p hp => nomatch hp), fun p Q hp => ?_⟩, fun m' e => ?_⟩
      · obtain ⟨c, hc⟩ := hp.trans hwx
        obtain ⟨f1, f2, -⟩ := Q.is.follow c
        rw [hc, A.1] at f1
        have ek : m.1 = p.1 := congrArg Prod.fst (a₂ := (p.1, m.2)) (Res.ok.inj f1)
        have A2 : m.1.data m.2 = .ok m.2 := A.2
        rw [hc, ← ek] at f2
        have := hp.length_le
        have e := Res.ok.inj (f2.symm.trans A2)
        rw [e] at this
        omega
      · cases e; exact hlt

theorem Gateway.wire_type {u : UmpKind × Buf .ump} {x : BytesKind × Buf .bytes}
    (h1 : UmpMessage.tryFrom u.2 = .ok u) (h2 : toBytes u = .ok (some x)) :
    (∀ n, fieldAt u.2 0 0 4 = some n → n ≠ 4 ∧ n ≠ 13 ∧ n ≠ 15) ∧ inPackets u = u := by
  obtain ⟨k, b⟩ := u
  obtain ⟨-, -, hd, he, ho⟩ := C10_ump_variant b b k h1
  have hk : hasBytes k = true := by
    cases k with
    | fixed d =>
      show decide (d ∈ Msg.hybridAll) = true
      by_cases hd : d ∈ Msg.hybridAll
      · exact decide_eq_true hd
      · have h2 : (if d ∈ Msg.hybridAll then _ else _) = _ := h2
        rw [if_neg hd] at h2
        cases h2
    | sysex s =>
      cases s with
      | s7 => rfl
      | s8 => cases h2
    | flexText t => cases h2
    | streamText t => cases h2
  have tbl : ∀ e ∈ umpTable, hasBytes e.1 = true → e.2.type ≠ 4 ∧ e.2.type ≠ 13 ∧ e.2.type ≠ 15 ∧
      e.1 ≠ .fixed Msg.streamFunctionBlockDiscovery := by decide +kernel
  obtain ⟨t1, t2, t3, t4⟩ := tbl _ he hk
  refine ⟨fun n hn => ?_, ?_⟩
  · have := ho.1
    rw [hn] at this
    cases Option.some.inj this
    exact ⟨t1, t2, t3⟩
  · unfold inPackets
    rw [if_neg t4]

theorem Gateway.passBack_pairs {ms : List (BytesKind × Buf .bytes)} {us : List (UmpKind × Buf .ump)}
    (h : Pairs (fun m u => toBytes u = .ok (some (m.1, cleared m))) ms us) :
    passBack us = .ok (ms.map cleared).flatten := by
  have e : each toBytes us = .ok (ms.map fun m => some (m.1, cleared m)) := by
    induction h with
    | nil => rfl
    | cons h1 _ ih =>
      simp only [each, List.map_cons]
      rw [h1, Res.ok_bind, ih]
      rfl
  unfold passBack
  rw [e, Res.ok_bind]
  show Res.ok _ = Res.ok _
  congr 2
  clear e h
  induction ms with
  | nil => rfl
  | cons m ms ih => simp

theorem Gateway.Pairs.take {α β : Type} {R : α → β → Prop} {as : List α} {bs : List β}
    (h : Pairs R as bs) : ∀ n, Pairs R (as.take n) (bs.take n) := by
  induction h with
  | nil => intro n; rw [List.take_nil, List.take_nil]; exact .nil
  | cons h1 _ ih =>
    intro n
    cases n with
    | zero => exact .nil
    | succ n => exact .cons h1 (ih n)

/-- C78, exactly: a gateway takes MIDI 1.0 messages off pieces of a byte stream, translates those
that have arrived completely and sends them on packet by packet; the other end of the line takes
packets off pieces of the word stream, waiting for whole packets or not, puts the messages together
and turns them into bytes again.  At any point the bytes that come out are those of the messages
whose packets have arrived completely, in the order of the stream, with the bits cleared that have
no meaning.  The messages are those `into_ump` translates (`C74_stream_exactly`). -/
theorem C78_gateway_exactly (dbg : Bool) (ms : List (BytesKind × List (BitVec 8)))
    (hms : ∀ m ∈ ms, BytesMessage.tryFrom m.2 = .ok m ∧ BytesMessage.data m = .ok m.2)
    (hb : ∀ m ∈ ms, ¬ Blocked m) (bs : List (List (BitVec 8)))
    (hbs : bs.flatten <+: (ms.map Prod.snd).flatten) :
    ∃ outs rest n us ps, readBytePieces bs [] = .ok (outs, rest) ∧
      outs.flatten = ms.take n ∧ bs.flatten = ((ms.take n).map Prod.snd).flatten ++ rest ∧
      (∀ m, ms[n]? = some m → rest.length < m.2.length) ∧
      each (toUmp dbg) outs.flatten = .ok us ∧ us.length = outs.flatten.length ∧
      sendAll us = .ok ps ∧
      ∀ careful pieces h, pieces.flatten <+: ps.flatten → ∃ t, Arrived us pieces.flatten t ∧
        line careful h pieces = .ok t ∧
        passBack t = .ok ((ms.take t.length).map cleared).flatten := by
  obtain ⟨n, rest, hn, B, hrest⟩ := bytesOf_front ms hms _ hbs
  obtain ⟨outs, rest', k1, -, k3, -⟩ := C76_bytes bs
  obtain ⟨e1, rfl⟩ := k3.unique B
  obtain ⟨us, u1, u2⟩ := each_exists (f := toUmp dbg) (as := ms.take n)
    (P := fun m u => (Same m u ∧ UmpMessage.tryFrom u.2 = .ok u ∧ u.1.data u.2 = .ok u.2) ∧
      toBytes u = .ok (some (m.1, cleared m)))
    fun m hm => (toUmp_exactly dbg (BytesKind.Alone.is (hms m (List.mem_of_mem_take hm)))).2
      (hb m (List.mem_of_mem_take hm))
  have hu : ∀ u ∈ us, (UmpMessage.tryFrom u.2 = .ok u ∧ UmpMessage.data u = .ok u.2) ∧
      (∀ n, fieldAt u.2 0 0 4 = some n → n ≠ 4 ∧ n ≠ 13 ∧ n ≠ 15) ∧ inPackets u = u := by
    clear u1 e1 B k3 k1 hrest hn
    generalize ms.take n = mt at u2
    induction u2 with
    | nil => intro u hu; cases hu
    | cons h1 _ ih =>
      intro u hu
      rcases List.mem_cons.mp hu with rfl | hu
      · exact ⟨h1.1.2, wire_type h1.1.2.1 h1.2⟩
      · exact ih u hu
  have hlen : us.length = (ms.take n).length := by
    clear u1 e1 B k3 k1 hrest hn hu
    generalize ms.take n = mt at u2
    induction u2 with
    | nil => rfl
    | cons _ _ ih => rw [List.length_cons, List.length_cons, ih]
  obtain ⟨ps, s1, s2⟩ := C78_line us fun u h => (hu u h).1
  refine ⟨outs, rest', n, us, ps, k1, e1, B.bytes, hrest, by rw [e1]; exact u1, by rw [e1]; exact hlen,
    s1, fun careful pieces h hp => ?_⟩
  obtain ⟨t, A, ht⟩ := s2 pieces h hp
  have hsub : t = us.take t.length := by
    obtain ⟨u, p, a1, -⟩ := A
    rw [a1, List.take_left]
  have hmap : t.map inPackets = t := by
    refine (List.map_congr_left fun u h => ?_).trans (List.map_id t)
    exact (hu u (by rw [hsub] at h; exact List.mem_of_mem_take h)).2.2
  rw [hmap] at ht
  refine ⟨t, A, ?_, ?_⟩
  · cases careful with
    | true => exact ht
    | false =>
      rw [C78_greedy us (fun u h => (hu u h).1) (fun u h => (hu u h).2.1) ps s1 pieces hp]
      exact ht
  · have := passBack_pairs ((u2.mono fun _ _ _ h => h.2).take t.length)
    rw [← hsub, List.take_take] at this
    have hle : t.length ≤ n := by
      have : t.length ≤ us.length := by rw [hsub, List.length_take]; exact Nat.min_le_right _ _
      rw [hlen, List.length_take] at this
      omega
    rw [this, Nat.min_eq_left hle]

/-- C78: so MIDI 1.0 messages of any kind but `TimeCode`, `SongPositionPointer` and `TuneRequest`
(C74) come out at the other end as the bytes that went in, however the two streams are cut; and as
long as not everything has come through, the bytes of the first so many messages. -/
theorem C78_midi1_partial (dbg : Bool) (ms : List (List (BitVec 8))) (hms : ∀ m ∈ ms, Midi1 m)
    (h1 : ∀ m ∈ ms, m.head? ≠ some 0xF1) (h2 : ∀ m ∈ ms, m.head? ≠ some 0xF2)
    (h6 : ∀ m ∈ ms, m.head? ≠ some 0xF6) (bs : List (List (BitVec 8)))
    (hbs : bs.flatten <+: ms.flatten) :
    ∃ outs rest us ps, readBytePieces bs [] = .ok (outs, rest) ∧
      each (toUmp dbg) outs.flatten = .ok us ∧ sendAll us = .ok ps ∧
      ∀ careful pieces h, pieces.flatten <+: ps.flatten → ∃ t n, Arrived us pieces.flatten t ∧
        line careful h pieces = .ok t ∧ passBack t = .ok (ms.take n).flatten ∧
        (bs.flatten = ms.flatten → pieces.flatten = ps.flatten → passBack t = .ok ms.flatten) := by
  have hk : ∃ ks : List (BytesKind × List (BitVec 8)), ks.map Prod.snd = ms ∧ ∀ k ∈ ks,
      BytesKind.Alone k ∧ ¬ Blocked k ∧ cleared k = k.2 := by
    clear hbs
    induction ms with
    | nil => exact ⟨[], rfl, fun _ h => nomatch h⟩
    | cons m ms ih =>
      obtain ⟨ks, e, hks⟩ := ih (fun m hm => hms m (List.mem_cons_of_mem _ hm))
        (fun m hm => h1 m (List.mem_cons_of_mem _ hm)) (fun m hm => h2 m (List.mem_cons_of_mem _ hm))
        (fun m hm => h6 m (List.mem_cons_of_mem _ hm))
      obtain ⟨k, M, hb, hc, -⟩ := midi1_message (hms m List.mem_cons_self) (h1 m List.mem_cons_self)
        (h2 m List.mem_cons_self) (h6 m List.mem_cons_self)
      have F := M.follow []
      rw [List.append_nil] at F
      refine ⟨(k, m) :: ks, by simp [e], fun x hx => ?_⟩
      rcases List.mem_cons.mp hx with rfl | hx
      · exact ⟨⟨F.1, F.2.1⟩, hb, hc⟩
      · exact hks x hx
  obtain ⟨ks, rfl, hks⟩ := hk
  obtain ⟨outs, rest, n, us, ps, a1, a2, a3, a4, a5, a6, a7, a8⟩ :=
    C78_gateway_exactly dbg ks (fun k hk => (hks k hk).1) (fun k hk => (hks k hk).2.1) bs hbs
  refine ⟨outs, rest, us, ps, a1, a5, a7, fun careful pieces h hp => ?_⟩
  obtain ⟨t, A, b1, b2⟩ := a8 careful pieces h hp
  have hcl : ∀ n, (ks.take n).map cleared = (ks.map Prod.snd).take n := fun n => by
    rw [← List.map_take]
    exact List.map_congr_left fun k hk => (hks k (List.mem_of_mem_take hk)).2.2
  rw [hcl] at b2
  refine ⟨t, t.length, A, b1, b2, fun e1 e2 => ?_⟩
  have B : Arrived us pieces.flatten us := ⟨[], ps, by rw [List.append_nil], a7,
    by rw [e2]; exact List.prefix_refl _, fun m u' e => nomatch e⟩
  have ht := C78_arrived_unique us t us _ A B
  have hn : ks.length ≤ n := by
    refine Nat.le_of_not_lt fun hlt => ?_
    have hx := a4 ks[n] (List.getElem?_eq_getElem hlt)
    have e3 : (ks.map Prod.snd).flatten = ((ks.take n).map Prod.snd).flatten ++
        ((ks.drop n).map Prod.snd).flatten := by
      rw [← List.flatten_append, ← List.map_append, List.take_append_drop]
    rw [a3, e3] at e1
    have e4 := List.append_cancel_left e1
    rw [List.drop_eq_getElem_cons hlt, List.map_cons, List.flatten_cons] at e4
    have := congrArg List.length e4
    rw [List.length_append] at this
    omega
  rw [b2]
  rw [a2, List.take_of_length_le hn] at a6
  rw [List.take_of_length_le (by rw [ht, a6, List.length_map]; exact Nat.le_refl _)]

-- Pieces within a note, within system exclusive and within its packets.
example : readBytePieces [[0x93, 60], [100, 0xF0, 1, 2, 3, 4], [5, 6, 7, 0xF7, 0xF8, 0x93]] [] =
      .ok ([[], [(.fixed Msg.cv1NoteOn, [0x93, 60, 100])],
        [(.sysex7, [0xF0, 1, 2, 3, 4, 5, 6, 7, 0xF7]), (.fixed Msg.sysTimingClock, [0xF8])]], [0x93]) ∧
    each (toUmp true) [(.fixed Msg.cv1NoteOn, [0x93, 60, 100]),
        (.sysex7, [0xF0, 1, 2, 3, 4, 5, 6, 7, 0xF7]), (.fixed Msg.sysTimingClock, [0xF8])] =
      .ok [(.fixed Msg.cv1NoteOn, [0x20933C64]), (.sysex .s7, [0x30160102, 0x03040506, 0x30310700, 0]),
        (.fixed Msg.sysTimingClock, [0x10F80000])] ∧
    sendAll [(.fixed Msg.cv1NoteOn, [0x20933C64]), (.sysex .s7, [0x30160102, 0x03040506, 0x30310700, 0]),
        (.fixed Msg.sysTimingClock, [0x10F80000])] =
      .ok [[0x20933C64], [0x30160102, 0x03040506], [0x30310700, 0], [0x10F80000]] ∧
    line false (fun _ => [7]) [[0x20933C64, 0x30160102], [0x03040506, 0x30310700], [0, 0x10F80000]] =
      .ok [(.fixed Msg.cv1NoteOn, [0x20933C64]), (.sysex .s7, [0x30160102, 0x03040506, 0x30310700, 0]),
        (.fixed Msg.sysTimingClock, [0x10F80000])] := by
  refine ⟨by decide +kernel, by decide +kernel, by decide +kernel, by decide +kernel⟩

/-- C78 the other way round, exactly: whole messages in UMP become bytes, the bytes come in in
pieces of any size and become UMP again.  The types that MIDI 1.0 has too come out as in
`C74_ump_exactly`, `SongPositionPointer` panics. -/
theorem C78_back_exactly (us : List (UmpKind × List (BitVec 32)))
    (hus : ∀ u ∈ us, UmpMessage.tryFrom u.2 = .ok u ∧ u.1.data u.2 = .ok u.2) :
    ((∃ u ∈ us, u.1 = .fixed Msg.sysSongPositionPointer) → passBack us = .panic) ∧
    ((∀ u ∈ us, u.1 ≠ .fixed Msg.sysSongPositionPointer) → ∃ b, passBack us = .ok b ∧
      ∀ dbg bs, bs.flatten = b → ∃ outs us', readBytePieces bs [] = .ok (outs, []) ∧
        each (toUmp dbg) outs.flatten = .ok us' ∧
        Pairs Again (us.filter fun u => hasBytes u.1) us') := by
  obtain ⟨c1, c2⟩ := C74_ump_exactly us hus
  refine ⟨c1, fun hno => ?_⟩
  obtain ⟨ms, p1, -, p3⟩ := c2 hno
  refine ⟨_, p1, fun dbg bs e => ?_⟩
  obtain ⟨us', q1, q2⟩ := p3 dbg
  obtain ⟨xs, r1, r2⟩ := bind_inv (show (readBytes _ (ms.map Prod.snd).flatten >>= each (toUmp dbg)) =
    .ok us' from q1)
  obtain ⟨f, hM⟩ := (C48_bytes_stream_exactly _ xs _ (Nat.le_refl _)).mp r1
  obtain ⟨outs, o1, o2⟩ := C76_bytes_sent xs (fun m hm => by
    have F := (hM m hm).follow []
    rw [List.append_nil] at F
    exact ⟨F.1, F.2.1⟩) bs (e.trans f.symm)
  exact ⟨outs, us', o1, by rw [o2]; exact r2, q2⟩

example : passBack [(.sysex .s7, [0x31010100, 0]), (.fixed Msg.cv2NoteOn, [0x40903C00, 0x80000000]),
      (.fixed Msg.cv1NoteOn, [0x25993C64])] = .ok [0xF0, 1, 0xF7, 0x99, 60, 100] ∧
    readBytePieces [[0xF0], [1], [0xF7, 0x99], [60, 100]] [] =
      .ok ([[], [], [(.sysex7, [0xF0, 1, 0xF7])], [(.fixed Msg.cv1NoteOn, [0x99, 60, 100])]], []) := by
  decide +kernel

end Midi2
