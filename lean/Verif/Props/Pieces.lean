import Verif.Lemmas.PiecesMessages

/-! # C76: words that arrive in pieces -/

namespace Midi2

theorem readPackets_careful : ∀ (ps : List (List (BitVec 32))) {b : List (BitVec 32)}
    {qs : List (PacketKind × List (BitVec 32))} {r : List (BitVec 32)}, PacketsOf b qs r →
    ∃ outs rest, readPackets true ps r = .ok (outs, rest) ∧ outs.length = ps.length ∧
      PacketsOf (b ++ ps.flatten) (qs ++ outs.flatten) rest
  | [], b, qs, r, R => ⟨[], r, rfl, rfl, by simpa using R⟩
  | p :: ps, b, qs, r, R => by
    obtain ⟨xs, s, S⟩ := packetsOf_exists _ (r ++ p) (Nat.le_refl _)
    obtain ⟨outs, rest, h1, h2, h3⟩ := readPackets_careful ps (R.trans S)
    refine ⟨xs :: outs, rest, ?_, by rw [List.length_cons, List.length_cons, h2], ?_⟩
    · show takePackets true (r ++ p).length (r ++ p) >>= _ = _
      rw [takePackets_careful S (Nat.le_refl _), Res.ok_bind, h1]; rfl
    · rw [List.flatten_cons, List.flatten_cons, ← List.append_assoc, ← List.append_assoc]
      exact h3

/-- C76: a reader who waits until the words a packet announces have arrived gets, after every
piece, the packets that are complete by then, and no others: the packets are those of the whole
stream, however it was cut. -/
theorem C76_packets_careful (ps : List (List (BitVec 32))) :
    ∃ outs rest, readPackets true ps [] = .ok (outs, rest) ∧ outs.length = ps.length ∧
      PacketsOf ps.flatten outs.flatten rest ∧
      ∀ pre post, ps = pre ++ post → ∃ r, PacketsOf pre.flatten (outs.take pre.length).flatten r := by
  obtain ⟨outs, rest, h1, h2, h3⟩ := readPackets_careful ps PacketsOf.nil
  refine ⟨outs, rest, h1, h2, h3, fun pre post hp => ?_⟩
  subst hp
  obtain ⟨xs, r, g1, g2, g3⟩ := readPackets_careful pre PacketsOf.nil
  rw [readPackets_append, g1, Res.ok_bind] at h1
  cases hy : readPackets true post r with
  | err e => rw [hy] at h1; cases h1
  | panic => rw [hy] at h1; cases h1
  | ok y =>
    rw [hy] at h1
    cases h1
    refine ⟨r, ?_⟩
    rw [← g2, List.take_left]
    exact g3

/-- The packets of a stream are determined by the stream; so any two ways of cutting it give the
same packets and leave the same words. -/
theorem C76_packets_however_cut (ps ps' : List (List (BitVec 32)))
    (h : ps.flatten = ps'.flatten) :
    ∃ outs outs' rest, readPackets true ps [] = .ok (outs, rest) ∧
      readPackets true ps' [] = .ok (outs', rest) ∧ outs.flatten = outs'.flatten := by
  obtain ⟨outs, rest, h1, -, h3, -⟩ := C76_packets_careful ps
  obtain ⟨outs', rest', g1, -, g3, -⟩ := C76_packets_careful ps'
  rw [h] at h3
  obtain ⟨e1, e2⟩ := h3.unique g3
  subst e2
  exact ⟨outs, outs', rest, h1, g1, e1⟩

theorem readPackets_greedy : ∀ (ps : List (List (BitVec 32))) {b : List (BitVec 32)}
    {qs : List (PacketKind × List (BitVec 32))} {r : List (BitVec 32)}, PacketsOf b qs r →
    (∀ pre post, ps = pre ++ post → ∀ qs r, PacketsOf (b ++ pre.flatten) qs r →
      ∀ k : PacketKind, ¬ k.Torn r) →
    readPackets false ps r = readPackets true ps r
  | [], _, _, _, _, _ => rfl
  | p :: ps, b, qs, r, R, hN => by
    obtain ⟨xs, s, S⟩ := packetsOf_exists _ (r ++ p) (Nat.le_refl _)
    have hs : ∀ k : PacketKind, ¬ k.Torn s := by
      refine hN [p] ps rfl (qs ++ xs) s ?_
      rw [List.flatten_cons, List.flatten_nil, List.append_nil]
      exact R.trans S
    have ih := readPackets_greedy ps (R.trans S) fun pre post hp qs r Q => by
      refine hN (p :: pre) post (by rw [hp]; rfl) qs r ?_
      rw [List.flatten_cons, ← List.append_assoc]
      exact Q
    have e : ∀ careful, readPackets careful (p :: ps) r =
      takePackets careful (r ++ p).length (r ++ p) >>= fun x =>
        readPackets careful ps x.2 >>= fun y => .ok (x.1 :: y.1, y.2) := fun _ => rfl
    rw [e, e, (takePackets_greedy S (Nat.le_refl _)).1 hs, takePackets_careful S (Nat.le_refl _),
      Res.ok_bind, Res.ok_bind]
    show readPackets false ps s >>= _ = readPackets true ps s >>= _
    rw [ih]

/-- C76, exactly, for a reader who does not wait: if no piece ends within a channel voice 2, flex
data or stream packet, it gets the same packets after every piece.  At the first piece that does
(within a flex data packet: behind its second word) it gets one more, which is what has arrived
of that packet with zeros in place of the rest. -/
theorem C76_packets_exactly (ps : List (List (BitVec 32))) :
    (NeverTorn ps → readPackets false ps [] = readPackets true ps []) ∧
    ∀ pre p post, ps = pre ++ p :: post → NeverTorn pre → ∀ qs r k,
      PacketsOf (pre.flatten ++ p) qs r → PacketKind.Torn k r →
      ∃ outs x, readPackets true (pre ++ [p]) [] = .ok (outs ++ [x], r) ∧
        readPackets false (pre ++ [p]) [] =
          .ok (outs ++ [x ++ [(k, r ++ List.replicate (k.words - r.length) 0)]], []) := by
  have go : ∀ ps, NeverTorn ps → readPackets false ps [] = readPackets true ps [] :=
    fun ps h => readPackets_greedy ps PacketsOf.nil h
  refine ⟨go ps, fun pre p post _ hN qs r k Q T => ?_⟩
  obtain ⟨outs, s, h1, -, h3⟩ := readPackets_careful pre PacketsOf.nil
  obtain ⟨xs, s', S⟩ := packetsOf_exists _ (s ++ p) (Nat.le_refl _)
  have h3 : PacketsOf pre.flatten outs.flatten s := h3
  obtain ⟨-, e⟩ := (h3.trans S).unique Q
  subst e
  refine ⟨outs, xs, ?_, ?_⟩
  · rw [readPackets_append, h1, Res.ok_bind, readPackets_one,
      takePackets_careful S (Nat.le_refl _)]
    rfl
  · rw [readPackets_append, go pre hN, h1, Res.ok_bind, readPackets_one,
      (takePackets_greedy S (Nat.le_refl _)).2 k T]
    rfl

/-- In the code a reader who does not wait can lose everything from a torn packet on: a note on,
cut after its first word, is read with velocity 0, and its second word is then no packet. -/
theorem C76_violation :
    readPackets false [[0x40903C00, 0x80000000, 0x10F80000]] [] =
      .ok ([[(.channelVoice2, [0x40903C00, 0x80000000]), (.systemCommon, [0x10F80000])]], []) ∧
    readPackets false [[0x40903C00], [0x80000000, 0x10F80000]] [] =
      .ok ([[(.channelVoice2, [0x40903C00, 0])], []], [0x80000000, 0x10F80000]) ∧
    readPackets true [[0x40903C00], [0x80000000, 0x10F80000]] [] =
      .ok ([[], [(.channelVoice2, [0x40903C00, 0x80000000]), (.systemCommon, [0x10F80000])]], []) := by
  exact ⟨by decide +kernel, by decide +kernel, by decide +kernel⟩

-- Pieces that end within a system exclusive packet do no harm.
example : readPackets false [[0x30020102], [0, 0x10F80000]] [] =
    readPackets true [[0x30020102], [0, 0x10F80000]] [] := by decide +kernel

-- The hypotheses of the second half are met.
example : NeverTorn [] ∧ PacketsOf ([].flatten ++ [0x40903C00]) [] [0x40903C00] ∧
    PacketKind.Torn .channelVoice2 [0x40903C00] := by
  have T : PacketKind.Torn .channelVoice2 [0x40903C00] :=
    ⟨.inl rfl, by decide, (fun h => nomatch h), by decide⟩
  refine ⟨fun pre post h qs r R k T => ?_, ⟨rfl, (fun q hq => nomatch hq), fun p W hp => ?_⟩, T⟩
  · obtain ⟨h1, -⟩ := List.nil_eq_append_iff.mp h
    subst h1
    obtain ⟨-, e⟩ := R.unique PacketsOf.nil
    subst e
    cases T.type
  · have h1 := W.pos
    have h2 := hp.length_le
    have e : p.2 = [0x40903C00] := hp.eq_of_length (by
      rw [List.length_cons, List.length_nil] at h2 ⊢; omega)
    have hk := W.accepted.type
    have hl := W.length
    rw [e] at hk hl
    have hk : some 4 = some p.1.code := hk
    have hl : 1 = p.1.words := hl
    revert hk hl
    cases p.1 <;> decide

/-! ## Messages -/

/-- C76, exactly, for messages: the first words of a message are taken for that message if they end
within its last packet, which is not its first; `data()` then panics.  Otherwise they are refused,
so that the reader can wait for the rest. -/
theorem C76_message_prefix_exactly (m : Buf .ump) (k : UmpKind)
    (hok : UmpMessage.tryFrom m = .ok (k, m)) (hd : k.data m = .ok m) (n : Nat) (hn : n < m.length) :
    (k.CutInLast m n → UmpMessage.tryFrom (m.take n) = .ok (k, m.take n) ∧
      UmpMessage.data (k, m.take n) = .panic) ∧
    (¬ k.CutInLast m n → ∃ e, UmpMessage.tryFrom (m.take n) = .err e) := by
  obtain ⟨_, hk, h, he, ho⟩ := C10_ump_variant m m k hok
  have hl : (m.take n).length = n := by rw [List.length_take]; omega
  have hown := ump_own_length hok hd
  -- the message's own parser, and what is missing
  have key : (k.tryFrom (m.take n) = .ok (m.take n) ↔ k.CutInLast m n) ∧
      (k.CutInLast m n → 0 < n ∧ ¬ k.Complete (m.take n)) := by
    cases k with
    | fixed d =>
      have hown : m.length = d.umpSize := hown
      refine ⟨⟨fun h => ?_, fun h => h.elim⟩, fun h => h.elim⟩
      have h1 : d.umpSize ≤ (m.take n).length := ((tryFrom_iff d .ump _).mp h).1
      omega
    | sysex s =>
      have hown : m.length = s.layout.words * (s.layout.run m).length := hown
      have A := (Sx.tryFrom_iff s m).mp hk
      refine ⟨(Sx.tryFrom_iff s _).trans (Sx.accepts_take A hown hn), fun hc => ?_⟩
      have hw : 0 < s.layout.words := by rw [words_eq]; exact s.stride_pos
      refine ⟨Nat.lt_of_lt_of_le hw hc.1, fun hC => ?_⟩
      have hC : s.layout.words * (s.layout.run (m.take n)).length ≤ (m.take n).length := hC
      have hst := A.statuses
      have hown' := hown
      rw [s.run_typed] at hst
      rw [s.run_typed, words_eq] at hown'
      have hr : s.layout.run (m.take n) = s.layout.run m := by
        rw [s.run_typed, s.run_typed]
        exact (run_take_seqOk s.stride_pos hown' hst n).2 (by rw [← words_eq]; exact hc.2)
      rw [hr, ← hown] at hC
      omega
    | flexText t =>
      have hown : m.length = 4 * (FlexText.run m).length := hown
      have A := (FlexText.tryFrom_iff t m).mp hk
      refine ⟨(FlexText.tryFrom_iff t _).trans (FlexText.accepts_take A hown hn), fun hc => ?_⟩
      refine ⟨Nat.lt_of_lt_of_le (by decide) hc.1, fun hC => ?_⟩
      have hC : 4 * (FlexText.run (m.take n)).length ≤ (m.take n).length := hC
      have hr : FlexText.run (m.take n) = FlexText.run m :=
        (run_take_seqOk (k := 4) (ty := 0xD) (by omega) hown (f := fun w => field w 8 2)
          A.formats n).2 hc.2.1
      rw [hr, ← hown] at hC
      omega
    | streamText t =>
      have hown : m.length = 4 * (StreamText.run m).length := hown
      have K := StreamText.known_of_mem (table_other _ he).1
      have A := (StreamText.tryFrom_iff K m).mp hk
      refine ⟨(StreamText.tryFrom_iff K _).trans (StreamText.accepts_take A hown hn), fun hc => ?_⟩
      refine ⟨Nat.lt_of_lt_of_le (by decide) hc.1, fun hC => ?_⟩
      have hC : 4 * (StreamText.run (m.take n)).length ≤ (m.take n).length := hC
      have hr : StreamText.run (m.take n) = StreamText.run m :=
        (run_take_seqOk (k := 4) (ty := 0xF) (by omega) hown (f := fun w => field w 4 2)
          A.formats n).2 hc.2.1
      rw [hr, ← hown] at hC
      omega
  constructor
  · intro hc
    obtain ⟨h0, h1⟩ := key.2 hc
    have hok' := (UmpMessage.same_front hok fun p w => fieldAt_take h0 p w).1 (key.1.mpr hc)
    exact ⟨hok', ((C06_ump_message_exactly _ _ k hok').2 h1).1⟩
  · intro hc
    by_cases h0 : 0 < n
    · exact (UmpMessage.same_front hok fun p w => fieldAt_take h0 p w).2 fun h => hc (key.1.mp h)
    · obtain rfl : n = 0 := by omega
      exact ⟨_, rfl⟩

/-- A sysex7 message in two packets, cut within the second, is taken for complete. -/
example : UmpMessage.tryFrom [0x30160001, 0x02030405, 0x30310600, 0] =
      .ok (.sysex .s7, [0x30160001, 0x02030405, 0x30310600, 0]) ∧
    UmpKind.CutInLast [0x30160001, 0x02030405, 0x30310600, 0] 3 (.sysex .s7) ∧
    ¬ UmpKind.CutInLast [0x30160001, 0x02030405, 0x30310600, 0] 2 (.sysex .s7) := by
  exact ⟨by decide +kernel, ⟨by decide, by decide⟩, fun h => absurd h.2 (by decide)⟩

end Midi2
