import Verif.Props.Ci
import Verif.Props.LinkGateway

/-!
# C79: discovery over a line of UMP
-/

namespace Midi2

open Rx Gateway

theorem Gateway.each_at {α β : Type} {f : α → Res β} : ∀ {as : List α} {bs : List β},
    each f as = .ok bs → ∀ {i : Nat} {a : α}, as[i]? = some a → ∃ b, f a = .ok b ∧ bs[i]? = some b
  | [], _, _, _, _, hi => nomatch hi
  | a :: as, bs, h, i, x, hi => by
    obtain ⟨b, h1, h⟩ := bind_inv (show (f a >>= fun b => each f as >>= fun bs => .ok (b :: bs)) = _
      from h)
    obtain ⟨bs', h2, h⟩ := bind_inv h
    cases h
    cases i with
    | zero => cases hi; exact ⟨b, h1, rfl⟩
    | succ i => exact each_at h2 hi

/-- A discovery query and nothing behind it is a MIDI 1.0 message. -/
theorem query_midi1 {v : BitVec 8} {b : Buf .bytes} (h : IsDiscoveryQuery v b)
    (hd : Ci.data b = .ok b) : ∃ l : List (BitVec 7), b = sysexBytes l := by
  obtain ⟨l, rest, n, -, -, hb⟩ := h.sysex
  have e : b = sysexBytes l ++ rest := by rw [hb]; simp [sysexBytes]
  refine ⟨l, ?_⟩
  have H : Ci.data (sysexBytes l ++ rest) = .ok (sysexBytes l) := (holdsBytes l rest).data
  rw [e] at hd
  rw [e]
  exact Res.ok.inj (hd.symm.trans H)

theorem midi1_sysex (l : List (BitVec 7)) : Midi1 (sysexBytes l) := by
  have := Midi1.sysex (l.map (·.setWidth 8)) (by
    intro y hy
    obtain ⟨x, -, rfl⟩ := List.mem_map.mp hy
    have := x.isLt
    rw [BitVec.toNat_setWidth]
    omega)
  simpa [sysexBytes] using this

/-- The types of MIDI 1.0 messages. -/
theorem midi1_kinds (ms : List (List (BitVec 8))) (hms : ∀ m ∈ ms, Midi1 m)
    (h1 : ∀ m ∈ ms, m.head? ≠ some 0xF1) (h2 : ∀ m ∈ ms, m.head? ≠ some 0xF2)
    (h6 : ∀ m ∈ ms, m.head? ≠ some 0xF6) :
    ∃ ks : List (BytesKind × List (BitVec 8)), ks.map Prod.snd = ms ∧
      ∀ k ∈ ks, BytesKind.Alone k ∧ ¬ Blocked k ∧ cleared k = k.2 := by
  induction ms with
  | nil => exact ⟨[], rfl, fun _ h => nomatch h⟩
  | cons m ms ih =>
    obtain ⟨ks, e, hks⟩ := ih (fun m hm => hms m (List.mem_cons_of_mem _ hm))
      (fun m hm => h1 m (List.mem_cons_of_mem _ hm)) (fun m hm => h2 m (List.mem_cons_of_mem _ hm))
      (fun m hm => h6 m (List.mem_cons_of_mem _ hm))
    obtain ⟨k, M, hb, hc, -⟩ := midi1_message (hms m List.mem_cons_self) (h1 m List.mem_cons_self)
      (h2 m List.mem_cons_self) (h6 m List.mem_cons_self)
    have F := M.follow []
    rw [List.append_nil] at F
    refine ⟨(k, m) :: ks, by simp [e], fun x hx => ?_⟩
    rcases List.mem_cons.mp hx with rfl | hx
    · exact ⟨⟨F.1, F.2.1⟩, hb, hc⟩
    · exact hks x hx

/-- C79: a discovery query travels.  It is sent as MIDI 1.0 among other messages (any but `TimeCode`,
`SongPositionPointer` and `TuneRequest`, see C74), the stream cut anywhere.  A gateway turns what it
reads into UMP and sends it on packet by packet, that stream cut anywhere too.  At the far end the
message in its place is a `Sysex7`, and `into_bytes` gives the query back byte by byte; and if all is
turned into a MIDI 1.0 stream again, cut anywhere, the query is read from it in its place.  So every
field has the value it had. -/
theorem C79_query_travels (dbg : Bool) {v : BitVec 8} {b : List (BitVec 8)}
    (hq : IsDiscoveryQuery v b) (hd : Ci.data b = .ok b) (before after : List (List (BitVec 8)))
    (hms : ∀ m ∈ before ++ after, Midi1 m ∧ m.head? ≠ some 0xF1 ∧ m.head? ≠ some 0xF2 ∧
      m.head? ≠ some 0xF6)
    (bs : List (List (BitVec 8))) (hbs : bs.flatten = (before ++ b :: after).flatten) :
    ∃ outs us ps, readBytePieces bs [] = .ok (outs, []) ∧ each (toUmp dbg) outs.flatten = .ok us ∧
      sendAll us = .ok ps ∧
      ∀ careful pieces h, pieces.flatten = ps.flatten → ∃ u back, line careful h pieces = .ok us ∧
        us[before.length]? = some (.sysex .s7, u) ∧ Sxb.fromUmp u = .ok b ∧
        passBack us = .ok back ∧ ∀ cuts, cuts.flatten = back →
          ∃ outs', readBytePieces cuts [] = .ok (outs', []) ∧
            outs'.flatten[before.length]? = some (.sysex7, b) ∧ Ci.tryFrom v b = .ok b := by
  obtain ⟨l, hl⟩ := query_midi1 hq hd
  have hall : ∀ m ∈ before ++ b :: after, Midi1 m ∧ m.head? ≠ some 0xF1 ∧ m.head? ≠ some 0xF2 ∧
      m.head? ≠ some 0xF6 := by
    intro m hm
    rcases List.mem_append.mp hm with hm | hm
    · exact hms m (List.mem_append_left _ hm)
    · rcases List.mem_cons.mp hm with rfl | hm
      · rw [hl]
        exact ⟨midi1_sysex l, by simp [sysexBytes], by simp [sysexBytes], by simp [sysexBytes]⟩
      · exact hms m (List.mem_append_right _ hm)
  obtain ⟨ks, hk, hks⟩ := midi1_kinds _ (fun m hm => (hall m hm).1) (fun m hm => (hall m hm).2.1)
    (fun m hm => (hall m hm).2.2.1) (fun m hm => (hall m hm).2.2.2)
  -- the query among the messages
  have hat : ks[before.length]? = some (.sysex7, b) := by
    have e : (ks.map Prod.snd)[before.length]? = some b := by
      rw [hk, List.getElem?_append_right (Nat.le_refl _), Nat.sub_self]
      rfl
    rw [List.getElem?_map] at e
    obtain ⟨x, e1, e2⟩ := Option.map_eq_some_iff.mp e
    have A := (hks x (List.mem_of_getElem? e1)).1.1
    rw [e2] at A
    have B : BytesMessage.tryFrom b = .ok (.sysex7, b) := by
      have C := sysexBytes_accepted l []
      rw [List.append_nil, ← hl] at C
      have h0 : b = 0xF0 :: ((l.map fun v => v.setWidth 8) ++ [0xF7]) := hl
      have h1 : at' b 0 = .ok 0xF0 := by rw [h0]; rfl
      have h2 : b.isEmpty = false := by rw [h0]; rfl
      unfold BytesMessage.tryFrom
      rw [h2, h1]
      show (Sxb.tryFrom b >>= fun b => .ok (BytesKind.sysex7, b)) = _
      rw [C]
      rfl
    rw [e1]
    exact congrArg some (Res.ok.inj (A.symm.trans B))
  obtain ⟨outs, o1, o2⟩ := C76_bytes_sent ks (fun k h => (hks k h).1) bs (by rw [hbs, hk])
  have hbs' : bs.flatten <+: (ks.map Prod.snd).flatten := by
    rw [hbs, hk]; exact List.prefix_refl _
  obtain ⟨outs', rest, n, us, ps, a1, a2, a3, a4, a5, a6, a7, a8⟩ :=
    C78_gateway_exactly dbg ks (fun k hk => (hks k hk).1) (fun k hk => (hks k hk).2.1) bs hbs'
  rw [o1] at a1
  cases a1
  refine ⟨outs, us, ps, o1, a5, a7, fun careful pieces h hp => ?_⟩
  obtain ⟨t, A, b1, b2⟩ := a8 careful pieces h (by rw [hp]; exact List.prefix_refl _)
  have B : Arrived us pieces.flatten us := ⟨[], ps, by rw [List.append_nil], a7,
    by rw [hp]; exact List.prefix_refl _, fun m u' e => nomatch e⟩
  cases C78_arrived_unique us t us _ A B
  rw [o2] at a5
  rw [o2] at a6
  obtain ⟨⟨k, u⟩, u1, u2⟩ := each_at a5 hat
  obtain ⟨u', v1, v2⟩ := bind_inv (show (Sxb.fromBytes dbg b >>= fun u => .ok (UmpKind.sysex .s7, u)) = _
    from u1)
  cases v2
  obtain ⟨u', w1, w2⟩ := C25_bytes_roundtrip dbg b (by
    have C := sysexBytes_accepted l []
    rw [List.append_nil, ← hl] at C
    exact C) l (by rw [hl]; have := (holdsBytes l []).payload; rw [List.append_nil] at this; exact this)
  rw [v1] at w1
  cases w1
  have hcl : ks.map cleared = ks.map Prod.snd := List.map_congr_left fun k hk => (hks k hk).2.2
  rw [List.take_of_length_le (Nat.le_of_eq a6.symm), hcl] at b2
  refine ⟨u, _, b1, u2, w2.trans hd, b2, fun cuts hc => ?_⟩
  obtain ⟨outs', c1, c2⟩ := C76_bytes_sent ks (fun k h => (hks k h).1) cuts hc
  exact ⟨outs', c1, by rw [c2]; exact hat, query_accepted hq⟩

/-- C79: so a query made by `new()` and any setter calls is read at the far end, through either way,
with the values last given to its fields and defaults in the others. -/
theorem C79_built_query_travels (dbg : Bool) {v : BitVec 8} {n : Nat} (hv : ciSize v = some n)
    (cs : List CiCall) (hc : ∀ c ∈ cs, c.1.version.toNat ≤ v.toNat)
    (before after : List (List (BitVec 8)))
    (hms : ∀ m ∈ before ++ after, Midi1 m ∧ m.head? ≠ some 0xF1 ∧ m.head? ≠ some 0xF2 ∧
      m.head? ≠ some 0xF6) :
    ∃ b, (Ci.newVec v >>= CiCall.run cs) = .ok b ∧
      ∀ bs : List (List (BitVec 8)), bs.flatten = (before ++ b :: after).flatten →
      ∃ outs us ps, readBytePieces bs [] = .ok (outs, []) ∧ each (toUmp dbg) outs.flatten = .ok us ∧
        sendAll us = .ok ps ∧
        ∀ careful pieces h, pieces.flatten = ps.flatten → ∃ got u b', line careful h pieces = .ok got ∧
          got[before.length]? = some (.sysex .s7, u) ∧ Sxb.fromUmp u = .ok b' ∧
          Ci.tryFrom v b' = .ok b' ∧
          (∀ f : CiField, f.version.toNat ≤ v.toNat →
            Ci.get f b' = .ok (CiCall.values cs CiField.default f)) ∧
          ∃ back, passBack got = .ok back ∧ ∀ cuts, cuts.flatten = back →
            ∃ outs', readBytePieces cuts [] = .ok (outs', []) ∧
              outs'.flatten[before.length]? = some (.sysex7, b') := by
  obtain ⟨q1, -, q3, q4⟩ := C43_default_accepted hv []
  rw [List.append_nil] at q1 q3 q4
  obtain ⟨b, d, d', e1, e2, e3, e4, e5, e6, e7⟩ := C43_history cs q1 hc CiField.default q4
  rw [q3] at e4
  cases e4
  rw [List.drop_length] at e7
  obtain ⟨-, -, -, -, ⟨d'', w1, w2, -⟩, -⟩ := C43_getters_partial e2
  rw [e5] at w1
  cases w1
  have hd : d' = b := by
    have h1 : b.length ≤ d'.length := by
      have := congrArg List.length e7
      rw [List.length_drop] at this
      rw [e6]
      simp only [List.length_nil] at this
      omega
    exact w2.eq_of_length_le h1
  rw [hd] at e5
  refine ⟨b, by rw [(C43_new hv [] 0).2.1]; exact e1, fun bs hbs => ?_⟩
  obtain ⟨outs, us, ps, a1, a2, a3, a4⟩ := C79_query_travels dbg e2 e5 before after hms bs hbs
  refine ⟨outs, us, ps, a1, a2, a3, fun careful pieces h hp => ?_⟩
  obtain ⟨u, back, b1, b2, b3, b4, b5⟩ := a4 careful pieces h hp
  refine ⟨us, u, b, b1, b2, b3, query_accepted e2, e3, back, b4, fun cuts hc => ?_⟩
  obtain ⟨outs', c1, c2, -⟩ := b5 cuts hc
  exact ⟨outs', c1, c2⟩

-- A note, the query of version 2 of `ciSample`, a clock.
example : (∀ m ∈ [[0x93, 60, 100]] ++ [[0xF8]], Midi1 m ∧ m.head? ≠ some 0xF1 ∧ m.head? ≠ some 0xF2 ∧
      m.head? ≠ some 0xF6) ∧ Ci.data ciSample = .ok ciSample ∧ IsDiscoveryQuery 2 ciSample := by
  refine ⟨fun m hm => ?_, by decide +kernel, ciSample_query⟩
  simp only [List.cons_append, List.nil_append, List.mem_cons, List.not_mem_nil, or_false] at hm
  rcases hm with rfl | rfl
  · exact ⟨.short 0x93 [60, 100] 0x80 0xC0 3 (by decide) (by decide) (by decide) rfl (by decide),
      by decide, by decide, by decide⟩
  · exact ⟨.short 0xF8 [] 0xF8 0xF9 1 (by decide) (by decide) (by decide) rfl (by decide),
      by decide, by decide, by decide⟩

example : ∃ b u, (Ci.newVec 1 >>= CiCall.run [⟨.source, (0x0ABCDEF : BitVec 28)⟩,
      ⟨.deviceFamily, (300 : BitVec 14)⟩]) = .ok b ∧
    toUmp true (.sysex7, b) = .ok (.sysex .s7, u) ∧ u.length = 10 ∧ u.take 2 = [0x30167E7F, 0x0D70016F] ∧
    line false (fun _ => []) [u.take 3, u.drop 3] = .ok [(.sysex .s7, u)] ∧ Sxb.fromUmp u = .ok b ∧
    Ci.get .source b = .ok (0x0ABCDEF : BitVec 28) ∧ Ci.get .deviceFamily b = .ok (300 : BitVec 14) := by
  refine ⟨[0xF0, 0x7E, 0x7F, 0x0D, 0x70, 1, 0x6F, 0x1B, 0x2F, 5, 0x7F, 0x7F, 0x7F, 0x7F, 0, 0, 0, 0x2C,
    2, 0, 0, 0, 0, 0, 0, 0, 0, 0, 0, 0, 0xF7],
    [0x30167E7F, 0x0D70016F, 0x30261B2F, 0x057F7F7F, 0x30267F00, 0x00002C02, 0x30260000, 0, 0x30350000,
      0], ?_⟩
  decide +kernel

end Midi2
