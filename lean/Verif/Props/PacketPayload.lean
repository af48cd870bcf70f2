import Verif.Props.Packet

/-!
# C34: the payload iterators of sysex packets, exactly
-/

namespace Midi2

namespace Packet

/-- `len()` of a sysex7 packet that is not full panics after an `nth` past the end. -/
theorem Frame.run7_over {dbg : Bool} {p : Buf .ump} {s : Nat} (F : Frame dbg .s7 p s) (hs : s ≠ 6) :
    ∀ (cs : List ItCall) (i : Nat), i ≤ s → ¬ ItCall.NoOvershoot cs ((payloadOf .s7 p s).drop i) →
      ItCall.packetExecAll dbg true .s7 p cs i = .panic
  | [], _, _, h => absurd trivial h
  | .next :: cs, i, hi, h => by
    obtain ⟨i', e1, e2, e3⟩ := F.next i
    have ih := F.run7_over hs cs i' (e3 hi) (by
      rw [e2]
      intro h'
      exact h ⟨fun n hn => (by cases hn), h'⟩)
    unfold ItCall.packetExecAll
    simp only [e1, Res.ok_bind, ItCall.packetLen, if_true, F.len (e3 hi), ih]
    rfl
  | .nth n :: cs, i, hi, h => by
    by_cases hn : n ≤ ((payloadOf .s7 p s).drop i).length
    · obtain ⟨i', e1, e2, e3⟩ := F.nth7 n i
      have hi' := e3 hi (.inr hn)
      have ih := F.run7_over hs cs i' hi' (by
        rw [e2]
        intro h'
        exact h ⟨fun m hm => (by cases hm; exact hn), h'⟩)
      unfold ItCall.packetExecAll
      simp only [e1, Res.ok_bind, ItCall.packetLen, if_true, F.len hi', ih]
      rfl
    · rw [List.length_drop, length_payloadOf] at hn
      have hsm : s ≤ 6 := F.small
      have e1 : Packet.nth dbg .s7 p n i = .ok (none, min (i + n) 6) := by
        unfold Packet.nth
        rw [F.size, Res.ok_bind, if_pos (by omega)]
        rfl
      have e2 : Packet.len dbg .s7 p (min (i + n) 6) = .panic := by
        unfold Packet.len usub
        rw [F.size, Res.ok_bind, if_neg (by omega)]
      unfold ItCall.packetExecAll
      simp only [e1, Res.ok_bind, ItCall.packetLen, if_true, e2]
      rfl

/-- A packet that declares `L.length` bytes, of which some may not be there. -/
structure Declares (dbg : Bool) (p : Buf .ump) (L : List (Option (BitVec 8))) : Prop where
  size : payloadSize dbg .s8 p = .ok L.length
  small : L.length ≤ 14
  value : ∀ i < L.length, payloadValue .s8 p i = match L[i]? with
    | some (some v) => .ok v
    | _ => .panic

theorem Declares.run {dbg : Bool} {p : Buf .ump} {L : List (Option (BitVec 8))} (F : Declares dbg p L)
    {wl : Bool} : ∀ (cs : List ItCall) (i : Nat), (wl = true → i ≤ L.length) →
      ItCall.packetExecAll dbg wl .s8 p cs i =
        match ItCall.stutterAll wl cs (L.drop i) with
        | some r => .ok r
        | none => .panic
  | [], _, _ => rfl
  | .next :: cs, i, hi => by
    unfold ItCall.packetExecAll
    have hlen : ∀ j, (wl = true → j ≤ L.length) → ItCall.packetLen dbg wl .s8 p j =
        .ok (if wl then some (L.drop j).length else none) := by
      intro j hj
      unfold ItCall.packetLen
      cases wl with
      | false => rfl
      | true =>
        unfold Packet.len usub
        rw [F.size, if_pos rfl, if_pos rfl, Res.ok_bind, if_pos (hj rfl), List.length_drop]
        rfl
    by_cases h : i ≥ L.length
    · have e1 : Packet.next dbg .s8 p i = .ok (none, i) := by
        unfold Packet.next
        rw [F.size, Res.ok_bind, if_pos h]; rfl
      have hd : L.drop i = [] := List.drop_of_length_le h
      have ih := F.run cs i hi
      have hl := hlen i hi
      rw [hd] at ih hl
      simp only [e1, Res.ok_bind, hl, ih, hd, ItCall.stutterAll]
      cases ItCall.stutterAll wl cs [] <;> rfl
    · have hlt : i < L.length := by omega
      have hv := F.value i hlt
      have hd : L.drop i = L[i] :: L.drop (i + 1) := List.drop_eq_getElem_cons hlt
      rw [List.getElem?_eq_getElem hlt] at hv
      unfold Packet.next
      rw [F.size]
      simp only [Res.ok_bind]
      rw [if_neg h, hv, hd]
      cases hx : L[i] with
      | none => rfl
      | some v =>
        have ih := F.run (wl := wl) cs (i + 1) (fun _ => hlt)
        have hl := hlen (i + 1) (fun _ => hlt)
        simp only [Res.ok_bind, Res.pure_eq, hl, ih, ItCall.stutterAll]
        cases ItCall.stutterAll wl cs (L.drop (i + 1)) <;> rfl
  | .nth n :: cs, i, hi => by
    unfold ItCall.packetExecAll
    have hlen : ∀ j, (wl = true → j ≤ L.length) → ItCall.packetLen dbg wl .s8 p j =
        .ok (if wl then some (L.drop j).length else none) := by
      intro j hj
      unfold ItCall.packetLen
      cases wl with
      | false => rfl
      | true =>
        unfold Packet.len usub
        rw [F.size, if_pos rfl, if_pos rfl, Res.ok_bind, if_pos (hj rfl), List.length_drop]
        rfl
    unfold ItCall.stutterAll
    by_cases h : i + n ≥ L.length
    · have e1 : Packet.nth dbg .s8 p n i = .ok (none, i + n) := by
        unfold Packet.nth
        rw [F.size, Res.ok_bind, if_pos h]; rfl
      have hd : (L.drop i).drop n = [] := by
        rw [List.drop_drop]; exact List.drop_of_length_le h
      have hd' : L.drop (i + n) = [] := List.drop_of_length_le h
      simp only [e1, Res.ok_bind]
      by_cases ho : wl = true ∧ (L.drop i).length < n
      · rw [if_pos (by simp only [Bool.and_eq_true, decide_eq_true_eq]; exact ho)]
        obtain ⟨rfl, ho⟩ := ho
        rw [List.length_drop] at ho
        have e2 : Packet.len dbg .s8 p (i + n) = .panic := by
          unfold Packet.len usub
          rw [F.size, Res.ok_bind, if_neg (by omega)]
        simp only [ItCall.packetLen, if_true, e2]
        rfl
      · rw [if_neg (by simp only [Bool.and_eq_true, decide_eq_true_eq]; exact ho), hd]
        have hj : wl = true → i + n ≤ L.length := by
          intro hw
          have h1 : ¬ (L.drop i).length < n := fun h => ho ⟨hw, h⟩
          rw [List.length_drop] at h1
          have := hi hw
          omega
        have ih := F.run cs (i + n) hj
        have hl := hlen (i + n) hj
        rw [hd'] at ih hl
        simp only [Res.ok_bind, hl, ih]
        cases ItCall.stutterAll wl cs [] <;> rfl
    · have hlt : i + n < L.length := by omega
      have hv := F.value (i + n) hlt
      have hd : (L.drop i).drop n = L[i + n] :: L.drop (i + n + 1) := by
        rw [List.drop_drop]; exact List.drop_eq_getElem_cons hlt
      have hd' : L.drop (i + n) = L[i + n] :: L.drop (i + n + 1) := List.drop_eq_getElem_cons hlt
      rw [List.getElem?_eq_getElem hlt] at hv
      rw [if_neg (by simp only [Bool.and_eq_true, decide_eq_true_eq, List.length_drop]; omega), hd]
      unfold Packet.nth
      rw [F.size]
      simp only [Res.ok_bind]
      rw [if_neg h, hv]
      cases hx : L[i + n] with
      | none => rfl
      | some v =>
        rw [hx] at hd'
        have h13 : min (i + n) 13 = i + n := by
          rcases Nat.lt_or_ge (i + n) 14 with h | h
          · omega
          · have := F.small; omega
        have ih := F.run (wl := wl) cs (i + n) (fun _ => by omega)
        have hl := hlen (i + n) (fun _ => by omega)
        rw [hd'] at ih hl
        simp only [Res.ok_bind, Res.pure_eq, h13, hl, ih]
        cases ItCall.stutterAll wl cs (some v :: L.drop (i + n + 1)) <;> rfl

end Packet

/-- C34, exactly, sysex7: `len()` after every call of any sequence of `next` and `nth` on the payload of
an accepted packet is right if the packet is full or no `nth` goes past the item after the last, and
panics otherwise. -/
theorem C34_sysex7_payload_exactly (dbg : Bool) (b p : Buf .ump)
    (h : PacketKind.sysex7.tryFrom b = .ok p) :
    ∃ s l, fieldAt b 0 12 4 = some s ∧ l.map BitVec.toNat = sysex7Layout.packetBytes p 0 s ∧
      ∀ cs : List ItCall,
        (s = 6 ∨ ItCall.NoOvershoot cs l →
          ItCall.packetExecAll dbg true .s7 p cs 0 = .ok (ItCall.listExecAll true cs l)) ∧
        (¬ (s = 6 ∨ ItCall.NoOvershoot cs l) →
          ItCall.packetExecAll dbg true .s7 p cs 0 = .panic) := by
  obtain ⟨hA, hp, w, tb, tp, rfl, rfl⟩ := accepted_packet h
  obtain ⟨s, h1, h2⟩ := hA.size rfl
  rw [fieldAt_cons] at h1
  have h1 : field w 12 4 = s := Option.some.inj h1
  have F : Packet.Frame dbg .s7 (w :: tp) s := by
    refine ⟨?_, ?_, h2⟩
    · rw [hp]
      have := hA.len
      simp only [List.length_take, List.length_append, List.length_replicate]
      show min 2 (_ + 2) = 2
      omega
    · show (usub (U32.nibble w 3).toNat 0 >>= fun n =>
        if dbg && decide (n > 6) then Res.panic else pure n) = _
      rw [Packet.size_nibble, h1]
      show (if dbg && decide (s > 6) then Res.panic else pure s) = _
      rw [if_neg (by simp; omega)]; rfl
  refine ⟨s, Packet.payloadOf .s7 (w :: tp) s, by rw [fieldAt_cons, h1], F.bytes, fun cs => ⟨fun hc => ?_, fun hc => ?_⟩⟩
  · exact F.run7 cs 0 (fun _ => ⟨Nat.zero_le _, hc⟩)
  · exact F.run7_over (fun h => hc (.inl h)) cs 0 (Nat.zero_le _) (fun h => hc (.inr h))

example : ItCall.packetExecAll true true .s7 [0x30030102, 0x03000000] [.next, .nth 3] 0 = .panic ∧
    ItCall.packetExecAll true true .s7 [0x30030102, 0x03000000] [.next, .nth 2, .next] 0 =
      .ok [(some 1, some 2), (none, some 0), (none, some 0)] := by decide +kernel

/-- C34, exactly, sysex8: on the payload of an accepted packet with size field `n`, any sequence of
`next` and `nth`, with `len()` asked for after every call or not.  If `n = 0`, or `n = 15` with debug
assertions, the first call panics.  Otherwise the calls return what `ItCall.stutterAll` says of the `n - 1`
bytes declared, of which a fourteenth is not there. -/
theorem C34_sysex8_payload_exactly (dbg : Bool) (b p : Buf .ump)
    (h : PacketKind.sysex8.tryFrom b = .ok p) :
    ∃ n, fieldAt b 0 12 4 = some n ∧
      (n = 0 ∨ (n = 15 ∧ dbg = true) → ∀ wl c cs, ItCall.packetExecAll dbg wl .s8 p (c :: cs) 0 = .panic ∧
        Packet.len dbg .s8 p 0 = .panic) ∧
      (¬ (n = 0 ∨ (n = 15 ∧ dbg = true)) → ∃ l : List (BitVec 8),
        l.map BitVec.toNat = sysex8Layout.packetBytes p 0 (min (n - 1) 13) ∧
        Packet.len dbg .s8 p 0 = .ok (n - 1) ∧
        ∀ wl cs, ItCall.packetExecAll dbg wl .s8 p cs 0 =
          match ItCall.stutterAll wl cs (l.map some ++ if n = 15 then [none] else []) with
          | some r => .ok r
          | none => .panic) := by
  obtain ⟨hA, hp, w, tb, tp, rfl, rfl⟩ := accepted_packet h
  obtain ⟨n, hn⟩ : ∃ n, field w 12 4 = n := ⟨_, rfl⟩
  have hn16 : n < 16 := by rw [← hn]; exact field_lt w 12 4
  have hwords : (w :: tp).length = 4 := by
    rw [hp]
    have := hA.len
    simp only [List.length_take, List.length_append, List.length_replicate]
    show min 4 (_ + 4) = 4
    omega
  have hsize : Packet.payloadSize dbg .s8 (w :: tp) =
      if n = 0 ∨ (n = 15 ∧ dbg = true) then .panic else .ok (n - 1) := by
    show (usub (U32.nibble w 3).toNat 1 >>= fun n =>
        if dbg && decide (n > 13) then Res.panic else pure n) = _
    rw [Packet.size_nibble, hn]
    unfold usub
    by_cases h0 : 1 ≤ n
    · rw [if_pos h0]
      show (if dbg && decide (n - 1 > 13) then Res.panic else pure (n - 1)) = _
      cases dbg with
      | false => simp; omega
      | true =>
        by_cases h15 : n = 15
        · subst h15; simp
        · rw [if_neg (by simp; omega), if_neg (by simp; omega)]; rfl
    · rw [if_neg h0, if_pos (.inl (by omega))]; rfl
  refine ⟨n, by rw [fieldAt_cons, hn], fun hbad wl c cs => ?_, fun hgood => ?_⟩
  · rw [if_pos hbad] at hsize
    refine ⟨?_, by unfold Packet.len; rw [hsize]; rfl⟩
    cases c with
    | next =>
      have : Packet.next dbg .s8 (w :: tp) 0 = .panic := by unfold Packet.next; rw [hsize]; rfl
      simp only [ItCall.packetExecAll, this]
      rfl
    | nth j =>
      have : Packet.nth dbg .s8 (w :: tp) j 0 = .panic := by unfold Packet.nth; rw [hsize]; rfl
      simp only [ItCall.packetExecAll, this]
      rfl
  · rw [if_neg hgood] at hsize
    have hlenl : (Packet.payloadOf .s8 (w :: tp) (min (n - 1) 13)).length = min (n - 1) 13 :=
      Packet.length_payloadOf _ _ _
    have hval : ∀ i < 13, Packet.payloadValue .s8 (w :: tp) i =
        .ok (Sx.get .s8 ((w :: tp).getD ((i + 3) / 4) 0) ((i + 3) % 4)) := by
      intro i hi
      have hlt : (i + 3) / 4 < (w :: tp).length := by rw [hwords]; omega
      unfold Packet.payloadValue
      show (at' (w :: tp) ((i + 3) / 4) >>= _) = _
      rw [at'_ok hlt, Res.ok_bind, List.getD_eq_getElem?_getD, List.getElem?_eq_getElem hlt]
      rfl
    have hval' : ∀ i < min (n - 1) 13, Packet.payloadValue .s8 (w :: tp) i =
        .ok ((Packet.payloadOf .s8 (w :: tp) (min (n - 1) 13)).getD i 0) := by
      intro i hi
      rw [hval i (by omega)]
      unfold Packet.payloadOf
      congr 1
      rw [List.getD_eq_getElem?_getD (l := List.map _ _), List.getElem?_map, List.getElem?_range hi]
      rfl
    refine ⟨Packet.payloadOf .s8 (w :: tp) (min (n - 1) 13), ?_, ?_, fun wl cs => ?_⟩
    · exact Packet.bytes_of (k := .s8) hwords (by show min (n - 1) 13 ≤ 13; omega)
    · unfold Packet.len
      rw [hsize, Res.ok_bind]
      unfold usub
      rw [if_pos (Nat.zero_le _)]; rfl
    · have F : Packet.Declares dbg (w :: tp)
          ((Packet.payloadOf .s8 (w :: tp) (min (n - 1) 13)).map some ++ if n = 15 then [none] else []) := by
        have hl : ((Packet.payloadOf .s8 (w :: tp) (min (n - 1) 13)).map some ++
            if n = 15 then [none] else []).length = n - 1 := by
          rw [List.length_append, List.length_map, hlenl]
          split <;> simp <;> omega
        refine ⟨by rw [hl]; exact hsize, by rw [hl]; omega, fun i hi => ?_⟩
        rw [hl] at hi
        by_cases h13 : i < min (n - 1) 13
        · rw [hval' i h13, List.getElem?_append_left (by rw [List.length_map, hlenl]; exact h13),
            List.getElem?_map, List.getElem?_eq_getElem (by rw [hlenl]; exact h13),
            List.getD_eq_getElem?_getD, List.getElem?_eq_getElem (by rw [hlenl]; exact h13)]
          rfl
        · have hi13 : i = 13 := by omega
          subst hi13
          rw [if_pos (by omega), List.getElem?_append_right (by rw [List.length_map, hlenl]; omega),
            List.length_map, hlenl, show 13 - min (n - 1) 13 = 0 by omega]
          unfold Packet.payloadValue
          show (at' (w :: tp) 4 >>= _) = _
          unfold at'
          rw [List.getElem?_eq_none (by omega)]
          rfl
      exact F.run cs 0 (fun _ => Nat.zero_le _)

-- `nth` stays where it is; the fourteenth byte of a packet with size field 15 panics.
example : ItCall.stutterAll true [.nth 1, .next, .next, .nth 0] ([1, 2, 3].map some : List (Option (BitVec 8))) =
      some [(some 2, some 2), (some 2, some 1), (some 3, some 0), (none, some 0)] ∧
    ItCall.packetExecAll true true .s8 [0x50040001, 0x02030000, 0, 0] [.nth 1, .next, .next, .nth 0] 0 =
      .ok [(some 2, some 2), (some 2, some 1), (some 3, some 0), (none, some 0)] ∧
    PacketKind.sysex8.tryFrom [0x500F0001, 0x02030405, 0x06070809, 0x0A0B0C0D] =
      .ok [0x500F0001, 0x02030405, 0x06070809, 0x0A0B0C0D] ∧
    ItCall.packetExecAll false true .s8 [0x500F0001, 0x02030405, 0x06070809, 0x0A0B0C0D] [.nth 12, .next] 0 =
      .ok [(some 13, some 2), (some 13, some 1)] ∧
    ItCall.packetExecAll false true .s8 [0x500F0001, 0x02030405, 0x06070809, 0x0A0B0C0D] [.nth 13] 0 =
      .panic := by decide +kernel

end Midi2
