import Verif.Lemmas.Gateway

/-!
# C74: a gateway between MIDI 1.0 and UMP

A stream of MIDI 1.0 bytes read with `BytesMessage`, passed on message by message with `into_ump`
and turned into bytes again with `into_bytes`; and the other way round.
-/

namespace Midi2

open Gateway

/-- The translation of one message. -/
theorem Gateway.toUmp_exactly (dbg : Bool) {m : BytesKind × List (BitVec 8)}
    (M : IsBytesMessage m.1 m.2) : (Blocked m → toUmp dbg m = .panic) ∧
    (¬ Blocked m → ∃ u, toUmp dbg m = .ok u ∧ (Same m u ∧ UmpMessage.tryFrom u.2 = .ok u ∧
      u.1.data u.2 = .ok u.2) ∧ toBytes u = .ok (some (m.1, cleared m))) := by
  obtain ⟨k, m⟩ := m
  cases k with
  | fixed d =>
    obtain ⟨h1, h2⟩ := toUmp_fixed (dbg := dbg) M
    refine ⟨h1, fun hb => ?_⟩
    obtain ⟨u, e1, e2, -, e3, e4, e5⟩ := h2 hb
    exact ⟨_, e1, ⟨e4, e2, e3⟩, e5⟩
  | sysex7 =>
    obtain ⟨h1, h2⟩ := toUmp_sysex (dbg := dbg) M
    refine ⟨h1, fun hb => ?_⟩
    obtain ⟨u, e1, e2, e3, e4, e5⟩ := h2 hb
    exact ⟨_, e1, ⟨e4, e2, e3⟩, e5⟩

/-- C74, bytes to UMP and back, for every stream of messages that can be read: the gateway panics if
one of them is `SongPositionPointer` or system exclusive with a byte that is no data byte.
Otherwise every message is passed on as the standard's packet for it, in group 0, and is accepted
as this message by `UmpMessage`; and turned back into bytes they are the same stream, without the
bits that have no meaning. -/
theorem C74_stream_exactly (dbg : Bool) (b : List (BitVec 8)) (ms : List (BytesKind × List (BitVec 8)))
    (h : readBytes b.length b = .ok ms) :
    ((∃ m ∈ ms, Blocked m) → passOn dbg b = .panic) ∧
    ((∀ m ∈ ms, ¬ Blocked m) → ∃ us, passOn dbg b = .ok us ∧
      Pairs (fun m u => Same m u ∧ UmpMessage.tryFrom u.2 = .ok u ∧ u.1.data u.2 = .ok u.2) ms us ∧
      passBack us = .ok (ms.map cleared).flatten) := by
  obtain ⟨-, hM⟩ := (C48_bytes_stream_exactly b ms b.length (Nat.le_refl _)).mp h
  have hp : passOn dbg b = each (toUmp dbg) ms := by
    unfold passOn
    rw [h]
    rfl
  rw [hp]
  constructor
  · rintro ⟨m, hm, hb⟩
    refine each_panic (fun a ha => ?_) ⟨m, hm, (toUmp_exactly dbg (hM m hm)).1 hb⟩
    by_cases hba : Blocked a
    · exact .inr ((toUmp_exactly dbg (hM a ha)).1 hba)
    · obtain ⟨u, e, -⟩ := (toUmp_exactly dbg (hM a ha)).2 hba
      exact .inl ⟨u, e⟩
  · intro hno
    obtain ⟨us, e1, e2⟩ := each_exists (f := toUmp dbg) (as := ms)
      (P := fun m u => (Same m u ∧ UmpMessage.tryFrom u.2 = .ok u ∧ u.1.data u.2 = .ok u.2) ∧
        toBytes u = .ok (some (m.1, cleared m)))
      fun m hm => (toUmp_exactly dbg (hM m hm)).2 (hno m hm)
    refine ⟨us, e1, e2.mono fun _ _ _ h => h.1, ?_⟩
    have : each toBytes us = .ok (ms.map fun m => some (m.1, cleared m)) := by
      clear e1 h hM hno hp
      induction e2 with
      | nil => rfl
      | cons h1 _ ih =>
        simp only [each, List.map_cons]
        rw [h1.2, Res.ok_bind, ih]
        rfl
    unfold passBack
    rw [this]
    simp only [Res.ok_bind]
    congr 2
    clear e2 e1 this h hM hno hp
    induction ms with
    | nil => rfl
    | cons m ms ih => simp

-- A note, system exclusive and a clock; the note has a stray bit in its velocity.
example : readBytes 8 [0x93, 60, 0xE4, 0xF0, 1, 2, 0xF7, 0xF8] =
      .ok [(.fixed Msg.cv1NoteOn, [0x93, 60, 0xE4]), (.sysex7, [0xF0, 1, 2, 0xF7]),
        (.fixed Msg.sysTimingClock, [0xF8])] ∧
    passOn true [0x93, 60, 0xE4, 0xF0, 1, 2, 0xF7, 0xF8] =
      .ok [(.fixed Msg.cv1NoteOn, [0x20933C64]), (.sysex .s7, [0x30020102, 0]),
        (.fixed Msg.sysTimingClock, [0x10F80000])] ∧
    passBack [(.fixed Msg.cv1NoteOn, [0x20933C64]), (.sysex .s7, [0x30020102, 0]),
        (.fixed Msg.sysTimingClock, [0x10F80000])] =
      .ok [0x93, 60, 100, 0xF0, 1, 2, 0xF7, 0xF8] := by
  decide +kernel

/-- Messages of the standard, three types aside, are messages for the library, have nothing to
clear and are not refused. -/
theorem Gateway.midi1_message {m : List (BitVec 8)} (hm : Midi1 m) (h1 : m.head? ≠ some 0xF1)
    (h2 : m.head? ≠ some 0xF2) (h6 : m.head? ≠ some 0xF6) :
    ∃ k, IsBytesMessage k m ∧ ¬ Blocked (k, m) ∧ cleared (k, m) = m ∧
      ∀ u, Same (k, m) u → u.1.data u.2 = .ok u.2 → Stands m u := by
  cases hm with
  | short x data lo hi n hn hlo hhi hlen hdata =>
    have n1 : x ≠ 0xF1 := fun e => h1 (by rw [e]; rfl)
    have n2 : x ≠ 0xF2 := fun e => h2 (by rw [e]; rfl)
    have n6 : x ≠ 0xF6 := fun e => h6 (by rw [e]; rfl)
    obtain ⟨k, e1, e2⟩ := C49_standard_length_partial x data lo hi n hn ⟨hlo, hhi⟩ hlen n1 n2 n6
    obtain ⟨lo', hi', he⟩ := C11_bytes_variant _ _ _ e1
    have M : IsBytesMessage k (x :: data) :=
      ⟨⟨lo', hi', he⟩, ((C11_bytes_dispatch he _ _).1.mp e1).1, e2⟩
    obtain ⟨y, tl, hy, hrange⟩ := (C11_bytes_dispatch he (x :: data) (x :: data)).2 M.accepted
    cases hy
    cases k with
    | sysex7 =>
      exfalso
      have : lo' = 0xF0 ∧ hi' = 0xF1 := by
        have : ∀ e ∈ bytesTable, e.1 = .sysex7 → e.2.1 = 0xF0 ∧ e.2.2 = 0xF1 := by decide +kernel
        exact this _ he rfl
      have hx : x.toNat = 0xF0 := by omega
      have : ∀ e ∈ midi1Length, ¬ (e.1 ≤ 0xF0 ∧ 0xF0 < e.2.1) := by decide
      exact this _ hn ⟨by omega, show 0xF0 < hi by omega⟩
    | fixed d =>
      obtain ⟨hd, -, hsz⟩ := bytes_fixed M
      -- the standard's length
      have hdb : n = 1 + Convert.dataBytes d.name := by
        have key : ∀ e ∈ bytesTable, ∀ s ∈ midi1Length, (match e.1 with
            | .sysex7 => true
            | .fixed d => decide (s.1 < e.2.2 ∧ e.2.1 < s.2.1 → ¬ (e.2.1 = 0xF1 ∨ e.2.1 = 0xF2 ∨ e.2.1 = 0xF6) →
                s.2.2 = 1 + Convert.dataBytes d.name)) = true := by decide +kernel
        have := of_decide_eq_true (key _ he _ hn)
        simp only at this
        refine this ⟨by omega, by omega⟩ ?_
        have hw : ∀ e ∈ bytesTable, (e.2.1 = 0xF1 → e.2.2 = 0xF2) ∧ (e.2.1 = 0xF2 → e.2.2 = 0xF3) ∧
            (e.2.1 = 0xF6 → e.2.2 = 0xF7) := by decide +kernel
        have hw := hw _ he
        simp only at hw
        have c1 : x.toNat ≠ 0xF1 := fun e => n1 (BitVec.eq_of_toNat_eq e)
        have c2 : x.toNat ≠ 0xF2 := fun e => n2 (BitVec.eq_of_toNat_eq e)
        have c6 : x.toNat ≠ 0xF6 := fun e => n6 (BitVec.eq_of_toNat_eq e)
        omega
      have hc : Convert.cleared d.name (x :: data) = x :: data := by
        unfold Convert.cleared
        refine List.ext_getElem? fun i => ?_
        rw [List.getElem?_mapIdx]
        cases i with
        | zero =>
          simp only [List.getElem?_cons_zero, Option.map_some]
          show some (x &&& BitVec.allOnes 8) = _
          rw [BitVec.and_allOnes]
        | succ i =>
          rw [List.getElem?_cons_succ]
          by_cases hi : i < data.length
          · rw [List.getElem?_eq_getElem hi]
            simp only [Option.map_some]
            have hb := hdata _ (List.getElem_mem hi)
            unfold Convert.byteMask
            rw [if_neg (by omega), if_pos (by omega)]
            congr 1
            apply BitVec.eq_of_toNat_eq
            rw [BitVec.toNat_and, show (0x7F : BitVec 8).toNat = 2 ^ 7 - 1 from rfl,
              Nat.and_two_pow_sub_one_eq_mod]
            exact Nat.mod_eq_of_lt hb
          · rw [List.getElem?_eq_none (by omega)]
            rfl
      refine ⟨.fixed d, M, ?_, hc, fun u hs _ => ?_⟩
      · rintro rfl
        have : ∀ e ∈ bytesTable, e.1 = .fixed Msg.sysSongPositionPointer →
          e.2.1 = 0xF2 ∧ e.2.2 = 0xF3 := by decide +kernel
        have := this _ he rfl
        simp only at this
        exact n2 (BitVec.eq_of_toNat_eq (show x.toNat = 0xF2 by omega))
      · obtain ⟨ku, u⟩ := u
        cases ku <;> try exact hs.elim
        rename_i d'
        obtain ⟨-, hw, -⟩ := hs
        have hx : x.toNat ≠ 0xF0 := by
          intro e
          have : ∀ e ∈ midi1Length, ¬ (e.1 ≤ 0xF0 ∧ 0xF0 < e.2.1) := by decide
          exact this _ hn ⟨by omega, show 0xF0 < hi by omega⟩
        unfold Stands
        rw [if_neg (by intro e; cases e; exact hx rfl)]
        simp only at hw
        rw [hc] at hw
        exact hw
  | sysex data hdata =>
    obtain ⟨l, rfl⟩ := septets_map hdata
    have hacc := sysexBytes_accepted l []
    rw [List.append_nil] at hacc
    have M : IsBytesMessage .sysex7 (sysexBytes l) :=
      ⟨⟨0xF0, 0xF1, by decide +kernel⟩, hacc, (holdsBytes_nil l).data⟩
    refine ⟨.sysex7, M, ?_, rfl, fun u hs hdat => ?_⟩
    · rintro ⟨x, hx, h⟩
      obtain ⟨p, hp, -, hp', -⟩ := bytes_sysex M
      have hpl : p = l.map (BitVec.setWidth 8) := by
        have : (0xF0 :: l.map (BitVec.setWidth 8) ++ [0xF7] : List (BitVec 8)) = 0xF0 :: p ++ [0xF7] := hp
        simpa using this.symm
      have hx : x ∈ p := by rw [← hp']; exact hx
      rw [hpl] at hx
      have := hdata x hx
      omega
    · obtain ⟨ku, u⟩ := u
      match ku, hs with
      | .sysex .s7, hs =>
        obtain ⟨l', hl', hh⟩ := hs
        have : l' = l := by
          have e := (holdsBytes_nil l).payload
          have hl' : Sxb.payloadList (sysexBytes l) = .ok l' := hl'
          rw [e] at hl'
          cases hl'
          rfl
        subst this
        have h0 : (0xF0 :: l'.map Sxb.e ++ [0xF7] : List (BitVec 8)).head? = some 0xF0 := rfl
        unfold Stands
        rw [if_pos h0]
        exact ⟨rfl, l', rfl, hh, hdat⟩

/-- C74 in the standard's terms, three message types aside: any sequence of MIDI 1.0 messages, as a
stream of bytes, is passed on message by message as the standard's packets in group 0, accepted by
`UmpMessage`, and comes back as the same bytes.  Missing are `TimeCode`, `SongPositionPointer` and
`TuneRequest`, see `C74_standard_violation`. -/
theorem C74_midi1_partial (dbg : Bool) (ms : List (List (BitVec 8))) (hms : ∀ m ∈ ms, Midi1 m)
    (h1 : ∀ m ∈ ms, m.head? ≠ some 0xF1) (h2 : ∀ m ∈ ms, m.head? ≠ some 0xF2)
    (h6 : ∀ m ∈ ms, m.head? ≠ some 0xF6) :
    ∃ us, passOn dbg ms.flatten = .ok us ∧
      Pairs (fun m u => Stands m u ∧ UmpMessage.tryFrom u.2 = .ok u) ms us ∧
      passBack us = .ok ms.flatten := by
  have hk : ∃ ks : List (BytesKind × List (BitVec 8)), ks.map Prod.snd = ms ∧ ∀ k ∈ ks,
      IsBytesMessage k.1 k.2 ∧ ¬ Blocked k ∧ cleared k = k.2 ∧
        ∀ u, Same k u → u.1.data u.2 = .ok u.2 → Stands k.2 u := by
    induction ms with
    | nil => exact ⟨[], rfl, fun _ h => nomatch h⟩
    | cons m ms ih =>
      obtain ⟨ks, e, hks⟩ := ih (fun m hm => hms m (List.mem_cons_of_mem _ hm))
        (fun m hm => h1 m (List.mem_cons_of_mem _ hm)) (fun m hm => h2 m (List.mem_cons_of_mem _ hm))
        (fun m hm => h6 m (List.mem_cons_of_mem _ hm))
      obtain ⟨k, hk⟩ := midi1_message (hms m List.mem_cons_self) (h1 m List.mem_cons_self)
        (h2 m List.mem_cons_self) (h6 m List.mem_cons_self)
      refine ⟨(k, m) :: ks, by simp [e], fun x hx => ?_⟩
      rcases List.mem_cons.mp hx with rfl | hx
      · exact hk
      · exact hks x hx
  obtain ⟨ks, rfl, hks⟩ := hk
  have hr := (C48_bytes_stream_exactly (ks.map Prod.snd).flatten ks _ (Nat.le_refl _)).mpr
    ⟨rfl, fun k hk => (hks k hk).1⟩
  obtain ⟨us, e1, e2, e3⟩ := (C74_stream_exactly dbg _ ks hr).2 fun k hk => (hks k hk).2.1
  refine ⟨us, e1, ?_, ?_⟩
  · clear e1 e3 hr hms h1 h2 h6
    induction e2 with
    | nil => exact .nil
    | cons h _ ih =>
      refine .cons ⟨(hks _ List.mem_cons_self).2.2.2 _ h.1 h.2.2, h.2.1⟩
        (ih fun k hk => hks k (List.mem_cons_of_mem _ hk))
  · rw [e3]
    congr 2
    exact List.map_congr_left fun k hk => (hks k hk).2.2.1

example : Midi1 [0x93, 60, 100] ∧ Midi1 [0xF0, 1, 2, 0xF7] ∧ Midi1 [0xC5, 7] ∧
    ([0x93, 60, 100] : List (BitVec 8)).head? ≠ some 0xF1 := by
  refine ⟨.short 0x93 [60, 100] 0x80 0xC0 3 (by decide) (by decide) (by decide) rfl (by decide),
    .sysex [1, 2] (by decide), .short 0xC5 [7] 0xC0 0xE0 2 (by decide) (by decide) (by decide) rfl
      (by decide), by decide⟩

/-- C74 is violated by the three.  A stream with `SongPositionPointer` is refused, or the gateway
panics; `TimeCode` and `TuneRequest` are refused at the end of a stream and swallow the clock behind
them; and `TuneRequest` comes back in two bytes. -/
theorem C74_standard_violation :
    Midi1 [0xF1, 0x35] ∧ Midi1 [0xF2, 5, 6] ∧ Midi1 [0xF6] ∧ Midi1 [0xF8] ∧
    passOn true [0xF1, 0x35] = .err .invalidData ∧
    passOn true ([0xF1, 0x35] ++ [0xF8]) = .ok [(.fixed Msg.sysTimeCode, [0x10F13500])] ∧
    passOn true ([0xF2, 5, 6] ++ [0xF8]) = .err .invalidData ∧
    passOn true [0xF2, 5] = .panic ∧
    passOn true [0xF6] = .err .invalidData ∧
    passOn true ([0xF6] ++ [0xF8]) = .ok [(.fixed Msg.sysTuneRequest, [0x10F60000])] ∧
    passBack [(.fixed Msg.sysTuneRequest, [0x10F60000])] = .ok [0xF6, 0] := by
  refine ⟨.short 0xF1 [0x35] 0xF1 0xF2 2 (by decide) (by decide) (by decide) rfl (by decide),
    .short 0xF2 [5, 6] 0xF2 0xF3 3 (by decide) (by decide) (by decide) rfl (by decide),
    .short 0xF6 [] 0xF6 0xF7 1 (by decide) (by decide) (by decide) rfl (by decide),
    .short 0xF8 [] 0xF8 0xF9 1 (by decide) (by decide) (by decide) rfl (by decide), ?_, ?_, ?_, ?_, ?_,
    ?_, ?_⟩
  all_goals decide +kernel

/-- C74, the other way: whole messages in UMP.  Turning them into bytes panics if one of them is
`SongPositionPointer`.  Otherwise the stream has the bytes of every message that MIDI 1.0 has too,
in order; and read and passed on again, the same messages come out, in group 0 and without the
bits that have no meaning. -/
theorem C74_ump_exactly (us : List (UmpKind × List (BitVec 32)))
    (hus : ∀ u ∈ us, UmpMessage.tryFrom u.2 = .ok u ∧ u.1.data u.2 = .ok u.2) :
    ((∃ u ∈ us, u.1 = .fixed Msg.sysSongPositionPointer) → passBack us = .panic) ∧
    ((∀ u ∈ us, u.1 ≠ .fixed Msg.sysSongPositionPointer) →
      ∃ ms, passBack us = .ok (ms.map Prod.snd).flatten ∧
        Pairs BytesOf (us.filter fun u => hasBytes u.1) ms ∧
        ∀ dbg, ∃ us', passOn dbg (ms.map Prod.snd).flatten = .ok us' ∧
          Pairs Again (us.filter fun u => hasBytes u.1) us') := by
  -- one message
  have key : ∀ u ∈ us, (u.1 = .fixed Msg.sysSongPositionPointer → toBytes u = .panic) ∧
      (u.1 ≠ .fixed Msg.sysSongPositionPointer →
        (hasBytes u.1 = false ∧ toBytes u = .ok none) ∨
        (hasBytes u.1 = true ∧ ∃ m, toBytes u = .ok (some m) ∧ BytesOf u m ∧
          IsBytesMessage m.1 m.2 ∧ ∀ dbg, ∃ u', toUmp dbg m = .ok u' ∧ Again u u')) := by
    rintro ⟨k, u⟩ hu
    obtain ⟨h1, h2⟩ := hus _ hu
    simp only at h1 h2
    obtain ⟨-, hacc, -⟩ := C10_ump_variant u u k h1
    have hcomp : k.Complete u := by
      refine Classical.byContradiction fun hc => ?_
      have := ((C06_ump_message_exactly u u k h1).2 hc).1
      have h2 : UmpMessage.data (k, u) = .ok u := h2
      rw [h2] at this
      cases this
    match k, hacc, h2, hcomp with
    | .fixed d, hacc, h2, _ =>
      by_cases hd : d ∈ Msg.hybridAll
      · obtain ⟨t1, t2⟩ := toBytes_fixed hd hacc h2
        refine ⟨fun e => ?_, fun e => .inr ⟨decide_eq_true hd, ?_⟩⟩
        · cases e
          exact t1 rfl
        · obtain ⟨m, f1, f2, f3, f4⟩ := t2 fun e' => e (by rw [e'])
          exact ⟨_, f1, f2, f3, fun dbg => ⟨_, f4 dbg, rfl⟩⟩
      · refine ⟨fun e => ?_, fun _ => .inl ⟨decide_eq_false hd, ?_⟩⟩
        · cases e
          exact absurd (by decide +kernel) hd
        · simp only [toBytes, if_neg hd]
    | .sysex .s7, hacc, h2, hcomp =>
      refine ⟨fun e => (nomatch e), fun _ => .inr ⟨rfl, ?_⟩⟩
      obtain ⟨m, f1, f2, f3, f4⟩ := toBytes_sysex hacc hcomp
      exact ⟨_, f1, f2, f3, f4⟩
    | .sysex .s8, _, _, _ => exact ⟨fun e => (nomatch e), fun _ => .inl ⟨rfl, rfl⟩⟩
    | .flexText _, _, _, _ => exact ⟨fun e => (nomatch e), fun _ => .inl ⟨rfl, rfl⟩⟩
    | .streamText _, _, _, _ => exact ⟨fun e => (nomatch e), fun _ => .inl ⟨rfl, rfl⟩⟩
  constructor
  · rintro ⟨u, hu, hs⟩
    unfold passBack
    rw [each_panic (fun a ha => ?_) ⟨u, hu, (key u hu).1 hs⟩]
    · rfl
    · by_cases hsa : a.1 = .fixed Msg.sysSongPositionPointer
      · exact .inr ((key a ha).1 hsa)
      · rcases (key a ha).2 hsa with ⟨-, e⟩ | ⟨-, m, e, -⟩
        · exact .inl ⟨_, e⟩
        · exact .inl ⟨_, e⟩
  · intro hno
    have main : ∃ os ms, each toBytes us = .ok os ∧ os.filterMap id = ms ∧
        Pairs (fun u m => BytesOf u m ∧ IsBytesMessage m.1 m.2 ∧
          ∀ dbg, ∃ u', toUmp dbg m = .ok u' ∧ Again u u') (us.filter fun u => hasBytes u.1) ms := by
      clear hus
      induction us with
      | nil => exact ⟨[], [], rfl, rfl, .nil⟩
      | cons u us ih =>
        obtain ⟨os, ms, i1, i2, i3⟩ := ih (fun a ha => key a (List.mem_cons_of_mem _ ha))
          (fun a ha => hno a (List.mem_cons_of_mem _ ha))
        rcases (key u List.mem_cons_self).2 (hno u List.mem_cons_self) with ⟨hb, e⟩ | ⟨hb, m, e, hm⟩
        · refine ⟨none :: os, ms, ?_, by simpa using i2, ?_⟩
          · simp only [each]
            rw [e, Res.ok_bind, i1]
            rfl
          · rw [List.filter_cons_of_neg (by simp [hb])]
            exact i3
        · refine ⟨some m :: os, m :: ms, ?_, by simpa using i2, ?_⟩
          · simp only [each]
            rw [e, Res.ok_bind, i1]
            rfl
          · rw [List.filter_cons_of_pos (by simp [hb])]
            exact .cons hm i3
    obtain ⟨os, ms, e1, e2, e3⟩ := main
    refine ⟨ms, ?_, e3.mono fun _ _ _ h => h.1, fun dbg => ?_⟩
    · unfold passBack
      rw [e1]
      simp only [Res.ok_bind]
      rw [e2]
      rfl
    · have hr := (C48_bytes_stream_exactly (ms.map Prod.snd).flatten ms _ (Nat.le_refl _)).mpr
        ⟨rfl, fun m hm => by obtain ⟨u, -, h⟩ := e3.right m hm; exact h.2.1⟩
      have hp : passOn dbg (ms.map Prod.snd).flatten = each (toUmp dbg) ms := by
        unfold passOn
        rw [hr]
        rfl
      rw [hp]
      clear hp hr e2 e1
      generalize us.filter (fun u => hasBytes u.1) = vs at e3
      induction e3 with
      | nil => exact ⟨[], rfl, .nil⟩
      | cons h _ ih =>
        obtain ⟨us', j1, j2⟩ := ih
        obtain ⟨u', a1, a2⟩ := h.2.2 dbg
        refine ⟨u' :: us', ?_, .cons a2 j2⟩
        simp only [each]
        rw [a1, Res.ok_bind, j1]
        rfl

-- A note in group 10, a MIDI 2.0 note, and system exclusive in two packets where one is enough.
example : passBack [(.fixed Msg.cv1NoteOn, [0x2A933C64]), (.fixed Msg.cv2NoteOn, [0x40933C00, 5]),
      (.sysex .s7, [0x35110100, 0, 0x35310200, 0])] = .ok [0x93, 60, 100, 0xF0, 1, 2, 0xF7] ∧
    passOn true [0x93, 60, 100, 0xF0, 1, 2, 0xF7] =
      .ok [(.fixed Msg.cv1NoteOn, [0x20933C64]), (.sysex .s7, [0x30020102, 0])] ∧
    UmpMessage.tryFrom [0x35110100, 0, 0x35310200, 0] =
      .ok (.sysex .s7, [0x35110100, 0, 0x35310200, 0]) ∧
    Sx.s7.data [0x35110100, 0, 0x35310200, 0] = .ok [0x35110100, 0, 0x35310200, 0] := by
  decide +kernel

/-- C74, the words of all messages in one slice: they can be told apart again if a system exclusive
message is the last one at most. -/
theorem C74_one_slice_partial (us : List (UmpKind × List (BitVec 32)))
    (hus : ∀ u ∈ us, UmpMessage.tryFrom u.2 = .ok u ∧ u.1.data u.2 = .ok u.2)
    (hb : ∀ u ∈ us, hasBytes u.1 = true)
    (hs : ∀ pre u post, us = pre ++ u :: post → u.1 = .sysex .s7 → post = []) :
    readUmp us.length (us.map Prod.snd).flatten = .ok us := by
  refine (C48_ump_stream_exactly us hus us.length (Nat.le_refl _)).1 fun pre u post e => ?_
  have hu := hb u (by rw [e]; simp)
  have hp := hs pre u post e
  obtain ⟨k, w⟩ := u
  match k, hu with
  | .fixed d, hu =>
    have hd : d ∈ Msg.hybridAll := of_decide_eq_true hu
    have : ∀ d ∈ Msg.hybridAll, d ∉ Msg.flexAll ∧ d ∉ Msg.streamAll := by decide +kernel
    exact ⟨fun h => absurd h (this d hd).1, fun h => absurd h (this d hd).2⟩
  | .sysex .s7, _ =>
    rw [hp rfl]
    refine ⟨?_, fun j hj => ?_⟩
    · simp [fieldAt]
    · have : (0 : Nat) < 2 * (j + 1) := by omega
      exact absurd hj (Nat.not_le.mpr this)

example : readUmp 3 ([0x20933C64] ++ [0x10F80000] ++ [0x30020102, 0]) =
    .ok [(.fixed Msg.cv1NoteOn, [0x20933C64]), (.fixed Msg.sysTimingClock, [0x10F80000]),
      (.sysex .s7, [0x30020102, 0])] := by decide +kernel

/-- C74, in one slice, is violated by system exclusive that is followed by system exclusive or, in
one of the channels 8 to 16, by a note. -/
theorem C74_one_slice_violation :
    passOn true ([0xF0, 1, 0xF7] ++ [0xF0, 2, 0xF7]) =
      .ok [(.sysex .s7, [0x30010100, 0]), (.sysex .s7, [0x30010200, 0])] ∧
    readUmp 2 ([0x30010100, 0] ++ [0x30010200, 0]) = .err .invalidData ∧
    passOn true ([0xF0, 1, 0xF7] ++ [0x99, 60, 100, 0xF8]) =
      .ok [(.sysex .s7, [0x30010100, 0]), (.fixed Msg.cv1NoteOn, [0x20993C64]),
        (.fixed Msg.sysTimingClock, [0x10F80000])] ∧
    readUmp 3 ([0x30010100, 0] ++ [0x20993C64] ++ [0x10F80000]) = .err .invalidData := by
  decide +kernel

end Midi2
