import Verif.Props.Reparse

/-!
# C48, C49 over bytes: exactly what is read back
-/

namespace Midi2

theorem spp_accepts (y : BitVec 8) (tl : Buf .bytes) :
    Msg.sysSongPositionPointer.tryFrom .bytes (0xF2#8 :: y :: tl) = .ok (0xF2#8 :: y :: tl) := rfl

/-- Parsing of a fixed size message over bytes is not affected by what follows. -/
theorem fixed_bytes_follow {d : MsgDesc} (hd : d ∈ Msg.hybridAll) {b : Buf .bytes}
    (h : d.tryFrom .bytes b = .ok b) (s : Buf .bytes) :
    d.tryFrom .bytes (b ++ s) = .ok (b ++ s) ∧ d.data .bytes (b ++ s) = d.data .bytes b := by
  have hl : d.minSize .bytes ≤ b.length := ((tryFrom_iff d .bytes b).mp h).1
  by_cases hn : d.name = "system_common::SongPositionPointer"
  · have hname : ∀ d ∈ Msg.hybridAll, d.name = "system_common::SongPositionPointer" →
        d = Msg.sysSongPositionPointer := by decide +kernel
    cases hname d hd hn
    have he : (BytesKind.fixed Msg.sysSongPositionPointer, 0xF2, 0xF3) ∈ bytesTable := by
      simp [bytesTable]
    obtain ⟨x, tl, rfl, h1, h2⟩ := (C11_bytes_dispatch he b b).2 h
    have hx : x = 0xF2#8 := BitVec.eq_of_toNat_eq (by show x.toNat = 0xF2; omega)
    subst hx
    cases tl with
    | nil => exact absurd hl (by decide)
    | cons y tl => exact ⟨rfl, rfl⟩
  · obtain ⟨a1, _, a3, _⟩ := C12_bytes_suffix hd b s hl (fun h => absurd h hn)
    exact ⟨a1.mpr h, a3⟩

/-- A message of the byte stream: a slice which a type accepts and which is all of its
`data()`. -/
structure IsBytesMessage (k : BytesKind) (m : List (BitVec 8)) : Prop where
  known : ∃ lo hi, (k, lo, hi) ∈ bytesTable
  accepted : k.tryFrom m = .ok m
  whole : k.data m = .ok m

theorem IsBytesMessage.follow {k : BytesKind} {m : List (BitVec 8)} (M : IsBytesMessage k m)
    (s : List (BitVec 8)) :
    BytesMessage.tryFrom (m ++ s) = .ok (k, m ++ s) ∧ k.data (m ++ s) = .ok m ∧ m ≠ [] := by
  obtain ⟨lo, hi, he⟩ := M.known
  obtain ⟨x, tl, hb, _⟩ := (C11_bytes_dispatch he m m).2 M.accepted
  have key : k.tryFrom (m ++ s) = .ok (m ++ s) ∧ k.data (m ++ s) = .ok m := by
    have h1 := M.accepted
    have h2 := M.whole
    cases k with
    | fixed d =>
      have hd := (bytes_table_demands _ he d rfl).1
      obtain ⟨a1, a2⟩ := fixed_bytes_follow hd h1 s
      exact ⟨a1, by show d.data .bytes _ = _; rw [a2]; exact h2⟩
    | sysex7 =>
      obtain ⟨a1, a2, _⟩ := C12_sysex7_bytes_suffix m s h1
      exact ⟨a1, by show Sxb.data _ = _; rw [a2]; exact h2⟩
  exact ⟨(C11_bytes_dispatch he _ _).1.mpr ⟨key.1, rfl⟩, key.2, by rw [hb]; simp⟩

/-- C48 over bytes, for every message type, system exclusive included: any sequence of
messages is read back message by message. -/
theorem C48_bytes_stream (ms : List (BytesKind × Buf .bytes))
    (hms : ∀ m ∈ ms, IsBytesMessage m.1 m.2) (fuel : Nat) (hf : ms.length ≤ fuel) :
    readBytes fuel (ms.map Prod.snd).flatten = .ok ms := by
  induction ms generalizing fuel with
  | nil => cases fuel <;> rfl
  | cons m ms ih =>
    cases fuel with
    | zero => simp at hf
    | succ fuel =>
      simp only [List.map_cons, List.flatten_cons]
      obtain ⟨h1, h2, h3⟩ := (hms m List.mem_cons_self).follow (ms.map Prod.snd).flatten
      rw [readBytes_step (by simp [h3]) h1 h2, List.drop_left,
        ih (fun m hm => hms m (List.mem_cons_of_mem _ hm)) fuel
          (by simp only [List.length_cons] at hf; omega)]
      rfl

example : readBytes 9 ([0x93, 60, 100] ++ [0xF0, 5, 0xF7] ++ [0xF8]) =
    .ok [(.fixed Msg.cv1NoteOn, [0x93, 60, 100]), (.sysex7, [0xF0, 5, 0xF7]),
      (.fixed Msg.sysTimingClock, [0xF8])] := by decide +kernel

/-- C48 over bytes, the converse: whatever the reader makes of a slice is a sequence of
messages whose concatenation is the slice.  So the reader succeeds on the concatenations of
messages and on nothing else, and there is only one way to read each of them. -/
theorem C48_bytes_stream_exactly (b : Buf .bytes) (ms : List (BytesKind × Buf .bytes)) (fuel : Nat)
    (hf : b.length ≤ fuel) :
    readBytes fuel b = .ok ms ↔
      (ms.map Prod.snd).flatten = b ∧ ∀ m ∈ ms, IsBytesMessage m.1 m.2 := by
  constructor
  · induction fuel generalizing b ms with
    | zero =>
      intro h
      have : b = [] := List.length_eq_zero_iff.mp (by omega)
      subst this
      simp only [readBytes] at h
      cases h
      exact ⟨rfl, fun _ hm => nomatch hm⟩
    | succ fuel ih =>
      intro h
      by_cases hb : b = []
      · subst hb
        simp only [readBytes, List.isEmpty_nil, if_true] at h
        cases h
        exact ⟨rfl, fun _ hm => nomatch hm⟩
      · rcases (C05_bytes_enums_total b).1 with ⟨k, hk⟩ | ⟨e, he⟩
        · obtain ⟨lo, hi, he⟩ := C11_bytes_variant b b k hk
          have hkb := ((C11_bytes_dispatch he b b).1.mp hk).1
          cases hd : BytesMessage.data (k, b) with
          | err e =>
            simp only [readBytes] at h
            rw [if_neg (by simpa using hb), hk, Res.ok_bind, hd] at h
            cases h
          | panic =>
            simp only [readBytes] at h
            rw [if_neg (by simpa using hb), hk, Res.ok_bind, hd] at h
            cases h
          | ok d =>
            obtain ⟨c1, c2⟩ := C53_bytes_message b b d k hk hd
            have hdk : IsBytesMessage k d :=
              ⟨⟨lo, hi, he⟩, ((C11_bytes_dispatch he d d).1.mp c1).1, c2⟩
            have hpre : d <+: b := by
              cases k with
              | fixed x =>
                have hx : x.data .bytes b = .ok d := hd
                rw [data_ok ((tryFrom_iff x .bytes b).mp hkb).1] at hx
                cases hx
                exact List.take_prefix _ _
              | sysex7 =>
                have hx : Sxb.data b = .ok d := hd
                obtain ⟨p, rest, rfl, hp⟩ := accepted_raw hkb
                rw [Sxb.data_raw hp] at hx
                cases hx
                exact ⟨rest, by simp [Sxb.raw]⟩
            have hne : d ≠ [] := by
              have := (hdk.follow []).2.2
              exact this
            have hdl := List.length_pos_iff.mpr hne
            rw [readBytes_step hb hk hd] at h
            cases hr : readBytes fuel (b.drop d.length) with
            | err e => rw [hr] at h; cases h
            | panic => rw [hr] at h; cases h
            | ok rest =>
              rw [hr] at h
              cases h
              obtain ⟨i1, i2⟩ := ih _ _ (by rw [List.length_drop]; omega) hr
              refine ⟨?_, ?_⟩
              · simp only [List.map_cons, List.flatten_cons]
                rw [i1]
                obtain ⟨t, rfl⟩ := hpre
                rw [List.drop_left]
              · intro m hm
                rcases List.mem_cons.mp hm with rfl | hm
                · exact hdk
                · exact i2 m hm
        · simp only [readBytes] at h
          rw [if_neg (by simpa using hb), he] at h
          cases h
  · rintro ⟨rfl, h⟩
    refine C48_bytes_stream ms h fuel (Nat.le_trans ?_ hf)
    clear hf
    induction ms with
    | nil => exact Nat.zero_le _
    | cons m ms ih =>
      simp only [List.map_cons, List.flatten_cons, List.length_append, List.length_cons]
      have := ih (fun m hm => h m (List.mem_cons_of_mem _ hm))
      have := List.length_pos_iff.mpr ((h m List.mem_cons_self).follow []).2.2
      omega

-- A stream with a song position pointer of two bytes, as `data()` has it.
example : readBytes 9 [0xF2, 1, 0xF0, 5, 0xF7, 0xF8] =
    .ok [(.fixed Msg.sysSongPositionPointer, [0xF2, 1]), (.sysex7, [0xF0, 5, 0xF7]),
      (.fixed Msg.sysTimingClock, [0xF8])] := by decide +kernel

/-- C49: of the messages of standard length exactly those other than `TimeCode`,
`SongPositionPointer` and `TuneRequest` are accepted and returned whole by `data()`. -/
theorem C49_exactly (x : BitVec 8) (data : Buf .bytes) (lo hi n : Nat)
    (hn : (lo, hi, n) ∈ midi1Length) (hx : lo ≤ x.toNat ∧ x.toNat < hi)
    (hd : data.length + 1 = n) :
    (∃ k, BytesMessage.tryFrom (x :: data) = .ok (k, x :: data) ∧
      k.data (x :: data) = .ok (x :: data)) ↔ x ≠ 0xF1 ∧ x ≠ 0xF2 ∧ x ≠ 0xF6 := by
  constructor
  · rintro ⟨k, h1, h2⟩
    have len : ∀ e ∈ midi1Length, ∀ s ∈ [(0xF1, 2), (0xF2, 3), (0xF6, 1)],
        e.1 ≤ s.1 → s.1 < e.2.1 → e.2.2 = s.2 := by decide
    refine ⟨?_, ?_, ?_⟩
    · rintro rfl
      have : n = 2 := len _ hn (0xF1, 2) (by simp) hx.1 hx.2
      match data, hd with
      | [y], _ => rw [(C49_violation y 0).2.1] at h1; cases h1
      | [], hd => simp at hd; omega
      | _ :: _ :: _, hd => simp at hd; omega
    · rintro rfl
      have : n = 3 := len _ hn (0xF2, 3) (by simp) hx.1 hx.2
      match data, hd with
      | [y, z], _ =>
        obtain ⟨k', c1, c2⟩ := (C49_violation y z).2.2.1
        rw [c1] at h1
        cases h1
        rw [c2] at h2
        cases h2
      | [], hd => simp at hd; omega
      | [_], hd => simp at hd; omega
      | _ :: _ :: _ :: _, hd => simp at hd; omega
    · rintro rfl
      have : n = 1 := len _ hn (0xF6, 1) (by simp) hx.1 hx.2
      match data, hd with
      | [], _ => rw [(C49_violation 0 0).1] at h1; cases h1
      | _ :: _, hd => simp at hd; omega
  · rintro ⟨h1, h2, h3⟩
    exact C49_standard_length_partial x data lo hi n hn hx hd h1 h2 h3

example : ¬ ∃ k, BytesMessage.tryFrom [0xF2, 5, 1] = .ok (k, [0xF2, 5, 1]) ∧
    k.data [0xF2, 5, 1] = .ok [0xF2, 5, 1] :=
  fun h => absurd ((C49_exactly 0xF2 [5, 1] 0xF2 0xF3 3 (by decide) (by decide) rfl).mp h) (by decide)

end Midi2
