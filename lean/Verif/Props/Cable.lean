import Verif.Lemmas.Cable
import Verif.Props.LinkGateway

/-!
# C82: a MIDI 1.0 cable
-/

namespace Midi2

open Gateway Rx

/-- C82: whatever stands on a cable, with running status, real time messages in any place, messages
that are broken off, undefined status bytes and stray data bytes, and pulled at any point: the reader
does not panic, and has read exactly the messages that were complete, in the order in which they
became complete, with their status bytes. -/
theorem C82_cable (w : List (BitVec 8)) (ms : List (List (BitVec 8)))
    (h : Cable.On Cable.Plain none [] [] w ms) :
    ∃ got st, Cable.read (none, []) w = .ok (got, st) ∧ got.map Prod.snd = ms ∧
      ∀ m ∈ got, BytesMessage.tryFrom m.2 = .ok m ∧ BytesMessage.data m = .ok m.2 :=
  h.read ⟨rfl, (fun _ h => nomatch h), fun _ => .inl rfl, fun h => absurd rfl h⟩

theorem plain_short {x : BitVec 8} {data : List (BitVec 8)} (lo hi n : Nat)
    (h : (lo, hi, n) ∈ midi1Length ∧ lo ≤ x.toNat ∧ x.toNat < hi ∧ data.length + 1 = n ∧
      (∀ y ∈ data, y.toNat < 0x80) ∧ x ≠ 0xF1 ∧ x ≠ 0xF2 ∧ x ≠ 0xF6) : Cable.Plain (x :: data) :=
  ⟨.short x data lo hi n h.1 h.2.1 h.2.2.1 h.2.2.2.1 h.2.2.2.2.1,
    fun e => h.2.2.2.2.2.1 (Option.some.inj e), fun e => h.2.2.2.2.2.2.1 (Option.some.inj e),
    fun e => h.2.2.2.2.2.2.2 (Option.some.inj e)⟩

-- Two notes, the second with running status and a clock within it, another clock within system
-- exclusive, which ends running status, so that the data byte behind it is stray, and a note that
-- is not complete.
example : Cable.On Cable.Plain none [] []
    [0x93, 60, 100, 62, 0xF8, 101, 0xF0, 1, 0xF8, 0xF9, 2, 0xF7, 5, 0xF4, 0x80, 3]
    [[0x93, 60, 100], [0xF8], [0x93, 62, 101], [0xF8], [0xF0, 1, 2, 0xF7]] := by
  have clock : Cable.Plain [0xF8] := plain_short 0xF8 0xF9 1 (by decide)
  have sysex : Cable.Plain [0xF0, 1, 2, 0xF7] :=
    ⟨.sysex [1, 2] (by decide), by decide, by decide, by decide⟩
  refine .status 0x93 [60, 100] (by decide) (plain_short 0x80 0xC0 3 (by decide)) ?_
  refine .byte 60 [100] (.byte 100 [] ?_)
  refine .again 0x93 62 [101] (plain_short 0x80 0xC0 3 (by decide)) ?_
  refine .clock 0xF8 (by decide) clock (.byte 101 [] ?_)
  refine .status 0xF0 [1, 2, 0xF7] (by decide) sysex (.byte 1 [2, 0xF7] ?_)
  refine .clock 0xF8 (by decide) clock (.noClock 0xF9 (.inl rfl) (.byte 2 [0xF7] (.byte 0xF7 [] ?_)))
  refine .stray 5 (by decide) (.undefined 0xF4 (.inl rfl) ?_)
  exact .status 0x80 [3, 4] (by decide) (plain_short 0x80 0xC0 3 (by decide)) (.byte 3 [4] .stop)

example : Cable.read (none, [])
      [0x93, 60, 100, 62, 0xF8, 101, 0xF0, 1, 0xF8, 0xF9, 2, 0xF7, 5, 0xF4, 0x80, 3] =
    .ok ([(.fixed Msg.cv1NoteOn, [0x93, 60, 100]), (.fixed Msg.sysTimingClock, [0xF8]),
      (.fixed Msg.cv1NoteOn, [0x93, 62, 101]), (.fixed Msg.sysTimingClock, [0xF8]),
      (.sysex7, [0xF0, 1, 2, 0xF7])], (some 0x80, [0x80, 3])) := by decide +kernel

/-- C82: the reader never panics, whatever comes in and whatever it has. -/
theorem C82_never_panics (st : Cable.State) (w : List (BitVec 8)) :
    ∃ got st', Cable.read st w = .ok (got, st') := by
  induction w generalizing st with
  | nil => exact ⟨[], st, rfl⟩
  | cons x w ih =>
    have hs : ∃ g st₁, Cable.step st x = .ok (g, st₁) := by
      unfold Cable.step
      split
      · rcases (C05_bytes_enums_total [x]).1 with ⟨k, h⟩ | ⟨e, h⟩ <;> rw [h] <;> exact ⟨_, _, rfl⟩
      · rcases (C05_bytes_enums_total (Cable.take st x).2).1 with ⟨k, h⟩ | ⟨e, h⟩ <;> rw [h] <;>
          exact ⟨_, _, rfl⟩
    obtain ⟨g, st₁, h1⟩ := hs
    obtain ⟨gs, st₂, h2⟩ := ih st₁
    refine ⟨g ++ gs, st₂, ?_⟩
    unfold Cable.read
    rw [h1]
    show Cable.read st₁ w >>= _ = _
    rw [h2]
    rfl

/-- C82: whatever the reader has from before, it is in step again at the next status byte. -/
theorem C82_in_step (st : Cable.State) (s : BitVec 8) (h1 : 0x80 ≤ s.toNat) (h2 : s.toNat < 0xF7)
    (w : List (BitVec 8)) : Cable.read st (s :: w) = Cable.read (none, []) (s :: w) := by
  have hs : ∀ st : Cable.State, Cable.take st s = (Cable.running s, [s]) := fun st =>
    Cable.take_status h1 (.inl (by rintro rfl; exact absurd h2 (by decide)))
  unfold Cable.read Cable.step
  rw [hs, hs, if_neg (by omega), if_neg (by omega)]

example : Cable.read (some 0xC0, [0xF0, 1, 2]) [0x93, 60, 100] =
    .ok ([(.fixed Msg.cv1NoteOn, [0x93, 60, 100])], (some 0x93, [])) := by
  rw [C82_in_step _ _ (by decide) (by decide)]
  decide +kernel

/-- C82, with the line of C78 behind: a gateway reads the cable, translates every message with
`into_ump` and sends it packet by packet; the other end takes packets off the pieces that come in,
puts messages together and turns them into bytes.  What comes out are the messages of the cable with
their status bytes. -/
theorem C82_gateway (dbg : Bool) (w : List (BitVec 8)) (ms : List (List (BitVec 8)))
    (h : Cable.On Cable.Plain none [] [] w ms) :
    ∃ got st us ps, Cable.read (none, []) w = .ok (got, st) ∧ each (toUmp dbg) got = .ok us ∧
      sendAll us = .ok ps ∧ ∀ careful pieces h, pieces.flatten = ps.flatten →
        ∃ t, line careful h pieces = .ok t ∧ passBack t = .ok ms.flatten := by
  obtain ⟨got, st, h1, h2, h3⟩ := C82_cable w ms h
  have hP : ∀ m ∈ ms, Cable.Plain m := by
    clear h1 h2 h3
    have key : ∀ {run m d w out}, Cable.On Cable.Plain run m d w out → (d ≠ [] → Cable.Plain m) →
        ∀ y ∈ out, Cable.Plain y := by
      have hem : ∀ {m d : List (BitVec 8)} {out : List (List (BitVec 8))}, Cable.Plain m →
          (∀ y ∈ out, Cable.Plain y) → ∀ y ∈ Cable.emit m d out, Cable.Plain y := by
        intro m d out hm ho y hy
        unfold Cable.emit at hy
        split at hy
        · rcases List.mem_cons.mp hy with rfl | hy
          · exact hm
          · exact ho y hy
        · exact ho y hy
      intro run m d w out C
      induction C with
      | stop => intro _ y hy; cases hy
      | clock x _ hP _ ih =>
        intro hd y hy
        rcases List.mem_cons.mp hy with rfl | hy
        · exact hP
        · exact ih hd y hy
      | noClock x _ _ ih => exact ih
      | status s e _ hP _ ih => intro _; exact hem hP (ih fun _ => hP)
      | again s x e hP _ ih => intro _; exact hem hP (ih fun _ => hP)
      | byte x e _ ih => intro hd; exact hem (hd (List.cons_ne_nil _ _)) (ih fun _ => hd (List.cons_ne_nil _ _))
      | undefined x _ _ ih => intro _; exact ih fun h => absurd rfl h
      | stray x _ _ ih => exact ih
    exact key h fun h => absurd rfl h
  obtain ⟨outs, rest, us, ps, a1, a2, a3, a4⟩ := C78_midi1_partial dbg ms (fun m hm => (hP m hm).midi1)
    (fun m hm => (hP m hm).notTimeCode) (fun m hm => (hP m hm).notSongPosition)
    (fun m hm => (hP m hm).notTuneRequest) [ms.flatten] (by simp)
  have e : outs.flatten = got := by
    obtain ⟨outs', rest', b1, -, b3, -⟩ := C76_bytes [ms.flatten]
    rw [a1] at b1
    cases b1
    have B : BytesOf [ms.flatten].flatten got [] :=
      ⟨by rw [List.flatten_cons, List.flatten_nil, ← h2], h3, BytesOf.nil.stop⟩
    exact (b3.unique B).1
  rw [e] at a2
  refine ⟨got, st, us, ps, h1, a2, a3, fun careful pieces h hp => ?_⟩
  obtain ⟨t, n, -, b1, -, b2⟩ := a4 careful pieces h (by rw [hp]; exact List.prefix_refl _)
  exact ⟨t, b1, b2 (by simp) hp⟩

/-- C82 needs its reader: in the code a status byte within a message is taken for data.  A clock
within a note on is read as its velocity; and a note with running status is refused. -/
theorem C82_violation :
    BytesMessage.tryFrom [0x93, 60, 0xF8, 100] =
      .ok (.fixed Msg.cv1NoteOn, [0x93, 60, 0xF8, 100]) ∧
    ("velocity", Fld.hybrid .u7 ⟨0, 0, 0x7F⟩ ⟨0x0000007F, 0, 0, 0⟩) ∈ Msg.cv1NoteOn.props ∧
    Fld.read .bytes (.hybrid .u7 ⟨0, 0, 0x7F⟩ ⟨0x0000007F, 0, 0, 0⟩) [0x93, 60, 0xF8, 100] =
      .ok (0x78 : BitVec 7) ∧
    BytesMessage.tryFrom [60, 100] = .err .invalidData := by
  decide +kernel

/-- C82 fails in the code for the messages whose length it has wrong (C49): a song position pointer
is read without its last byte, time code quarter frame and tune request are not read at all. -/
theorem C82_length_violation :
    (Cable.On Midi1 none [] [] [0xF2, 5, 6] [[0xF2, 5, 6]] ∧
      Cable.read (none, []) [0xF2, 5, 6] =
        .ok ([(.fixed Msg.sysSongPositionPointer, [0xF2, 5])], (none, []))) ∧
    (Cable.On Midi1 none [] [] [0xF1, 5, 0xF8] [[0xF1, 5], [0xF8]] ∧
      Cable.read (none, []) [0xF1, 5, 0xF8] =
        .ok ([(.fixed Msg.sysTimingClock, [0xF8])], (none, [0xF1, 5]))) ∧
    (Cable.On Midi1 none [] [] [0xF6, 0xF8] [[0xF6], [0xF8]] ∧
      Cable.read (none, []) [0xF6, 0xF8] =
        .ok ([(.fixed Msg.sysTimingClock, [0xF8])], (none, [0xF6]))) := by
  have clock : Midi1 [0xF8] := .short 0xF8 [] 0xF8 0xF9 1 (by decide) (by decide) (by decide) rfl
    (by decide)
  refine ⟨⟨?_, by decide +kernel⟩, ⟨?_, by decide +kernel⟩, ?_, by decide +kernel⟩
  · exact .status 0xF2 [5, 6] (by decide) (.short 0xF2 [5, 6] 0xF2 0xF3 3 (by decide) (by decide)
      (by decide) rfl (by decide)) (.byte 5 [6] (.byte 6 [] .stop))
  · exact .status 0xF1 [5] (by decide) (.short 0xF1 [5] 0xF1 0xF2 2 (by decide) (by decide)
      (by decide) rfl (by decide)) (.byte 5 [] (.clock 0xF8 (by decide) clock .stop))
  · exact .status 0xF6 [] (by decide) (.short 0xF6 [] 0xF6 0xF7 1 (by decide) (by decide)
      (by decide) rfl (by decide)) (.clock 0xF8 (by decide) clock .stop)

theorem septet_congr {x y : BitVec 8} (h : x &&& 0x7F = y &&& 0x7F) : U8.septet x = U8.septet y := by
  have key : ∀ v : BitVec 8, U8.septet (v &&& 0x7F) = U8.septet v := by decide +kernel
  rw [← key x, ← key y, h]

theorem septet_at {s : BitVec 8} {data data' : List (BitVec 8)}
    (h : data.map (· &&& 0x7F) = data'.map (· &&& 0x7F)) (i : Nat) :
    (at' (s :: data) i >>= fun x => Res.ok (U8.septet x)) =
      (at' (s :: data') i >>= fun x => Res.ok (U8.septet x)) := by
  cases i with
  | zero => rfl
  | succ i =>
    have hi := congrArg (fun l => l[i]?) h
    simp only [List.getElem?_map] at hi
    unfold at'
    rw [List.getElem?_cons_succ, List.getElem?_cons_succ]
    cases hd : data[i]? with
    | none =>
      cases hd' : data'[i]? with
      | none => rfl
      | some y => rw [hd, hd'] at hi; cases hi
    | some x =>
      cases hd' : data'[i]? with
      | none => rw [hd, hd'] at hi; cases hi
      | some y =>
        rw [hd, hd'] at hi
        show Res.ok (U8.septet x) = Res.ok (U8.septet y)
        rw [septet_congr (Option.some.inj hi)]

theorem bind_through {α β γ : Type} {f : α → β} {a a' : Res α} (k : β → Res γ)
    (h : (a >>= fun x => Res.ok (f x)) = (a' >>= fun x => Res.ok (f x))) :
    (a >>= fun x => k (f x)) = (a' >>= fun x => k (f x)) := by
  have e : ∀ c : Res α, (c >>= fun x => k (f x)) = ((c >>= fun x => Res.ok (f x)) >>= k) := by
    intro c; cases c <;> rfl
  rw [e, e, h]

/-- Properties of seven or fourteen bits, or four bits of the status byte. -/
def Fld.seven : Fld → Bool
  | .hybrid .u4 s _ => s == ⟨0x0F, 0, 0⟩
  | .hybrid .u7 _ _ => true
  | .hybrid .u14 _ _ => true
  | _ => false

/-- C82, exactly: the top bits of the bytes behind the status byte mean nothing to the library,
neither for whether a channel voice or system common message is accepted nor for any property. -/
theorem C82_top_bits_exactly {d : MsgDesc} (hd : d ∈ Msg.hybridAll) (s : BitVec 8)
    (data data' : List (BitVec 8)) (h : data.map (· &&& 0x7F) = data'.map (· &&& 0x7F)) :
    (d.tryFrom .bytes (s :: data) = .ok (s :: data) ↔
      d.tryFrom .bytes (s :: data') = .ok (s :: data')) ∧
    ∀ n f, (n, f) ∈ d.props → f.accessible .bytes = true →
      f.read .bytes (s :: data) = f.read .bytes (s :: data') := by
  have hl : data.length = data'.length := by
    have := congrArg List.length h
    rwa [List.length_map, List.length_map] at this
  constructor
  · rw [tryFrom_iff, tryFrom_iff, List.length_cons, List.length_cons, hl]
    have hv : ∀ f : Fld, f.validate .bytes (s :: data) = f.validate .bytes (s :: data') := by
      intro f
      cases f <;> rfl
    constructor
    · rintro ⟨h1, h2⟩
      exact ⟨h1, fun p hp => by rw [← hv]; exact h2 p hp⟩
    · rintro ⟨h1, h2⟩
      exact ⟨h1, fun p hp => by rw [hv]; exact h2 p hp⟩
  · intro n f hf ha
    have tbl : ∀ d ∈ Msg.hybridAll, ∀ p ∈ d.props, p.2.accessible .bytes = true →
        p.2.seven = true := by decide +kernel
    have h7 : f.seven = true := tbl d hd _ hf ha
    cases f <;> try cases h7
    next r sch u =>
    show bytesRead r sch _ = bytesRead r sch _
    cases r <;> try cases h7
    · have e : sch = ⟨0x0F, 0, 0⟩ := eq_of_beq h7
      subst e
      rfl
    · unfold bytesRead
      cases (bytesImpl .u7).lookup sch with
      | none => rfl
      | some ij => exact septet_at h ij.1
    · unfold bytesRead
      cases (bytesImpl .u14).lookup sch with
      | none => rfl
      | some ij =>
        have e0 := septet_at (s := s) h ij.1
        have e1 := septet_at (s := s) h (ij.1 + 1)
        show (at' (s :: data) ij.1 >>= fun x => at' (s :: data) (ij.1 + 1) >>= fun y =>
            Res.ok (u14FromU7s (U8.septet x) (U8.septet y))) =
          (at' (s :: data') ij.1 >>= fun x => at' (s :: data') (ij.1 + 1) >>= fun y =>
            Res.ok (u14FromU7s (U8.septet x) (U8.septet y)))
        have e2 : ∀ x : BitVec 7, (at' (s :: data) (ij.1 + 1) >>= fun y =>
            Res.ok (u14FromU7s x (U8.septet y))) = (at' (s :: data') (ij.1 + 1) >>= fun y =>
            Res.ok (u14FromU7s x (U8.septet y))) := fun x =>
          bind_through (fun y => Res.ok (u14FromU7s x y)) e1
        simp only [e2]
        exact bind_through (fun x => at' (s :: data') (ij.1 + 1) >>= fun y =>
          Res.ok (u14FromU7s x (U8.septet y))) e0

example : Msg.cv1PitchBend.tryFrom .bytes [0xE3, 0x81, 0xFF] = .ok [0xE3, 0x81, 0xFF] :=
  (C82_top_bits_exactly (by decide +kernel) 0xE3 [1, 0x7F] [0x81, 0xFF] (by decide)).1.mp
    (by decide +kernel)

end Midi2
