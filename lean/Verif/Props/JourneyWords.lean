import Verif.Props.Journey
import Verif.Props.Follow

/-!
# C72: journeys over words, for every type and with everything behind the message
-/

namespace Midi2

namespace Leg

/-- A message on its own: the words of `data()`. -/
structure Alone (d : MsgDesc) (m : Buf .ump) : Prop where
  size : m.length = d.umpSize
  accepted : d.tryFrom .ump m = .ok m
  status : ∀ p ∈ d.props, ∀ s, p.2 = .streamStatus s → fieldAt m 0 6 10 = some s.toNat

theorem small {d : MsgDesc} (hd : d ∈ Msg.all) : 0 < d.umpSize ∧ d.umpSize ≤ 4 := by
  have : ∀ d ∈ Msg.all, 0 < d.umpSize ∧ d.umpSize ≤ 4 := by decide +kernel
  exact this d hd

/-- What is tolerated behind two messages of one type. -/
theorem allows_congr {d : MsgDesc} (hd : d ∈ Msg.all) {m m' : Buf .ump} (A : Alone d m)
    (B : Alone d m') (c : Buf .ump) :
    UmpKind.Allows m c (.fixed d) ↔ UmpKind.Allows m' c (.fixed d) := by
  obtain ⟨z0, z4⟩ := small hd
  have hm := A.size
  have hm' := B.size
  obtain ⟨t1, t2, t3, t4⟩ := MsgDesc.looksBehind_spec (List.all_eq_true.mp follow_table d hd)
  obtain ⟨_, W⟩ := (tryFrom_wf hd m).mp A.accepted
  obtain ⟨_, W'⟩ := (tryFrom_wf hd m').mp B.accepted
  have far : ∀ i p w, 4 ≤ i → fieldAt (m ++ c) i p w = fieldAt (m' ++ c) i p w := by
    intro i p w hi
    unfold fieldAt
    rw [List.getElem?_append_right (by omega), List.getElem?_append_right (by omega), hm, hm']
  have near : ∀ p w, fieldAt (m ++ c) 0 p w = fieldAt m 0 p w :=
    fun p w => fieldAt_left c (by omega) p w
  have near' : ∀ p w, fieldAt (m' ++ c) 0 p w = fieldAt m' 0 p w :=
    fun p w => fieldAt_left c (by omega) p w
  have same : ∀ p w, fieldAt m 0 p w = fieldAt m' 0 p w →
      (SameField 4 (m ++ c) p w ↔ SameField 4 (m' ++ c) p w) := by
    intro p w h
    have hl : (m ++ c).length = (m' ++ c).length := by
      rw [List.length_append, List.length_append, hm, hm']
    have h0 : fieldAt (m ++ c) 0 p w = fieldAt (m' ++ c) 0 p w := by rw [near, near', h]
    constructor
    · intro H j hj
      rcases Nat.eq_zero_or_pos j with rfl | hp
      · rfl
      · rw [← far _ _ _ (by omega), H j (by rw [hl]; exact hj), h0]
    · intro H j hj
      rcases Nat.eq_zero_or_pos j with rfl | hp
      · rfl
      · rw [far _ _ _ (by omega), H j (by rw [← hl]; exact hj), h0]
  have flex : d ∈ Msg.flexAll → fieldAt m 0 16 8 = fieldAt m' 0 16 8 ∧
      fieldAt m 0 24 8 = fieldAt m' 0 24 8 := by
    intro hf
    obtain ⟨⟨p, hp, s, e⟩, q, hq, s', e'⟩ := t1 (decide_eq_true hf)
    have h4 := t4 (decide_eq_true hf)
    have a := W p hp
    have a' := W' p hp
    have b := W q hq
    have b' := W' q hq
    rw [e] at a a'
    rw [e'] at b b'
    have a := a 0 (by omega)
    have a' := a' 0 (by omega)
    have b := b 0 (by omega)
    have b' := b' 0 (by omega)
    rw [Nat.mul_zero] at a a' b b'
    exact ⟨b.trans b'.symm, a.trans a'.symm⟩
  have stream : d ∈ Msg.streamAll → fieldAt m 0 6 10 = fieldAt m' 0 6 10 := by
    intro hs
    obtain ⟨⟨p, hp, s, e⟩, _⟩ := t2 (decide_eq_true hs)
    rw [A.status p hp s e, B.status p hp s e]
  constructor
  · rintro ⟨h1, h2⟩
    exact ⟨fun hf => ⟨(same _ _ (flex hf).1).mp (h1 hf).1, (same _ _ (flex hf).2).mp (h1 hf).2⟩,
      fun hs => ⟨by rw [← far _ _ _ (Nat.le_refl 4)]; exact (h2 hs).1,
        (same _ _ (stream hs)).mp (h2 hs).2⟩⟩
  · rintro ⟨h1, h2⟩
    exact ⟨fun hf => ⟨(same _ _ (flex hf).1).mpr (h1 hf).1, (same _ _ (flex hf).2).mpr (h1 hf).2⟩,
      fun hs => ⟨by rw [far _ _ _ (Nat.le_refl 4)]; exact (h2 hs).1,
        (same _ _ (stream hs)).mpr (h2 hs).2⟩⟩

/-- Words are accepted behind a message exactly if they are tolerated. -/
theorem accepted_iff {d : MsgDesc} (hd : d ∈ Msg.all) {m : Buf .ump} (A : Alone d m) (c : Buf .ump) :
    d.tryFrom .ump (m ++ c) = .ok (m ++ c) ↔ UmpKind.Allows m c (.fixed d) :=
  fixed_append hd A.size A.accepted A.status c

theorem accessible_walks {f : Fld} (ha : f.accessible .ump = true) : f.walks = false := by
  cases f <;> first | rfl | cases ha

/-- A setter. -/
theorem set_alone {d : MsgDesc} (hd : d ∈ Msg.all) {m : Buf .ump} (A : Alone d m)
    {n : String} {f : Fld} (hf : (n, f) ∈ d.props) (ha : f.accessible .ump = true) (v : f.Ty)
    (hv : f.faithful v = true) (c : Buf .ump) :
    ∃ m', f.write .ump m v = .ok m' ∧ f.write .ump (m ++ c) v = .ok (m' ++ c) ∧ Alone d m' := by
  obtain ⟨z0, z4⟩ := small hd
  have hm := A.size
  have hn := of_decide_eq_true (List.all_eq_true.mp table_names d hd)
  obtain ⟨m', e1, e2, -, -, -, e6⟩ := setter_step (b := m) (good_ump hd (by omega)) hn hf ha v hv
  have app : ∀ c, f.write .ump (m ++ c) v = .ok (m' ++ c) :=
    fun c => (Fld.write32_app f (accessible_walks ha) e1 c).1
  refine ⟨m', e1, app c, by omega, e6 A.accepted, ?_⟩
  intro p hp s e
  -- with zeros up to a whole packet the parser looks at the status
  have hz : d.tryFrom .ump (m ++ List.replicate (4 - d.umpSize) 0) =
      .ok (m ++ List.replicate (4 - d.umpSize) 0) := by
    refine (accepted_iff hd A _).mpr ?_
    have hlen : (m ++ List.replicate (4 - d.umpSize) (0 : BitVec 32)).length = 4 := by
      rw [List.length_append, hm, List.length_replicate]; omega
    have one : ∀ p w, SameField 4 (m ++ List.replicate (4 - d.umpSize) (0 : BitVec 32)) p w := by
      intro p w j hj
      have : j = 0 := by omega
      subst this; rfl
    refine ⟨fun _ => ⟨one _ _, one _ _⟩, fun _ => ⟨?_, one _ _⟩⟩
    unfold fieldAt
    rw [List.getElem?_eq_none (by omega)]
    intro h; cases h
  obtain ⟨y, g1, _, -, -, -, g6⟩ := setter_step (b := m ++ List.replicate (4 - d.umpSize) 0)
    (good_ump hd (by rw [List.length_append]; omega)) hn hf ha v hv
  rw [app] at g1
  cases g1
  obtain ⟨_, W⟩ := (tryFrom_wf hd _).mp (g6 hz)
  have w := W p hp
  rw [e] at w
  have w := w 0 (by rw [List.length_append, List.length_replicate]; omega)
  rw [Nat.mul_zero, fieldAt_left _ (by omega)] at w
  exact w

/-- One step. -/
theorem exec_words {d : MsgDesc} (hd : d ∈ Msg.all) {m0 m : Buf .ump} (A0 : Alone d m0)
    (A : Alone d m) (c : Buf .ump) (l : Leg) (hl : l.Words d) :
    ∃ m', runSetters .ump l.meaning m = .ok m' ∧ Alone d m' ∧
      match l.tail d m0 c with
      | .error e => l.exec d ⟨.ump, m ++ c⟩ = .err e
      | .ok c' => l.exec d ⟨.ump, m ++ c⟩ = .ok ⟨.ump, m' ++ c'⟩ := by
  have hm := A.size
  have hm0 := A0.size
  have hdata : d.data .ump (m ++ c) = .ok m := by
    rw [data_ok (m := .ump) (show d.umpSize ≤ _ by rw [List.length_append]; omega)]
    rw [show d.minSize .ump = m.length from hm.symm, List.take_left]
  cases l with
  | set k =>
    obtain ⟨n, f, v⟩ := k
    obtain ⟨hf, ha, hv⟩ := hl
    obtain ⟨m', e1, e2, A'⟩ := set_alone hd A hf ha v hv c
    refine ⟨m', by show (f.write .ump m v >>= fun b => runSetters .ump [] b) = _; rw [e1]; rfl,
      A', ?_⟩
    show (f.write .ump (m ++ c) v >>= fun y => pure (⟨.ump, y⟩ : Held)) = _
    rw [e2]; rfl
  | rebuffer => exact ⟨m, rfl, A, rfl⟩
  | tryRebuffer n =>
    refine ⟨m, rfl, A, ?_⟩
    have he : (tryRebuffer n).exec d ⟨.ump, m ++ c⟩ =
        ((if (m ++ c).length > n then Res.err .bufferOverflow
          else .ok (m ++ c ++ List.replicate (n - (m ++ c).length) 0)) >>=
            fun y => pure (⟨.ump, y⟩ : Held)) := rfl
    rw [List.length_append] at he
    by_cases h : m0.length + c.length ≤ n
    · have ht : (tryRebuffer n).tail d m0 c =
          .ok (c ++ List.replicate (n - (m0.length + c.length)) 0) := if_pos h
      rw [ht, he, if_neg (by omega), hm, ← hm0, List.append_assoc]; rfl
    · have ht : (tryRebuffer n).tail d m0 c = .error .bufferOverflow := if_neg h
      rw [ht, he, if_pos (by omega)]; rfl
  | arrayRebuffer n =>
    refine ⟨m, rfl, A, ?_⟩
    have hl : d.umpSize ≤ n := hl
    show (d.arrayRebuffer .ump n (m ++ c) >>= fun y => pure (⟨.ump, y⟩ : Held)) =
      .ok ⟨.ump, m ++ List.replicate (n - m0.length) 0⟩
    unfold MsgDesc.arrayRebuffer
    rw [if_neg (show ¬ n < d.minSize .ump from Nat.not_lt.mpr hl), hdata, Res.ok_bind, if_pos (by omega), hm, ← hm0]
    rfl
  | send r =>
    refine ⟨m, rfl, A, ?_⟩
    have he : (send r).exec d ⟨.ump, m ++ c⟩ = (d.data .ump (m ++ c) >>= fun w =>
        d.tryFrom .ump (w ++ r.map (BitVec.ofNat 32)) >>= fun y => pure (⟨.ump, y⟩ : Held)) := rfl
    rw [hdata, Res.ok_bind] at he
    by_cases h : UmpKind.Allows m0 (r.map (BitVec.ofNat 32)) (.fixed d)
    · have ht : (send r).tail d m0 c = .ok (r.map (BitVec.ofNat 32)) := if_pos h
      rw [ht, he, (accepted_iff hd A _).mpr ((allows_congr hd A0 A _).mp h)]; rfl
    · have ht : (send r).tail d m0 c = .error .invalidData := if_neg h
      have hno : ¬ d.WellFormed .ump (m ++ r.map (BitVec.ofNat 32)) := fun hw =>
        h ((allows_congr hd A0 A _).mpr ((accepted_iff hd A _).mp ((tryFrom_wf hd _).mpr hw)))
      rw [ht, he, (C07_ump_accepts_exactly hd _).2 hno]; rfl
  | convert => exact hl.elim
  | tryConvert _ => exact hl.elim
  | arrayConvert _ => exact hl.elim

theorem execAll_words {d : MsgDesc} (hd : d ∈ Msg.all) {m0 : Buf .ump} (A0 : Alone d m0)
    (ls : List Leg) : ∀ {m : Buf .ump} (c : Buf .ump), Alone d m → (∀ l ∈ ls, l.Words d) →
    ∃ m', runSetters .ump (ls.flatMap meaning) m = .ok m' ∧ Alone d m' ∧
      match tails d m0 ls c with
      | .error e => execAll d ls ⟨.ump, m ++ c⟩ = .err e
      | .ok c' => execAll d ls ⟨.ump, m ++ c⟩ = .ok ⟨.ump, m' ++ c'⟩ := by
  induction ls with
  | nil => exact fun c A _ => ⟨_, rfl, A, rfl⟩
  | cons l ls ih =>
    intro m c A hl
    obtain ⟨m1, e1, A1, e2⟩ := exec_words hd A0 A c l (hl l List.mem_cons_self)
    have hs : ∀ c, execAll d (l :: ls) ⟨.ump, m ++ c⟩ =
      (l.exec d ⟨.ump, m ++ c⟩ >>= fun x => execAll d ls x) := fun _ => rfl
    have ht : tails d m0 (l :: ls) c = (tail d m0 c l >>= tails d m0 ls) := rfl
    have hr : ∀ {m2}, runSetters .ump (ls.flatMap meaning) m1 = .ok m2 →
        runSetters .ump ((l :: ls).flatMap meaning) m = .ok m2 := by
      intro m2 h
      rw [List.flatMap_cons, runSetters_append, e1]
      exact h
    cases h : tail d m0 c l with
    | error e =>
      rw [h] at e2 ht
      obtain ⟨m2, f1, A2, _⟩ := ih c A1 fun l h => hl l (List.mem_cons_of_mem _ h)
      refine ⟨m2, hr f1, A2, ?_⟩
      rw [ht, hs, e2]; rfl
    | ok c' =>
      rw [h] at e2 ht
      obtain ⟨m2, f1, A2, f2⟩ := ih c' A1 fun l h => hl l (List.mem_cons_of_mem _ h)
      refine ⟨m2, hr f1, A2, ?_⟩
      rw [ht, hs, e2]
      exact f2

end Leg

open Leg

/-- C72, exactly, for messages of every fixed-size type over words: `m` is a message, `c` what is
behind it in its buffer.  Whatever is done to it, the outcome is `m' ++ c'`, where `m'` is what the
setters alone make of `m` alone and `c'` is what the account says is behind it; or the error the
account predicts, where an array was too small (`BufferOverflow`) or a receiver does not tolerate
what came behind the message (`InvalidData`).  What is left is accepted exactly if what is behind
the message is tolerated, and reads as `m'`.  It never panics.  (`FunctionBlockDiscovery`, whose
parser does not look at the status of a single word, must have its status, see C10.) -/
theorem C72_words_exactly {d : MsgDesc} (hd : d ∈ Msg.all) (m c : Buf .ump)
    (hm : m.length = d.umpSize) (hok : d.tryFrom .ump m = .ok m)
    (hfbd : d.name = "ump_stream::FunctionBlockDiscovery" → fieldAt m 0 6 10 = some 0x10)
    (ls : List Leg) (hl : ∀ l ∈ ls, l.Words d) :
    ∃ m', runSetters .ump (ls.flatMap meaning) m = .ok m' ∧ m'.length = d.umpSize ∧
      d.tryFrom .ump m' = .ok m' ∧
      match tails d m ls c with
      | .error e => execAll d ls ⟨.ump, m ++ c⟩ = .err e
      | .ok c' => execAll d ls ⟨.ump, m ++ c⟩ = .ok ⟨.ump, m' ++ c'⟩ ∧
          (d.tryFrom .ump (m' ++ c') = .ok (m' ++ c') ↔ UmpKind.Allows m c' (.fixed d)) ∧
          ∀ n f, (n, f) ∈ d.props → f.read .ump (m' ++ c') = f.read .ump m' := by
  have A : Alone d m := by
    refine ⟨hm, hok, fun p hp s e => ?_⟩
    have key : ∀ d ∈ Msg.all, ∀ p ∈ d.props, p.2.behind = 3 →
        d.umpSize = 4 ∨ (d.name = "ump_stream::FunctionBlockDiscovery" ∧
          p.2.validate32 [0x10#32 <<< 16, 0, 0, 0] = .ok ()) := by decide +kernel
    rcases key d hd p hp (by rw [e]; rfl) with h4 | ⟨hn, hv⟩
    · obtain ⟨_, W⟩ := (tryFrom_wf hd m).mp hok
      have w := W p hp
      rw [e] at w
      have w := w 0 (by omega)
      rwa [Nat.mul_zero] at w
    · rw [hfbd hn]
      rw [e] at hv
      have := (Fld.validate32_iff (.streamStatus s) rfl (b := [0x10#32 <<< 16, 0, 0, 0])
        (by decide : UmpSchema.need ⟨0x03FF0000, 0, 0, 0⟩ ≤ 4)).1.mp hv
      have := this 0 (by decide)
      rw [← this]; rfl
  obtain ⟨m', e1, A', e2⟩ := execAll_words hd A ls c A hl
  refine ⟨m', e1, A'.size, A'.accepted, ?_⟩
  cases h : tails d m ls c with
  | error e => rw [h] at e2; exact e2
  | ok c' =>
    rw [h] at e2
    exact ⟨e2, (accepted_iff hd A' c').trans (allows_congr hd A A' c').symm, fun n f hf =>
      Fld.read_append (MsgDesc.fits_mem (List.all_eq_true.mp table_ump_fits d hd) hf)
        (by rw [A'.size]; exact Nat.le_refl _) c'⟩

deriving instance DecidableEq for Except

/-- A tempo that is set, sent in front of a tempo of another channel, moved into an array of nine
words and sent in front of a metronome message, which its parser does not tolerate. -/
private def tempoTrip : List Leg :=
  [.set ⟨"number_of_10_nanosecond_units_per_quarter_note", .schema .u32 ⟨0, 0xFFFFFFFF, 0, 0⟩, (7 : BitVec 32)⟩,
   .send [0xD0000000, 5, 0, 0], .tryRebuffer 9]

example : Msg.flexSetTempo ∈ Msg.all ∧
    Msg.flexSetTempo.tryFrom .ump [0xD0100000, 5, 0, 0] = .ok [0xD0100000, 5, 0, 0] ∧
    tails Msg.flexSetTempo [0xD0100000, 5, 0, 0] tempoTrip [] = .ok [0xD0000000, 5, 0, 0, 0] ∧
    execAll Msg.flexSetTempo tempoTrip ⟨.ump, [0xD0100000, 5, 0, 0]⟩ =
      .ok ⟨.ump, [0xD0100000, 7, 0, 0, 0xD0000000, 5, 0, 0, 0]⟩ ∧
    tails Msg.flexSetTempo [0xD0100000, 5, 0, 0] (tempoTrip ++ [.send [0xD0100001, 0, 0, 0]]) [] =
      .error .invalidData ∧
    execAll Msg.flexSetTempo (tempoTrip ++ [.send [0xD0100001, 0, 0, 0]])
      ⟨.ump, [0xD0100000, 5, 0, 0]⟩ = .err .invalidData := by
  refine ⟨by simp [Msg.all, Msg.flexAll], by decide +kernel, by decide +kernel, rfl,
    by decide +kernel, rfl⟩

/-- A function block discovery before an end of clip: tolerated, although the parser takes the
three words behind it for the rest of its packet. -/
example : Msg.streamFunctionBlockDiscovery ∈ Msg.all ∧
    Msg.streamFunctionBlockDiscovery.tryFrom .ump [0xF0100503] = .ok [0xF0100503] ∧
    fieldAt [0xF0100503] 0 6 10 = some 0x10 ∧
    (∀ l ∈ [Leg.send [0xF0210000, 0, 0, 0], .arrayRebuffer 4], l.Words Msg.streamFunctionBlockDiscovery) ∧
    execAll Msg.streamFunctionBlockDiscovery [.send [0xF0210000, 0, 0, 0], .arrayRebuffer 4]
      ⟨.ump, [0xF0100503]⟩ = .ok ⟨.ump, [0xF0100503, 0, 0, 0]⟩ := by
  refine ⟨by decide +kernel, by decide +kernel, by decide +kernel, ?_, rfl⟩
  intro l hl
  simp only [List.mem_cons, List.not_mem_nil, or_false] at hl
  rcases hl with rfl | rfl
  · trivial
  · exact (by decide : 1 ≤ 4)

end Midi2
