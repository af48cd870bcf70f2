import Verif.Spec.Journey
import Verif.Props.RebufferReads
import Verif.Props.Convert
import Verif.Props.Reparse

/-!
# C72: journeys
-/

namespace Midi2

/-- The message `x` reads like the message `u` over words. -/
structure Leg.Like (d : MsgDesc) (x : Held) (u : Buf .ump) : Prop where
  long : d.minSize x.1 ≤ x.2.length
  accepted : d ∈ Msg.localAll → d.tryFrom x.1 x.2 = .ok x.2
  bytes : x.1 = .bytes → d ∈ Msg.hybridAll ∧ d.name ≠ "system_common::SongPositionPointer"
  home : d.umpSize ≤ u.length
  reads : ∀ n f, (n, f) ∈ d.props → f.accessible x.1 = true → f.read x.1 x.2 = f.read .ump u

namespace Leg

theorem accessible_ump {m : Fmt} {f : Fld} (h : f.accessible m = true) : f.accessible .ump = true := by
  cases m with
  | ump => exact h
  | bytes =>
    unfold Fld.accessible at h ⊢
    simp only [Bool.and_eq_true] at h ⊢
    exact ⟨h.1, trivial⟩

theorem hybrid_group : ∀ d ∈ Msg.hybridAll, ("group", groupFld) ∈ d.props ∧
    ∀ p ∈ d.props, p.2.accessible .ump = true → p.2.accessible .bytes = true ∨ p = ("group", groupFld) := by
  decide +kernel

theorem hybrid_local {d : MsgDesc} (hd : d ∈ Msg.hybridAll) : d ∈ Msg.localAll := by
  simp only [Msg.hybridAll, Msg.localAll, List.mem_append] at hd ⊢
  rcases hd with h | h
  · exact .inl (.inl (.inl h))
  · exact .inl (.inr h)

/-- Words behind a message change nothing. -/
theorem append_like {d : MsgDesc} (hd : d ∈ Msg.all) {m : Fmt} {b s : Buf m}
    (hb : m = .bytes → d ∈ Msg.hybridAll ∧ d.name ≠ "system_common::SongPositionPointer")
    (hl : d.minSize m ≤ b.length) :
    (d ∈ Msg.localAll → (d.tryFrom m (b ++ s) = .ok (b ++ s) ↔ d.tryFrom m b = .ok b)) ∧
    ∀ n f, (n, f) ∈ d.props → f.read m (b ++ s) = f.read m b := by
  cases m with
  | ump =>
    exact ⟨fun h => (C12_ump_suffix h b s hl).1, fun n f hf => Fld.read_append
      (MsgDesc.fits_mem (List.all_eq_true.mp table_ump_fits d hd) hf) hl s⟩
  | bytes =>
    obtain ⟨h1, h2⟩ := hb rfl
    have := C12_bytes_suffix h1 b s hl (fun h => absurd h h2)
    exact ⟨fun _ => this.1, this.2.1⟩

/-- The part of a message that `data()` returns, with something else behind it. -/
theorem data_like {d : MsgDesc} (hd : d ∈ Msg.all) {m : Fmt} {b : Buf m} (s : Buf m)
    (hb : m = .bytes → d ∈ Msg.hybridAll ∧ d.name ≠ "system_common::SongPositionPointer")
    (hl : d.minSize m ≤ b.length) :
    (d ∈ Msg.localAll → d.tryFrom m b = .ok b →
      d.tryFrom m (b.take (d.minSize m) ++ s) = .ok (b.take (d.minSize m) ++ s)) ∧
    ∀ n f, (n, f) ∈ d.props → f.read m (b.take (d.minSize m) ++ s) = f.read m b := by
  have hlen : d.minSize m ≤ (b.take (d.minSize m)).length := by rw [List.length_take]; omega
  have A := append_like hd (b := b.take (d.minSize m)) (s := s) hb hlen
  have B := append_like hd (b := b.take (d.minSize m)) (s := b.drop (d.minSize m)) hb hlen
  rw [List.take_append_drop] at B
  exact ⟨fun h1 h2 => (A.1 h1).mpr ((B.1 h1).mp h2),
    fun n f hf => by rw [A.2 n f hf, B.2 n f hf]⟩

/-- The conversions. -/
theorem convert_like {d : MsgDesc} (hd : d ∈ Msg.hybridAll)
    (hn : d.name ≠ "system_common::SongPositionPointer") {x : Held} {u : Buf .ump}
    (L : Like d x u) (size : Nat) (hs : d.minSize x.1.other ≤ size) :
    ∃ u' y, runSetters .ump [⟨"group", groupFld, (0 : BitVec 4)⟩] u = .ok u' ∧
      d.tryConvertArray x.1 x.1.other size x.2 = .ok y ∧
      d.convertArray x.1 x.1.other size x.2 = .ok y ∧
      (size = d.minSize x.1.other → d.convertVec x.1 x.1.other x.2 = .ok y) ∧
      y.length = size ∧ Like d ⟨x.1.other, y⟩ u' := by
  obtain ⟨hg, ha⟩ := hybrid_group d hd
  have hall := hybrid_sub_all hd
  obtain ⟨u', e1, e2, -, e4, e5⟩ := setter_history (d := d)
    (of_decide_eq_true (List.all_eq_true.mp table_names d hall))
    [⟨"group", groupFld, (0 : BitVec 4)⟩] (good_ump hall L.home)
    (by
      intro c hc
      rw [List.mem_singleton] at hc
      subst hc
      exact ⟨hg, rfl, rfl⟩)
  have e4 := e4 [] "group" groupFld (0 : BitVec 4) [] rfl (by simp)
  have other : ∀ n f, (n, f) ∈ d.props → f.accessible .bytes = true →
      f.read .ump u' = f.read .ump u := by
    intro n f hf hacc
    refine e5 n f hf fun c hc => ?_
    rw [List.mem_singleton] at hc
    subst hc
    intro h
    have h : "group" = n := h
    subst h
    have hu := eq_of_nodup_map (of_decide_eq_true (List.all_eq_true.mp table_names d hall)) hf hg
    rw [hu] at hacc
    cases hacc
  obtain ⟨m, b⟩ := x
  cases m with
  | bytes =>
    obtain ⟨-, hB⟩ := C13_bytes_to_ump hd b (L.accepted (hybrid_local hd)) (fun h => absurd h hn) size
    obtain ⟨y, y1, y2, y3, y4, y5, y6, y7⟩ := hB hs
    refine ⟨u', y, e1, y1, y2, y3, y4, ⟨?_, fun _ => y5, (fun h => nomatch h), ?_, ?_⟩⟩
    · exact ((tryFrom_iff d .ump y).mp y5).1
    · rw [e2]; exact L.home
    · intro n f hf hacc
      rcases ha _ hf hacc with h | h
      · rw [other n f hf h]
        exact (y7 n f hf h).trans (L.reads n f hf h)
      · cases h
        exact y6.trans e4.symm
  | ump =>
    have hr : d.room8 = d.minSize .bytes := if_neg hn
    obtain ⟨-, hB⟩ := C13_ump_to_bytes_partial hd b (L.accepted (hybrid_local hd)) size
    obtain ⟨y, y1, y2, y3, y4, y5, y7⟩ := hB (by rw [hr]; exact hs)
    refine ⟨u', y, e1, y1, y2, y3, y4, ⟨?_, fun _ => y5, fun _ => ⟨hd, hn⟩, ?_, ?_⟩⟩
    · exact ((tryFrom_iff d .bytes y).mp y5).1
    · rw [e2]; exact L.home
    · intro n f hf h
      rw [other n f hf h]
      exact (y7 n f hf h).trans (L.reads n f hf (accessible_ump h))

/-- One step. -/
theorem exec_like {d : MsgDesc} (hd : d ∈ Msg.all) {x : Held} {u : Buf .ump} (L : Like d x u)
    (l : Leg) (hl : l.Legal d x.1) :
    ∃ u', runSetters .ump l.meaning u = .ok u' ∧
      match l.shape d (x.1, x.2.length) with
      | none => l.exec d x = .err .bufferOverflow
      | some s => s.1 = l.fmt x.1 ∧ ∃ y : Buf s.1, l.exec d x = .ok ⟨s.1, y⟩ ∧ y.length = s.2 ∧
          Like d ⟨s.1, y⟩ u' := by
  have hn := of_decide_eq_true (List.all_eq_true.mp table_names d hd)
  obtain ⟨m, b⟩ := x
  have good : d.Good m b := by
    cases m with
    | ump => exact good_ump hd L.long
    | bytes =>
      obtain ⟨h1, h2⟩ := L.bytes rfl
      exact good_bytes h1 L.long fun h => absurd h h2
  cases l with
  | set c =>
    obtain ⟨n, f, v⟩ := c
    obtain ⟨hf, hacc, hv⟩ := hl
    obtain ⟨u', e1, e2, -, e4, e5, -⟩ :=
      setter_step (good_ump hd L.home) hn hf (accessible_ump hacc) v hv
    obtain ⟨b', f1, f2, -, f4, f5, f6⟩ := setter_step good hn hf hacc v hv
    refine ⟨u', by show (f.write .ump u v >>= fun b => runSetters .ump [] b) = _; rw [e1]; rfl, rfl,
      b', ?_, f2, ⟨?_, fun h => f6 (L.accepted h), L.bytes, ?_, ?_⟩⟩
    · show (f.write m b v >>= fun y => pure (⟨m, y⟩ : Held)) = _
      rw [f1]; rfl
    · show d.minSize m ≤ b'.length
      rw [f2]; exact L.long
    · rw [e2]; exact L.home
    · intro n' g hg hga
      by_cases h : n' = n
      · subst h
        have := eq_of_nodup_map hn hf hg
        subst this
        exact f4.trans e4.symm
      · exact (f5 n' g hg h).trans ((L.reads n' g hg hga).trans (e5 n' g hg h).symm)
  | rebuffer => exact ⟨u, rfl, rfl, b, rfl, rfl, L⟩
  | tryRebuffer n =>
    refine ⟨u, rfl, ?_⟩
    by_cases h : b.length ≤ n
    · have hs : (tryRebuffer n).shape d (m, b.length) = some (m, n) := if_pos h
      obtain ⟨A, B⟩ := append_like hd (s := List.replicate (n - b.length) 0) L.bytes L.long
      show match (tryRebuffer n).shape d (m, b.length) with | none => _ | some s => _
      rw [hs]
      refine ⟨rfl, b ++ List.replicate (n - b.length) 0, ?_, by simp; omega,
        ⟨?_, fun h => (A h).mpr (L.accepted h), L.bytes, L.home, ?_⟩⟩
      · show ((if b.length > n then Res.err .bufferOverflow
          else .ok (b ++ List.replicate (n - b.length) 0)) >>= fun y => pure (⟨m, y⟩ : Held)) = _
        rw [if_neg (by omega)]; rfl
      · have := L.long
        show d.minSize m ≤ (b ++ _).length
        rw [List.length_append]
        exact Nat.le_add_right_of_le this
      · exact fun n f hf ha => (B n f hf).trans (L.reads n f hf ha)
    · have hs : (tryRebuffer n).shape d (m, b.length) = none := if_neg h
      show match (tryRebuffer n).shape d (m, b.length) with | none => _ | some s => _
      rw [hs]
      show ((if b.length > n then Res.err .bufferOverflow
        else .ok (b ++ List.replicate (n - b.length) 0)) >>= fun y => pure (⟨m, y⟩ : Held)) = _
      rw [if_pos (by omega)]; rfl
  | arrayRebuffer n =>
    have hl : d.minSize m ≤ n := hl
    have hb : d.minSize m ≤ b.length := L.long
    have hlen : (b.take (d.minSize m)).length = d.minSize m := by rw [List.length_take]; omega
    obtain ⟨A, B⟩ := data_like hd (List.replicate (n - (b.take (d.minSize m)).length) 0) L.bytes
      L.long
    refine ⟨u, rfl, rfl, b.take (d.minSize m) ++
      List.replicate (n - (b.take (d.minSize m)).length) 0, ?_, ?_,
      ⟨?_, fun h => A h (L.accepted h), L.bytes, L.home, ?_⟩⟩
    · show (d.arrayRebuffer m n b >>= fun y => pure (⟨m, y⟩ : Held)) = _
      unfold MsgDesc.arrayRebuffer
      rw [if_neg (by omega), data_ok hb, Res.ok_bind, if_pos (by omega)]; rfl
    · rw [List.length_append, hlen, List.length_replicate]
      show _ = n
      omega
    · show d.minSize m ≤ _
      rw [List.length_append]; omega
    · exact fun n f hf ha => (B n f hf).trans (L.reads n f hf ha)
  | send r =>
    have hb : d.minSize m ≤ b.length := L.long
    have hlen : (b.take (d.minSize m)).length = d.minSize m := by rw [List.length_take]; omega
    obtain ⟨A, B⟩ := data_like hd (r.map (BitVec.ofNat m.w)) L.bytes L.long
    have A := A hl (L.accepted hl)
    refine ⟨u, rfl, rfl, b.take (d.minSize m) ++ r.map (BitVec.ofNat m.w), ?_, ?_,
      ⟨?_, fun _ => A, L.bytes, L.home, ?_⟩⟩
    · show (d.data m b >>= fun w => d.tryFrom m (w ++ r.map (BitVec.ofNat m.w)) >>=
        fun y => pure (⟨m, y⟩ : Held)) = _
      rw [data_ok hb, Res.ok_bind, A]; rfl
    · rw [List.length_append, hlen, List.length_map]
    · show d.minSize m ≤ _
      rw [List.length_append]; omega
    · exact fun n f hf ha => (B n f hf).trans (L.reads n f hf ha)
  | convert =>
    obtain ⟨h1, h2⟩ := hl
    obtain ⟨u', y, e1, -, -, e3, e4, L'⟩ := convert_like h1 h2 L _ (Nat.le_refl _)
    refine ⟨u', e1, rfl, y, ?_, e4, L'⟩
    show (d.convertVec m m.other b >>= fun y => pure (⟨m.other, y⟩ : Held)) = _
    rw [show d.convertVec m m.other b = .ok y from e3 rfl]; rfl
  | arrayConvert n =>
    obtain ⟨h1, h2, h3⟩ := hl
    obtain ⟨u', y, e1, -, e3, -, e4, L'⟩ := convert_like h1 h2 L n h3
    refine ⟨u', e1, rfl, y, ?_, e4, L'⟩
    show (d.convertArray m m.other n b >>= fun y => pure (⟨m.other, y⟩ : Held)) = _
    rw [show d.convertArray m m.other n b = .ok y from e3]; rfl
  | tryConvert n =>
    obtain ⟨h1, h2⟩ := hl
    by_cases h : d.minSize m.other ≤ n
    · obtain ⟨u', y, e1, e3, -, -, e4, L'⟩ := convert_like h1 h2 L n h
      refine ⟨u', e1, ?_⟩
      have hs : (tryConvert n).shape d (m, b.length) = some (m.other, n) := if_pos h
      show match (tryConvert n).shape d (m, b.length) with | none => _ | some s => _
      rw [hs]
      refine ⟨rfl, y, ?_, e4, L'⟩
      show (d.tryConvertArray m m.other n b >>= fun y => pure (⟨m.other, y⟩ : Held)) = _
      rw [show d.tryConvertArray m m.other n b = .ok y from e3]; rfl
    · obtain ⟨u', y, e1, -⟩ := convert_like h1 h2 L _ (Nat.le_refl _)
      refine ⟨u', e1, ?_⟩
      have hs : (tryConvert n).shape d (m, b.length) = none := if_neg h
      show match (tryConvert n).shape d (m, b.length) with | none => _ | some s => _
      rw [hs]
      show (d.tryConvertArray m m.other n b >>= fun y => pure (⟨m.other, y⟩ : Held)) = _
      have : d.tryConvertArray m m.other n b = .err .bufferOverflow := by
        unfold MsgDesc.tryConvertArray fixedTryResize
        rw [if_pos (by rw [List.length_replicate]; omega)]; rfl
      rw [this]; rfl

theorem runSetters_append (m : Fmt) (cs cs' : List SetCall) (b : Buf m) :
    runSetters m (cs ++ cs') b = (runSetters m cs b >>= runSetters m cs') := by
  induction cs generalizing b with
  | nil => rfl
  | cons c cs ih =>
    show (c.fld.write m b c.val >>= fun b => runSetters m (cs ++ cs') b) =
      ((c.fld.write m b c.val >>= fun b => runSetters m cs b) >>= runSetters m cs')
    cases c.fld.write m b c.val with
    | ok b => exact ih b
    | err e => rfl
    | panic => rfl

/-- Any number of steps. -/
theorem execAll_like {d : MsgDesc} (hd : d ∈ Msg.all) (ls : List Leg) :
    ∀ {x : Held} {u : Buf .ump}, Like d x u → AllLegal d x.1 ls →
    (shapes d (x.1, x.2.length) ls = none → execAll d ls x = .err .bufferOverflow) ∧
    ∀ s, shapes d (x.1, x.2.length) ls = some s →
      s.1 = ls.foldl fmt x.1 ∧ ∃ u' y, runSetters .ump (ls.flatMap meaning) u = .ok u' ∧
        execAll d ls x = .ok ⟨s.1, y⟩ ∧ y.length = s.2 ∧ Like d ⟨s.1, y⟩ u' := by
  induction ls with
  | nil =>
    intro x u L _
    exact ⟨(fun h => nomatch h), fun s h => by
      cases h
      exact ⟨rfl, u, x.2, rfl, rfl, rfl, L⟩⟩
  | cons l ls ih =>
    intro x u L hl
    obtain ⟨u', e1, e2⟩ := exec_like hd L l hl.1
    cases hs : l.shape d (x.1, x.2.length) with
    | none =>
      rw [hs] at e2
      have hs' : shapes d (x.1, x.2.length) (l :: ls) = none := by
        show (l.shape d _ >>= _) = _
        rw [hs]; rfl
      rw [hs']
      refine ⟨fun _ => ?_, (fun s h => nomatch h)⟩
      show (l.exec d x >>= fun x => execAll d ls x) = _
      rw [e2]; rfl
    | some s1 =>
      rw [hs] at e2
      obtain ⟨h1, y, e2, e3, L'⟩ := e2
      obtain ⟨A, B⟩ := ih L' (show AllLegal d s1.1 ls by rw [h1]; exact hl.2)
      have hs' : shapes d (x.1, x.2.length) (l :: ls) = shapes d (s1.1, y.length) ls := by
        show (l.shape d _ >>= _) = _
        rw [hs, e3]; rfl
      have he : execAll d (l :: ls) x = execAll d ls ⟨s1.1, y⟩ := by
        show (l.exec d x >>= fun x => execAll d ls x) = _
        rw [e2]; rfl
      rw [hs', he]
      refine ⟨A, fun s h => ?_⟩
      obtain ⟨B1, v, z, B2, B3⟩ := B s h
      refine ⟨by rw [B1]; show List.foldl fmt s1.1 ls = _; rw [h1]; rfl, v, z, ?_, B3⟩
      rw [List.flatMap_cons, runSetters_append, e1]
      exact B2

end Leg

open Leg

/-- C72: a message over words is set, moved, translated and sent in any order.  If an array on
the way is too small for it the journey ends with `BufferOverflow`; otherwise it arrives, in a
buffer of the expected length, and every property reads as if the setters had been called on the
message where it was, with the group set to 0 for every translation.  It never panics. -/
theorem C72_from_ump_partial {d : MsgDesc} (hd : d ∈ Msg.all) (b : Buf .ump)
    (hok : d.tryFrom .ump b = .ok b) (ls : List Leg) (hl : AllLegal d .ump ls) :
    (shapes d (.ump, b.length) ls = none → execAll d ls ⟨.ump, b⟩ = .err .bufferOverflow) ∧
    ∀ m len, shapes d (.ump, b.length) ls = some (m, len) →
      ∃ u x, runSetters .ump (ls.flatMap meaning) b = .ok u ∧
        execAll d ls ⟨.ump, b⟩ = .ok ⟨m, x⟩ ∧ x.length = len ∧
        (d ∈ Msg.localAll → d.tryFrom m x = .ok x) ∧
        ∀ n f, (n, f) ∈ d.props → f.accessible m = true → f.read m x = f.read .ump u := by
  have hb := ((tryFrom_iff d .ump b).mp hok).1
  obtain ⟨A, B⟩ := execAll_like hd ls (x := ⟨.ump, b⟩) (u := b)
    ⟨hb, fun _ => hok, (fun h => nomatch h), hb, fun _ _ _ _ => rfl⟩ hl
  refine ⟨A, fun m len h => ?_⟩
  obtain ⟨-, u, x, h1, h2, h3, L⟩ := B _ h
  exact ⟨u, x, h1, h2, h3, L.accepted, L.reads⟩

/-- C72: the same for a message over bytes.  It reads as if the setters had been called on its
translation to words. -/
theorem C72_from_bytes_partial {d : MsgDesc} (hd : d ∈ Msg.hybridAll)
    (hn : d.name ≠ "system_common::SongPositionPointer") (b : Buf .bytes)
    (hok : d.tryFrom .bytes b = .ok b) (ls : List Leg) (hl : AllLegal d .bytes ls) :
    (shapes d (.bytes, b.length) ls = none → execAll d ls ⟨.bytes, b⟩ = .err .bufferOverflow) ∧
    ∀ m len, shapes d (.bytes, b.length) ls = some (m, len) →
      ∃ w u x, d.convertVec .bytes .ump b = .ok w ∧
        runSetters .ump (ls.flatMap meaning) w = .ok u ∧
        execAll d ls ⟨.bytes, b⟩ = .ok ⟨m, x⟩ ∧ x.length = len ∧ d.tryFrom m x = .ok x ∧
        ∀ n f, (n, f) ∈ d.props → f.accessible m = true → f.read m x = f.read .ump u := by
  have hb := ((tryFrom_iff d .bytes b).mp hok).1
  obtain ⟨w, -, -, w3, w4, w5, -, w7⟩ :=
    (C13_bytes_to_ump hd b hok (fun h => absurd h hn) d.umpSize).2 (Nat.le_refl _)
  obtain ⟨A, B⟩ := execAll_like (hybrid_sub_all hd) ls (x := ⟨.bytes, b⟩) (u := w)
    ⟨hb, fun _ => hok, fun _ => ⟨hd, hn⟩, ((tryFrom_iff d .ump w).mp w5).1,
      fun n f hf ha => (w7 n f hf ha).symm⟩ hl
  refine ⟨A, fun m len h => ?_⟩
  obtain ⟨-, u, x, h1, h2, h3, L⟩ := B _ h
  exact ⟨w, u, x, w3 rfl, h1, h2, h3, L.accepted (hybrid_local hd), L.reads⟩

/-- A note that is set over words, translated to bytes in an array, set there, sent in front of a
timing clock, moved into another array, translated back and given a group. -/
private def trip : List Leg :=
  let vel : Fld := .hybrid .u7 ⟨0, 0, 0x7F⟩ ⟨0x0000007F, 0, 0, 0⟩
  [.set ⟨"velocity", vel, (0x40 : BitVec 7)⟩, .tryConvert 3,
   .set ⟨"note_number", .hybrid .u7 ⟨0, 0x7F, 0⟩ ⟨0x00007F00, 0, 0, 0⟩, (0x3D : BitVec 7)⟩,
   .send [0xF8], .tryRebuffer 5, .convert, .set ⟨"group", groupFld, (7 : BitVec 4)⟩]

example : Msg.cv1NoteOn ∈ Msg.all ∧ Msg.cv1NoteOn.tryFrom .ump [0x2A933C7F] = .ok [0x2A933C7F] ∧
    AllLegal Msg.cv1NoteOn .ump trip ∧ shapes Msg.cv1NoteOn (.ump, 1) trip = some (.ump, 1) ∧
    execAll Msg.cv1NoteOn trip ⟨.ump, [0x2A933C7F]⟩ = .ok ⟨.ump, [0x27933D40]⟩ ∧
    runSetters .ump (trip.flatMap meaning) [0x2A933C7F] = .ok [0x27933D40] := by
  refine ⟨by simp [Msg.all, Msg.cv1All], by decide +kernel, ?_, by decide +kernel, rfl, rfl⟩
  simp only [trip, AllLegal, Legal, SetCall.legal, Leg.fmt, Fmt.other, and_true, true_and]
  simp [Msg.hybridAll, Msg.cv1All, Msg.cv1NoteOn, Fld.accessible, Fld.faithful, groupFld]
  exact ⟨rfl, rfl, rfl⟩

example : execAll Msg.cv1NoteOn [.convert, .tryRebuffer 2] ⟨.ump, [0x2A933C7F]⟩ =
      .err .bufferOverflow ∧
    shapes Msg.cv1NoteOn (.ump, 1) [.convert, .tryRebuffer 2] = none ∧
    execAll Msg.cv1NoteOn [.send [0xF8], .arrayConvert 2, .rebuffer] ⟨.bytes, [0x93, 0x3C, 0x7F]⟩ =
      .ok ⟨.ump, [0x20933C7F, 0]⟩ := ⟨rfl, rfl, rfl⟩

end Midi2
