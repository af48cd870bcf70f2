import Verif.Spec.Recorder
import Verif.Lemmas.Link
import Verif.Lemmas.Gateway
import Verif.Props.EndToEnd

/-!
# Lemmas for the recorder and the player
-/

namespace Midi2

open Rx Gateway

/-- What a stamp is. -/
structure Stamp (t : BitVec 20) (m : UmpKind × Buf .ump) : Prop where
  whole : Whole m
  kind : m.1 = .fixed Msg.utilDeltaClockstamp
  ticks : Fld.u20Data.read .ump m.2 = .ok t

theorem stamp_ok (t : BitVec 20) : ∃ m, stamp t = .ok m ∧ Stamp t m := by
  obtain ⟨b, x, h1, h2, h3, h4, h5⟩ := built_fixed (d := Msg.utilDeltaClockstamp)
    (by simp [Msg.all, Msg.utilAll]) (by decide) [⟨"time_data", .u20Data, t⟩]
    (by
      intro c hc
      simp only [List.mem_cons, List.not_mem_nil, or_false] at hc
      cases hc
      exact ⟨by simp [Msg.utilDeltaClockstamp], rfl, rfl⟩)
  refine ⟨(.fixed Msg.utilDeltaClockstamp, x), ?_, ⟨h4, h1⟩, rfl,
    h5.1 [] "time_data" .u20Data t [] rfl (fun _ h => nomatch h)⟩
  unfold stamp
  cases hn : Msg.utilDeltaClockstamp.newVec .ump with
  | ok a =>
    rw [hn, Res.ok_bind] at h2
    rw [Res.ok_bind]
    have h2 : (Fld.u20Data.write .ump a t >>= fun b => .ok b) = .ok b := h2
    cases hw : Fld.u20Data.write .ump a t with
    | ok b' => rw [hw] at h2; cases h2; rw [Res.ok_bind, h3]; rfl
    | err e => rw [hw] at h2; cases h2
    | panic => rw [hw] at h2; cases h2
  | err e => rw [hn] at h2; cases h2
  | panic => rw [hn] at h2; cases h2

/-- A run of stamps. -/
def Stamps (n : Nat) (s : List (UmpKind × Buf .ump)) : Prop :=
  ∃ ts, Pairs Stamp ts s ∧ (ts.map BitVec.toNat).sum = n

theorem stamps_ok (n : Nat) : ∃ s, stamps n = .ok s ∧ Stamps n s := by
  obtain ⟨s, h1, h2⟩ := each_exists (f := stamp) (P := Stamp)
    (as := List.replicate (n / 0xFFFFF) 0xFFFFF#20 ++ [BitVec.ofNat 20 (n % 0xFFFFF)])
    fun t _ => stamp_ok t
  refine ⟨s, h1, _, h2, ?_⟩
  rw [List.map_append, List.sum_append, List.map_replicate, List.sum_replicate_nat]
  have : (BitVec.ofNat 20 (n % 0xFFFFF)).toNat = n % 0xFFFFF := by
    rw [BitVec.toNat_ofNat]; exact Nat.mod_eq_of_lt (by omega)
  simp only [List.map_cons, List.map_nil, List.sum_cons, List.sum_nil, this]
  show n / 0xFFFFF * 0xFFFFF + _ = n
  omega

theorem play_stamp {t : BitVec 20} {m : UmpKind × Buf .ump} (h : Stamp t m)
    (rest : List (UmpKind × Buf .ump)) (now : Nat) :
    play now (m :: rest) = play (now + t.toNat) rest := by
  rw [play, if_pos h.kind, show (Fld.u20Data.read .ump m.2 : Res (BitVec 20)) = _ from h.ticks,
    Res.ok_bind]

theorem play_other {m : UmpKind × Buf .ump} (h : m.1 ≠ .fixed Msg.utilDeltaClockstamp)
    {rest : List (UmpKind × Buf .ump)} {now : Nat} {es : List (Nat × (UmpKind × Buf .ump))}
    (he : play now rest = .ok es) : play now (m :: rest) = .ok ((now, m) :: es) := by
  rw [play, if_neg h, he]; rfl

theorem play_stamps {ts : List (BitVec 20)} {s : List (UmpKind × Buf .ump)} (h : Pairs Stamp ts s)
    (rest : List (UmpKind × Buf .ump)) (now : Nat) :
    play now (s ++ rest) = play (now + (ts.map BitVec.toNat).sum) rest := by
  induction h generalizing now with
  | nil => rfl
  | cons h1 _ ih =>
    rw [List.cons_append, play_stamp h1, ih, List.map_cons, List.sum_cons, Nat.add_assoc]

theorem pairs_front {ts : List (BitVec 20)} {s a b : List (UmpKind × Buf .ump)}
    (h : Pairs Stamp ts s) (e : s = a ++ b) : ∃ us, Pairs Stamp us a := by
  induction h generalizing a with
  | nil =>
    obtain ⟨rfl, -⟩ := List.append_eq_nil_iff.mp e.symm
    exact ⟨[], .nil⟩
  | cons h1 _ ih =>
    cases a with
    | nil => exact ⟨[], .nil⟩
    | cons x a =>
      cases e
      obtain ⟨us, hu⟩ := ih rfl
      exact ⟨_, .cons h1 hu⟩

theorem play_front {ts : List (BitVec 20)} {s a b : List (UmpKind × Buf .ump)}
    (h : Pairs Stamp ts s) (e : s = a ++ b) (now : Nat) : play now a = .ok [] := by
  obtain ⟨us, hu⟩ := pairs_front h e
  have := play_stamps hu [] now
  rw [List.append_nil] at this
  rw [this]; rfl

theorem stamps_whole {ts : List (BitVec 20)} {s : List (UmpKind × Buf .ump)} (h : Pairs Stamp ts s) :
    ∀ m ∈ s, Whole m ∧ inPackets m = m := by
  induction h with
  | nil => exact fun _ h => nomatch h
  | cons h1 _ ih =>
    intro m hm
    rcases List.mem_cons.mp hm with rfl | hm
    · exact ⟨h1.whole, if_neg (by rw [h1.kind]; decide)⟩
    · exact ih m hm

theorem inPackets_kind (m : UmpKind × Buf .ump) : (inPackets m).1 = m.1 := by
  unfold inPackets; split <;> rfl

/-- An event that can be recorded. -/
def Event (e : Nat × (UmpKind × Buf .ump)) : Prop :=
  Whole e.2 ∧ e.2.1 ≠ .fixed Msg.utilDeltaClockstamp

theorem record_ok : ∀ {es : List (Nat × (UmpKind × Buf .ump))}, (∀ e ∈ es, Event e) →
    ∃ ms, record es = .ok ms ∧ ∀ m ∈ ms, Whole m
  | [], _ => ⟨[], rfl, fun _ h => nomatch h⟩
  | e :: es, h => by
    obtain ⟨s, h1, ts, h2, -⟩ := stamps_ok e.1
    obtain ⟨ms, h3, h4⟩ := record_ok (es := es) fun x hx => h x (List.mem_cons_of_mem _ hx)
    refine ⟨s ++ e.2 :: ms, by rw [record, h1, Res.ok_bind, h3]; rfl, fun m hm => ?_⟩
    rcases List.mem_append.mp hm with hm | hm
    · exact (stamps_whole h2 m hm).1
    · rcases List.mem_cons.mp hm with rfl | hm
      · exact (h e List.mem_cons_self).1
      · exact h4 m hm

/-- Of a recording of which the messages `t` have come in, the player gives out the first `n`
events; the recording of these is in `t`, and that of one more is not. -/
theorem record_front : ∀ {es : List (Nat × (UmpKind × Buf .ump))}, (∀ e ∈ es, Event e) →
    ∀ {t u : List (UmpKind × Buf .ump)}, record es = .ok (t ++ u) → ∀ now,
    ∃ n a, n ≤ es.length ∧ record (es.take n) = .ok a ∧ a <+: t ∧
      play now (t.map inPackets) = .ok ((timeline now (es.take n)).map fun x => (x.1, inPackets x.2)) ∧
      (n < es.length → ∃ c m u', record (es.take (n + 1)) = .ok c ∧ u = m :: u' ∧ t ++ [m] <+: c) ∧
      (u = [] → n = es.length)
  | [], _, t, u, hr, now => by
    obtain ⟨rfl, rfl⟩ := List.append_eq_nil_iff.mp (Res.ok.inj hr).symm
    exact ⟨0, [], Nat.le_refl _, rfl, List.nil_prefix, rfl, fun h => absurd h (Nat.lt_irrefl _), fun _ => rfl⟩
  | e :: es, he, t, u, hr, now => by
    have hes := fun x hx => he x (List.mem_cons_of_mem e hx)
    obtain ⟨s, h1, ts, h2, hsum⟩ := stamps_ok e.1
    obtain ⟨ms, h3, h4⟩ := record_ok hes
    have hrec : record (e :: es) = .ok (s ++ e.2 :: ms) := by rw [record, h1, Res.ok_bind, h3]; rfl
    have hall := Res.ok.inj (hrec.symm.trans hr)
    have one : record [e] = .ok (s ++ [e.2]) := by rw [record, h1, Res.ok_bind]; rfl
    have hmap : ∀ {x : List (UmpKind × Buf .ump)}, (∀ m ∈ x, m ∈ s) → x.map inPackets = x := by
      intro x hx
      conv => rhs; rw [← List.map_id x]
      exact List.map_congr_left fun m hm => (stamps_whole h2 m (hx m hm)).2
    rcases List.append_eq_append_iff.mp hall with ⟨c, hc1, hc2⟩ | ⟨c, hc1, hc2⟩
    · -- the stamps have come in
      cases c with
      | nil =>
        rw [List.append_nil] at hc1
        subst hc1
        refine ⟨0, [], Nat.zero_le _, rfl, List.nil_prefix, ?_, fun _ => ?_, fun h => ?_⟩
        · rw [hmap fun _ h => h]; exact play_front h2 (List.append_nil _).symm now
        · exact ⟨_, e.2, ms, one, hc2.symm, List.prefix_refl _⟩
        · rw [h] at hc2; cases hc2
      | cons x c =>
        obtain ⟨rfl, hc3⟩ := List.cons.inj hc2
        subst hc1
        rw [show ms = c ++ u from hc3] at h3
        obtain ⟨n, a, k1, k2, k3, k4, k5, k6⟩ := record_front hes h3 (now + e.1)
        have ext : ∀ {x y}, record x = .ok y → record (e :: x) = .ok (s ++ e.2 :: y) := by
          intro x y hx; rw [record, h1, Res.ok_bind, hx]; rfl
        refine ⟨n + 1, s ++ e.2 :: a, Nat.succ_le_succ k1, ?_, ?_, ?_, fun hn => ?_, fun hu => ?_⟩
        · rw [List.take_succ_cons]; exact ext k2
        · exact (List.prefix_append_right_inj _).mpr (List.cons_prefix_cons.mpr ⟨rfl, k3⟩)
        · rw [List.map_append, hmap fun _ h => h, play_stamps h2, hsum, List.map_cons,
            List.take_succ_cons]
          exact play_other (by rw [inPackets_kind]; exact (he e List.mem_cons_self).2) k4
        · obtain ⟨c', m, u', q1, q2, q3⟩ := k5 (Nat.lt_of_succ_lt_succ hn)
          refine ⟨s ++ e.2 :: c', m, u', ?_, q2, ?_⟩
          · rw [List.take_succ_cons]; exact ext q1
          · rw [List.append_assoc, List.cons_append]
            exact (List.prefix_append_right_inj _).mpr (List.cons_prefix_cons.mpr ⟨rfl, q3⟩)
        · rw [k6 hu]; rfl
    · -- part of the stamps has come in
      refine ⟨0, [], Nat.zero_le _, rfl, List.nil_prefix, ?_, fun _ => ?_, fun h => ?_⟩
      · rw [hmap fun m hm => by rw [hc1]; exact List.mem_append_left _ hm]
        exact play_front h2 hc1 now
      · cases c with
        | nil =>
          rw [List.append_nil] at hc1
          refine ⟨_, e.2, ms, one, hc2, ?_⟩
          rw [hc1]; exact List.prefix_refl _
        | cons m c =>
          refine ⟨_, m, c ++ e.2 :: ms, one, hc2, ?_⟩
          rw [hc1, List.append_assoc]
          exact (List.prefix_append_right_inj _).mpr (List.cons_prefix_cons.mpr ⟨rfl, List.nil_prefix⟩)
      · rw [h] at hc2
        exact absurd hc2.symm (by simp)

theorem sendAll_append : ∀ {a b : List (UmpKind × Buf .ump)} {q : List (Buf .ump)},
    sendAll (a ++ b) = .ok q → ∃ p r, sendAll a = .ok p ∧ sendAll b = .ok r ∧ q = p ++ r
  | [], _, q, h => ⟨[], q, rfl, h, rfl⟩
  | m :: a, b, q, h => by
    rw [List.cons_append, sendAll] at h
    cases hs : send m with
    | ok x =>
      rw [hs, Res.ok_bind] at h
      cases hq : sendAll (a ++ b) with
      | ok y =>
        rw [hq] at h
        cases h
        obtain ⟨p, r, h1, h2, rfl⟩ := sendAll_append hq
        exact ⟨x ++ p, r, by rw [sendAll, hs, Res.ok_bind, h1]; rfl, h2, (List.append_assoc ..).symm⟩
      | err e => rw [hq] at h; cases h
      | panic => rw [hq] at h; cases h
    | err e => rw [hs] at h; cases h
    | panic => rw [hs] at h; cases h

end Midi2
