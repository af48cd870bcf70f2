import Verif.Lemmas.BehindPayload
import Verif.Lemmas.EffortExact
import Verif.Spec.BehindPayload

/-! Setting a payload on a buffer of fixed size, from an iterator with any size hint: what is behind
the payload afterwards. -/

namespace Midi2

namespace Sx

/-- Behind octet `T` the buffer has the headers of a message of `r` bytes. -/
def Stamped (k : Sx) (g : BitVec 4) (T r : Nat) (b s : Buf .ump) : Prop :=
  ∃ c c', Keeps T b c ∧ Resized k g (k.count r) r c c' ∧ Keeps T c' s

theorem Stamped.keeps {k : Sx} {g : BitVec 4} {T r : Nat} {b s s' : Buf .ump}
    (h : Stamped k g T r b s) (h' : Keeps T s s') : Stamped k g T r b s' := by
  obtain ⟨c, c', h1, h2, h3⟩ := h
  exact ⟨c, c', h1, h2, h3.trans h'⟩

theorem Resized.keeps_of {k : Sx} {g : BitVec 4} {m T : Nat} {b b' : Buf .ump}
    (r : Resized k g (k.count m) m b b') (hT : 4 * (k.stride * k.count m) ≤ T) : Keeps T b b' :=
  ⟨r.len, fun a ha => r.beyond a (Nat.le_trans hT ha)⟩

theorem count_mono (k : Sx) {m n : Nat} (h : m ≤ n) : k.count m ≤ k.count n := by
  rw [k.count_le_iff m _ (k.count_pos n)]
  exact Nat.le_trans h (k.le_count n)

/-- Writing items into room made for `est` of them. -/
theorem fill_est (k : Sx) (dbg : Bool) (m : Mem) {g : BitVec 4} {p est n : Nat} :
    ∀ (data : List k.Byte) {s : Buf .ump} {l : List k.Byte} {w : Nat} {s' : Buf .ump}
      {rest : List k.Byte} {w' : Nat} {ex : Bool},
    Packed k g p s l → l.length = est → w ≤ est → w + data.length = n →
    (k.ops dbg m).fill 0 est data s w = .ok (s', rest, w', ex) →
    Keeps (4 * (k.stride * k.count n)) s s' ∧ w' + rest.length = n ∧ w' ≤ est ∧
      (∃ l' : List k.Byte, l'.length = est ∧ Packed k g p s' l') ∧
      (ex = true → rest = []) ∧ (ex = false → w' = est) := by
  intro data
  induction data with
  | nil =>
    intro s l w s' rest w' ex P hl hw hn h
    simp only [SxOps.fill, Res.ok.injEq, Prod.mk.injEq] at h
    obtain ⟨rfl, rfl, rfl, rfl⟩ := h
    refine ⟨Keeps.refl _ _, hn, hw, ⟨l, hl, P⟩, fun _ => rfl, fun h => ?_⟩
    have := of_decide_eq_false h
    omega
  | cons v data ih =>
    intro s l w s' rest w' ex P hl hw hn h
    unfold SxOps.fill at h
    split at h
    · next hlt =>
      obtain ⟨s1, h1, h⟩ := Res.of_bind_ok h
      have h1 : k.writeDatum s v (0 + w) = .ok s1 := h1
      rw [Nat.zero_add] at h1
      obtain ⟨b', e1, _, P'⟩ := P.write v (i := w) (by omega)
      rw [e1] at h1
      cases h1
      have hlt' : k.addr w < 4 * s.length := P.addr_lt (by omega)
      obtain ⟨b2, f1, f2, f3, _⟩ := k.modify_byte hlt' v
      rw [writeDatum_eq, f1] at e1
      cases e1
      rw [List.length_cons] at hn
      obtain ⟨i1, i2⟩ := ih P' (by rw [List.length_set]; exact hl) (by omega) (by omega) h
      refine ⟨Keeps.trans ⟨f2, fun a ha => f3 a ?_⟩ i1, i2⟩
      have := k.addr_lt_span (i := w) (n := n) (by omega)
      have := k.span_le n
      omega
    · next hlt =>
      simp only [Res.ok.injEq, Prod.mk.injEq] at h
      obtain ⟨rfl, rfl, rfl, rfl⟩ := h
      exact ⟨Keeps.refl _ _, hn, hw, ⟨l, hl, P⟩, fun h => (Bool.false_ne_true h).elim,
        fun _ => by omega⟩

/-- A resize of a buffer of fixed size, whether there is room or not. -/
theorem tryResize_clipped {k : Sx} {g : BitVec 4} {m : Nat} {s s' : Buf .ump} {r : Option Nat}
    (hs : k.stride ≤ s.length) (hg : ∃ w, s[0]? = some w ∧ U32.nibble w 1 = g)
    (h : k.tryResize .fixed s m = .ok (s', r)) :
    ∃ e, e = min (s.length / k.stride * k.cap) m ∧ r.getD m = e ∧
      Resized k g (k.count e) e s s' ∧ k.stride * k.count e ≤ s.length := by
  by_cases hm : k.stride * k.count m ≤ s.length
  · obtain ⟨b1, e, R⟩ := k.tryResize_fine (m := .fixed) (b := s) (n := m) (b1 := s)
      (by simp [Mem.resize, hm]) hm hg
    rw [e] at h
    cases h
    have := (k.limit_iff hs).mpr hm
    exact ⟨m, by omega, rfl, R, hm⟩
  · obtain ⟨b1, e, R⟩ := k.tryResize_full (n := m) (by omega) hs hg
    rw [e] at h
    cases h
    have h1 : ¬ m ≤ s.length / k.stride * k.cap := fun c => hm ((k.limit_iff hs).mp c)
    have hpos : 0 < s.length / k.stride := Nat.div_pos hs k.stride_pos
    refine ⟨s.length / k.stride * k.cap, by omega, rfl, ?_, ?_⟩
    · rw [k.count_mul _ hpos]; exact R
    · exact (k.limit_iff hs).mp (Nat.le_refl _)

theorem moveTail_end {k : Sx} {dbg : Bool} {b b' : Buf .ump} {n t u : Nat}
    (hn : k.payloadSize b = .ok n) (hb : t = n ∨ u = n)
    (h : k.moveTail dbg b t u = .ok b') : b' = b := by
  unfold moveTail at h
  obtain ⟨_, -, h⟩ := Res.of_bind_ok h
  rw [hn] at h
  simp only [Res.ok_bind] at h
  split at h
  · next hlt =>
    obtain ⟨hi, h1, h⟩ := Res.of_bind_ok h
    obtain ⟨h2, rfl⟩ := usub_inv h1
    rw [show n - (u - t) - t = 0 by omega] at h
    simp only [List.range'_zero, List.reverse_nil, List.foldlM_nil] at h
    cases h
    rfl
  · split at h
    · next hlt =>
      rcases hb with rfl | rfl
      · simp only [Nat.sub_self, List.range'_zero, List.foldlM_nil] at h
        cases h
        rfl
      · rw [show u - t = 0 by omega] at h
        simp only [List.range'_zero, List.foldlM_nil] at h
        cases h
        rfl
    · cases h
      rfl

/-- The loop. -/
theorem mainLoop_stamped (k : Sx) (dbg : Bool) {g : BitVec 4} {b : Buf .ump} {n C : Nat}
    (hC : C = b.length / k.stride * k.cap) (hn : n ≤ C) (hb : k.stride ≤ b.length) :
    ∀ (fuel : Nat) {s : Buf .ump} {data l : List k.Byte} {w est a : Nat} {e : LoopEnd (Buf .ump)},
    Packed k g (k.count est) s l → l.length = est → s.length = b.length → w ≤ est →
    w + data.length = n →
    (est < n → Keeps (4 * (k.stride * k.count n)) b s) →
    (n ≤ est → Stamped k g (4 * (k.stride * k.count n)) est b s) →
    (k.ops dbg .fixed).mainLoop 0 0 0 fuel s data w est (a + 1) est = .ok e →
    ∃ s' r, e = .done s' n r ∧
      r = (if n ≤ est then est else min C ((guesses n est a).getLastD est)) ∧
      (∃ l', l'.length = r ∧ Packed k g (k.count r) s' (l' : List k.Byte)) ∧
      s'.length = b.length ∧ Stamped k g (4 * (k.stride * k.count n)) r b s' := by
  intro fuel
  induction fuel with
  | zero => intro s data l w est a e _ _ _ _ _ _ _ h; cases h
  | succ fuel ih =>
    intro s data l w est a e P hl hs hw hd hk hst h
    unfold SxOps.mainLoop at h
    obtain ⟨⟨s1, rest, w1, ex⟩, h1, h⟩ := Res.of_bind_ok h
    obtain ⟨K1, d1, d2, ⟨l1, hl1, P1⟩, d3, d4⟩ := fill_est k dbg .fixed data P hl hw hd h1
    simp only at h
    have fin : rest = [] → n ≤ est → ∃ s' r, LoopEnd.done s1 w1 est = LoopEnd.done s' n r ∧
      r = (if n ≤ est then est else min C ((guesses n est a).getLastD est)) ∧
      (∃ l', l'.length = r ∧ Packed k g (k.count r) s' (l' : List k.Byte)) ∧
      s'.length = b.length ∧ Stamped k g (4 * (k.stride * k.count n)) r b s' := by
      intro hr he
      subst hr
      rw [List.length_nil, Nat.add_zero] at d1
      subst d1
      exact ⟨s1, est, rfl, (if_pos he).symm, ⟨l1, hl1, P1⟩, K1.1.trans hs, (hst he).keeps K1⟩
    split at h
    · next hex =>
      cases h
      have hr := d3 hex
      refine fin hr ?_
      rw [hr, List.length_nil] at d1
      omega
    · next hex =>
      have hex : ex = false := by simpa using hex
      have hw1 := d4 hex
      subst hw1
      obtain ⟨_, -, h⟩ := Res.of_bind_ok h
      split at h
      · next he =>
        cases h
        have hr : rest = [] := by simpa using he
        refine fin hr ?_
        rw [hr, List.length_nil] at d1
        omega
      · next he =>
        have hr : rest ≠ [] := by simpa using he
        have hlt : w1 < n := by
          cases rest with
          | nil => exact absurd rfl hr
          | cons _ _ => rw [List.length_cons] at d1; omega
        have Kb : Keeps (4 * (k.stride * k.count n)) b s1 := (hk hlt).trans K1
        obtain ⟨⟨s2, est2, to⟩, h2, h⟩ := Res.of_bind_ok h
        have hs1 : k.stride ≤ s1.length := by rw [Kb.1]; exact hb
        unfold SxOps.growMore at h2
        rw [if_pos (by omega)] at h2
        obtain ⟨m, h3, h2⟩ := Res.of_bind_ok h2
        obtain ⟨_, hm⟩ := usub_inv h3
        rw [Nat.add_zero, Nat.sub_zero] at hm
        obtain ⟨⟨s3, r3⟩, h4, h2⟩ := Res.of_bind_ok h2
        rw [hm] at h4
        obtain ⟨c, hc, hr3, R, hfit⟩ := tryResize_clipped hs1 P1.group_eq h4
        have hout : s3 = s2 ∧ est2 = c ∧ to = c := by
          cases r3 with
          | none =>
            simp only [Res.ok.injEq, Prod.mk.injEq] at h2
            obtain ⟨x1, x2, x3⟩ := h2
            simp only [Option.getD_none] at hr3
            exact ⟨x1, by omega, by omega⟩
          | some sz =>
            obtain ⟨kept, h5, h2⟩ := Res.of_bind_ok h2
            obtain ⟨_, hkept⟩ := usub_inv h5
            obtain ⟨to', h6, h2⟩ := Res.of_bind_ok h2
            obtain ⟨_, hto⟩ := usub_inv h6
            simp only [Res.ok.injEq, Prod.mk.injEq] at h2
            obtain ⟨x1, x2, x3⟩ := h2
            simp only [Option.getD_some] at hr3
            exact ⟨x1, by omega, by omega⟩
        obtain ⟨rfl, rfl, rfl⟩ := hout
        obtain ⟨l2, hl2, P2, _⟩ := R.packed hfit
        simp only at h
        obtain ⟨s4, h7, h⟩ := Res.of_bind_ok h
        have hps : k.payloadSize s3 = .ok to := by rw [P2.payloadSize_eq, hl2]
        rw [moveTail_end hps (.inr rfl) h7] at h
        have hC2 : s1.length / k.stride * k.cap = C := by rw [Kb.1, hC]
        rw [hC2] at hc
        rw [if_neg (by omega), Nat.zero_add] at h
        rw [show (a + 1) * 2 = (2 * a + 1) + 1 by omega] at h
        have hin : to < n → to = w1 + (a + 1) := by omega
        obtain ⟨s', r, e1, e2, e3, e4, e5⟩ := ih P2 hl2 (R.len.trans Kb.1) (by omega) d1
          (fun hlt2 => Kb.trans (R.keeps_of (Nat.mul_le_mul_left 4 (Nat.mul_le_mul_left _
            (k.count_mono (Nat.le_of_lt hlt2))))))
          (fun _ => ⟨s1, s3, Kb, R, Keeps.refl _ _⟩) h
        refine ⟨s', r, e1, ?_, e3, e4, e5⟩
        rw [if_neg (by omega), guesses_lt hlt, List.getLastD_cons, e2]
        by_cases hle : n ≤ w1 + (a + 1)
        · rw [if_pos (by omega), guesses_ge hle]
          simp only [List.getLastD_nil]
          exact hc
        · have e : to = w1 + (a + 1) := by omega
          rw [if_neg (by omega), e]

/-- `try_set_payload` with any size hint, on a buffer with room. -/
theorem trySetPayload_stamped (k : Sx) (dbg : Bool) {g : BitVec 4} {b b' : Buf .ump}
    {o : Option Error} (d : Src k.Byte)
    (hl : k.stride * k.count d.items.length ≤ b.length)
    (hg : ∃ w, b[0]? = some w ∧ U32.nibble w 1 = g)
    (h : (k.ops dbg .fixed).trySetPayload b d = .ok (b', o)) :
    Stamped k g (4 * (k.stride * k.count d.items.length))
      (d.madeRoomFor (b.length / k.stride * k.cap)) b b' := by
  have he : d.upper.getD d.lower = d.estimate := by
    unfold Src.estimate; cases d.upper <;> rfl
  unfold Src.madeRoomFor
  rw [he]
  generalize hn : d.items.length = n at hl ⊢
  have hc0 : k.count 0 = 1 := rfl
  have hb : k.stride * k.count 0 ≤ b.length :=
    Nat.le_trans (Nat.mul_le_mul_left _ (k.count_pos n)) hl
  have hb1 : k.stride ≤ b.length := by rw [hc0] at hb; omega
  have hC := (k.limit_iff (n := n) hb1).mpr hl
  generalize hCe : b.length / k.stride * k.cap = C at hC ⊢
  have h0T : 4 * (k.stride * k.count 0) ≤ 4 * (k.stride * k.count n) :=
    Nat.mul_le_mul_left 4 (Nat.mul_le_mul_left _ (k.count_mono (Nat.zero_le n)))
  unfold SxOps.trySetPayload at h
  obtain ⟨⟨b1, r⟩, h1, h⟩ := Res.of_bind_ok h
  obtain ⟨_, rfl, R1⟩ := tryResize_keeps (n := n) (.inl rfl) (.inl rfl) hb hg h1
  have K1 := R1.keeps_of h0T
  obtain ⟨l', f1, P1, _⟩ := R1.packed hb
  cases List.eq_nil_of_length_eq_zero f1
  simp only [SxOps.tryInsert, SxOps.trySplice] at h
  obtain ⟨⟨b9, o9⟩, h2, h⟩ := Res.of_bind_ok h
  have key : Stamped k g (4 * (k.stride * k.count n))
      (min C ((guesses n d.estimate 0).getLastD d.estimate)) b b9 ∧ o9 = none := by
    unfold SxOps.trySpliceDetail at h2
    obtain ⟨b2, h3, h2⟩ := Res.of_bind_ok h2
    obtain ⟨K2', P2⟩ := compact_keeps (n := n) P1 h3
    have K2 : Keeps (4 * (k.stride * k.count n)) b1 b2 :=
      ⟨K2'.1, fun a ha => K2'.2 a (Nat.le_trans (k.span_le n) ha)⟩
    obtain ⟨initial, h4, h2⟩ := Res.of_bind_ok h2
    have h4 : k.payloadSize b2 = .ok initial := h4
    rw [P2.payloadSize_eq] at h4
    cases h4
    have hl2 : b2.length = b.length := K2.1.trans K1.1
    simp only [Bound.spliceBegin, Bound.spliceEnd, List.length_nil] at h2
    obtain ⟨sp, h5, h2⟩ := Res.of_bind_ok h2
    obtain ⟨_, hsp⟩ := usub_inv h5
    rw [Nat.sub_zero] at hsp
    subst hsp
    obtain ⟨⟨b3, est⟩, h6, h2⟩ := Res.of_bind_ok h2
    have grow : est = min C d.estimate ∧ b3.length = b.length ∧
        (∃ l3 : List k.Byte, l3.length = est ∧ Packed k g (k.count est) b3 l3) ∧
        (est < n → Keeps (4 * (k.stride * k.count n)) b b3) ∧
        (n ≤ est → Stamped k g (4 * (k.stride * k.count n)) est b b3) := by
      unfold SxOps.firstGrow at h6
      obtain ⟨gr, h7, h6⟩ := Res.of_bind_ok h6
      obtain ⟨_, hgr⟩ := usub_inv h7
      split at h6
      · next hlt =>
        obtain ⟨m, h8, h6⟩ := Res.of_bind_ok h6
        obtain ⟨_, hm⟩ := usub_inv h8
        obtain ⟨⟨b4, r⟩, h9, h6⟩ := Res.of_bind_ok h6
        rw [hm, Nat.add_zero, Nat.sub_zero] at h9
        obtain ⟨c, hc, hr3, R, hfit⟩ := tryResize_clipped (by rw [hl2]; exact hb1) P2.group_eq h9
        have hout : b4 = b3 ∧ est = c := by
          cases r with
          | none =>
            simp only [Res.ok.injEq, Prod.mk.injEq] at h6
            simp only [Option.getD_none] at hr3
            exact ⟨h6.1, by omega⟩
          | some sz =>
            obtain ⟨kept, h5, h6⟩ := Res.of_bind_ok h6
            obtain ⟨_, hkept⟩ := usub_inv h5
            simp only [Res.ok.injEq, Prod.mk.injEq] at h6
            simp only [Option.getD_some] at hr3
            exact ⟨h6.1, by omega⟩
        obtain ⟨rfl, rfl⟩ := hout
        rw [hl2, hCe] at hc
        obtain ⟨l3, g1, P3, _⟩ := R.packed hfit
        refine ⟨hc, R.len.trans hl2, ⟨l3, g1, P3⟩, fun hlt2 => (K1.trans K2).trans (R.keeps_of ?_),
          fun _ => ⟨b2, _, K1.trans K2, R, Keeps.refl _ _⟩⟩
        exact Nat.mul_le_mul_left 4 (Nat.mul_le_mul_left _ (k.count_mono (Nat.le_of_lt hlt2)))
      · next hz =>
        simp only [Res.ok.injEq, Prod.mk.injEq] at h6
        obtain ⟨rfl, hest⟩ := h6
        have hest0 : est = 0 := by omega
        subst hest0
        refine ⟨by omega, hl2, ⟨[], rfl, P2⟩, fun _ => K1.trans K2, fun _ => ?_⟩
        exact ⟨b, b1, Keeps.refl _ _, R1, K2⟩
    obtain ⟨hest, hl3, ⟨l3, g1, P3⟩, hk, hst⟩ := grow
    obtain ⟨tail, h7, h2⟩ := Res.of_bind_ok h2
    obtain ⟨_, htail⟩ := usub_inv h7
    rw [Nat.zero_add, Nat.sub_zero] at htail
    subst htail
    obtain ⟨b4, h8, h2⟩ := Res.of_bind_ok h2
    have hps : k.payloadSize b3 = .ok tail := by rw [P3.payloadSize_eq, g1]
    rw [moveTail_end hps (.inr rfl) h8] at h2
    obtain ⟨e, h9, h2⟩ := Res.of_bind_ok h2
    obtain ⟨s', r, e1, e2, ⟨l5, g5, P5⟩, hl5, S5⟩ := mainLoop_stamped k dbg (a := 0) hCe.symm hC hb1
      _ P3 g1 hl3 (Nat.zero_le _) (by rw [Nat.zero_add]; exact hn) hk hst h9
    subst e1
    simp only at h2
    obtain ⟨b6, h11, h2⟩ := Res.of_bind_ok h2
    have hps : k.payloadSize s' = .ok r := by rw [P5.payloadSize_eq, g5]
    rw [moveTail_end hps (.inl rfl) h11] at h2
    obtain ⟨m, h12, h2⟩ := Res.of_bind_ok h2
    obtain ⟨_, hm⟩ := usub_inv h12
    obtain ⟨⟨b7, r7⟩, h13, h2⟩ := Res.of_bind_ok h2
    rw [hm, Nat.add_zero, Nat.sub_zero] at h13
    obtain ⟨_, rfl, R7⟩ := tryResize_keeps (n := n) (m := n) (.inl rfl) (.inr rfl)
      (by rw [hl5]; exact hl) P5.group_eq h13
    cases h2
    refine ⟨?_, rfl⟩
    have : r = min C ((guesses n d.estimate 0).getLastD d.estimate) := by
      rw [e2]
      by_cases hle : n ≤ d.estimate
      · rw [guesses_ge hle]
        simp only [List.getLastD_nil]
        rw [if_pos (by omega)]
        exact hest
      · rw [if_neg (by omega), show tail = d.estimate by omega]
    rw [← this]
    exact S5.keeps (R7.keeps_of (Nat.le_refl _))
  obtain ⟨K9, rfl⟩ := key
  cases h
  exact K9

theorem word_of_octetAt {b s : Buf .ump} (hlen : s.length = b.length) {i : Nat}
    (ho : ∀ r, r < 4 → octetAt s (4 * i + r) = octetAt b (4 * i + r)) : s[i]? = b[i]? := by
  have : (s.drop i).take 1 = (b.drop i).take 1 := by
    refine eq_of_octetAt (by simp only [List.length_take, List.length_drop, hlen]) fun a ha => ?_
    have ha4 : a < 4 := by
      rw [List.length_take] at ha; omega
    have e1 : ∀ c : Buf .ump, octetAt ((c.drop i).take 1) a = octetAt c (4 * i + a) := by
      intro c
      unfold octetAt
      rw [show a / 4 = 0 by omega, List.getElem?_take, if_pos (by omega), List.getElem?_drop,
        show (4 * i + a) / 4 = i + 0 by omega, show (4 * i + a) % 4 = a % 4 by omega]
    rw [e1, e1]
    exact ho a ha4
  have e2 : ∀ c : Buf .ump, c[i]? = ((c.drop i).take 1)[0]? := by
    intro c
    rw [List.getElem?_take, if_pos (by omega), List.getElem?_drop, Nat.add_zero]
  rw [e2 s, e2 b, this]

/-- In words of the specification. -/
theorem Stamped.behind {k : Sx} {g : BitVec 4} {r p : Nat} {b s : Buf .ump} (hp : 0 < p)
    (hr : k.stride * k.count r ≤ b.length)
    (h : Stamped k g (4 * (k.stride * p)) r b s) :
    RoomBehind k.layout g.toNat r (k.stride * p) b s := by
  obtain ⟨c, c', K1, R, K2⟩ := h
  have hlen : s.length = b.length := K2.1.trans (R.len.trans K1.1)
  have hs0 := k.stride_pos
  refine ⟨hlen, ?_, ?_⟩
  · intro i h1 h2
    rw [words_eq, length_fill] at h2
    have ho : ∀ r, r < 4 → octetAt s (4 * i + r) = octetAt b (4 * i + r) := by
      intro r hr
      rw [K2.2 _ (by omega), R.beyond _ (by omega), K1.2 _ (by omega)]
    exact word_of_octetAt hlen ho
  · intro j size h1 h2 o ho
    rw [words_eq] at h1 ho ⊢
    rw [fill_eq k r r (Nat.le_refl _), List.getElem?_map] at h2
    have hj : j < k.count r := by
      by_cases c : j < k.count r
      · exact c
      · rw [List.getElem?_eq_none (by simpa using c)] at h2; cases h2
    rw [List.getElem?_range hj] at h2
    have hsz : k.fillSize (k.count r) r j = size := Option.some.inj h2
    have hpj : p ≤ j := by
      rcases Nat.lt_or_ge j p with c | c
      · have := Nat.mul_le_mul_left k.stride (show j + 1 ≤ p from c)
        rw [Nat.mul_succ] at this
        omega
      · exact c
    have hT : 4 * (k.stride * p) ≤ 4 * (k.stride * j) := Nat.mul_le_mul_left 4 (Nat.mul_le_mul_left _ hpj)
    have hin : 4 * (k.stride * j) + o < 4 * b.length := by
      have := Nat.mul_le_mul_left k.stride (show j + 1 ≤ k.count r from hj)
      rw [Nat.mul_succ] at this
      omega
    rw [octetVal_eq, octetVal_eq, Nat.mul_assoc, K2.2 _ (by omega)]
    by_cases h0 : o = 0
    · subst h0
      rw [if_pos rfl, Nat.add_zero, R.oct0 j hj, Option.map_some, Option.getD_some, typOctet,
        toNat_append4, type_eq]
    · rw [if_neg h0]
      by_cases h1 : o = 1
      · subst h1
        have : size ≤ k.cap := by
          rw [← hsz, fillSize_eq k r j hj]; omega
        have : k.cap + k.bias < 16 := by cases k <;> decide
        rw [if_pos rfl, R.oct1 j hj, Option.map_some, Option.getD_some, sizeOctet, toNat_append4,
          stat_toNat, length_fill, extra_eq, hsz, BitVec.toNat_ofNat, Nat.mod_eq_of_lt (by omega)]
      · rw [if_neg h1, R.rest j o hj (by omega) ho, first_eq]
        have h2c : 2 ≤ k.count r := by omega
        have hco := k.cap_off
        have pad : k.Padding (k.count r) r j o ↔ ¬ o < k.off + size := by
          unfold Padding
          by_cases hlast : j + 1 = k.count r
          · have := k.fillSize_last h2c
            rw [show k.count r - 1 = j by omega, hsz] at this
            by_cases hz : r % k.cap = 0
            · rw [if_pos hz] at this
              constructor
              · intro c; exact absurd hz c.2.2.1
              · intro c; omega
            · rw [if_neg hz] at this
              rw [this]
              constructor
              · intro c; have := c.2.2.2.1; omega
              · intro c; exact ⟨h2c, hlast, hz, by omega, ho⟩
          · have : size = k.cap := by
              rw [← hsz]; unfold fillSize; rw [if_neg hlast]
            constructor
            · intro c; exact absurd c.2.1 hlast
            · intro c; omega
        by_cases hlt : o < k.off + size
        · rw [if_neg (fun c => (pad.mp c) hlt), if_pos hlt, K1.2 _ (by omega)]
        · rw [if_pos (pad.mpr hlt), if_neg hlt]
          rfl

end Sx

end Midi2
