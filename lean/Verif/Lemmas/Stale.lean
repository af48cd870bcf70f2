import Verif.Lemmas.SysexHold

/-! What a splice leaves alone in the first packet. -/

namespace Midi2

/-- `K s s'` says that going from `s` to `s'` kept something: under `A` whatever sizes the
message is resized to, else if no less than `m` bytes; under `B` whatever bytes are written,
else if none behind the first `m`. -/
structure SxKeeps {S β : Type} (ops : SxOps S β) (R : S → List β → Prop) (K : S → S → Prop)
    (m : Nat) (A B : Prop) : Prop where
  refl : ∀ s, K s s
  trans : ∀ {s s' s''}, K s s' → K s' s'' → K s s''
  write : ∀ {s s' l} {v : β} {i : Nat}, R s l → i < l.length → i < m ∨ B →
    ops.writeDatum s v i = .ok s' → K s s'
  same : ∀ {s s' l} {i : Nat}, R s l → ops.moveTail s i i = .ok s' → K s s'
  up : ∀ {s s' l} {tail to : Nat}, R s l → tail < to → to ≤ l.length →
    (l.length ≤ m ∨ l.length = to ∨ B) → ops.moveTail s tail to = .ok s' → K s s'
  down : ∀ {s s' l} {tail to : Nat}, R s l → to < tail → tail ≤ l.length →
    to + (l.length - tail) ≤ m ∨ B → ops.moveTail s tail to = .ok s' → K s s'
  resize : ∀ {s s' l} {n : Nat}, R s l → m ≤ n ∨ A → ops.resize s n = .ok (s', none) → K s s'

namespace SxKeeps

variable {S β : Type} {ops : SxOps S β} {R Q P : S → List β → Prop} {K : S → S → Prop} {m : Nat}
  {A B : Prop}

theorem fill (L : SxLaws ops R Q P none) (H : SxKeeps ops R K m A B) (begin est : Nat) :
    ∀ (data : List β) (s : S) (l : List β) (w : Nat), R s l → begin + est ≤ l.length → w ≤ est →
      begin + w + data.length ≤ m ∨ B →
      ∃ s' l', ops.fill begin est data s w = .ok (s', data.drop (est - w),
          w + min (est - w) data.length, decide (data.length < est - w)) ∧
        R s' l' ∧ l'.length = l.length ∧ K s s' := by
  intro data
  induction data with
  | nil =>
    intro s l w hR hl hw _
    refine ⟨s, l, ?_, hR, rfl, H.refl s⟩
    simp only [SxOps.fill, List.drop_nil, List.length_nil, Nat.min_zero, Nat.add_zero]
    congr 4
    apply decide_eq_decide.mpr
    omega
  | cons v rest ih =>
    intro s l w hR hl hw hm
    simp only [SxOps.fill]
    by_cases h : w < est
    · rw [if_pos h]
      simp only [List.length_cons] at hm
      obtain ⟨s1, e1, r1⟩ := L.write v (begin + w) hR (by omega)
      have k1 := H.write hR (by omega) (hm.imp_left (by omega)) e1
      obtain ⟨s2, l2, e2, r2, h2, k2⟩ := ih s1 _ (w + 1) r1 (by rw [List.length_set]; exact hl)
        (by omega) (hm.imp_left (by omega))
      rw [e1]
      simp only [Res.ok_bind]
      refine ⟨s2, l2, ?_, r2, by rw [h2, List.length_set], H.trans k1 k2⟩
      rw [e2, show est - w = est - (w + 1) + 1 by omega, List.drop_succ_cons]
      simp only [List.length_cons]
      congr 4
      · omega
      · apply decide_eq_decide.mpr; omega
    · rw [if_neg h]
      refine ⟨s, l, ?_, hR, rfl, H.refl s⟩
      rw [show est - w = 0 by omega]
      simp

/-- Appending, whatever the iterator says about its length. -/
theorem appendLoop (L : SxLaws ops R Q P none) (H : SxKeeps ops R K m A B) (hA : A) (begin : Nat) :
    ∀ (fuel : Nat) (s : S) (data : List β) (w est add : Nat) (l : List β) (s' : S) (w' t' : Nat),
      R s l → l.length = begin + est → w ≤ est → 0 < add → begin + w + data.length = m →
      ops.mainLoop begin begin 0 fuel s data w est add (begin + est) = .ok (.done s' w' t') →
      ∃ l', R s' l' ∧ l'.length = t' ∧ w' = w + data.length ∧ begin + w' ≤ t' ∧ K s s' := by
  intro fuel
  induction fuel with
  | zero => intro s data w est add l s' w' t' _ _ _ _ _ h; cases h
  | succ fuel ih =>
    intro s data w est add l s' w' t' hR hl hw ha hm h
    obtain ⟨s1, l1, e1, r1, h1, k1⟩ := H.fill L begin est data s l w hR (by omega) hw (Or.inl (by omega))
    simp only [SxOps.mainLoop] at h
    rw [e1] at h
    simp only [Res.ok_bind] at h
    by_cases hx : data.length < est - w
    · rw [if_pos (by simpa using hx)] at h
      cases h
      exact ⟨l1, r1, by omega, by omega, by omega, k1⟩
    · rw [if_neg (by simpa using hx)] at h
      rw [show (w + min (est - w) data.length == est) = true by simp; omega] at h
      simp only [Res.assert, if_true, Res.ok_bind] at h
      by_cases hd : data.drop (est - w) = []
      · have hd' : data.length ≤ est - w := by simpa using hd
        rw [if_pos (by simp [hd])] at h
        cases h
        exact ⟨l1, r1, by omega, by omega, by omega, k1⟩
      · rw [if_neg (by simpa using hd)] at h
        unfold SxOps.growMore at h
        rw [if_pos (by omega), usub_ok (by omega)] at h
        simp only [Res.ok_bind] at h
        obtain ⟨s2, l2, e2, q2, h2, _⟩ := L.resize (est + add + begin - 0) r1
          (fun c hc => by cases hc) (Or.inl rfl)
        rw [e2] at h
        simp only [Res.ok_bind] at h
        have r2 := L.weaken q2
        obtain ⟨s3, e3, r3⟩ := L.up (begin + est) (begin + (est + add)) r2 (by omega) (by omega)
        rw [e3] at h
        simp only [Res.ok_bind] at h
        have k2 := H.resize r1 (Or.inr hA) e2
        have k3 := H.up r2 (by omega) (by omega) (Or.inr (Or.inl (by omega))) e3
        by_cases hge : w + min (est - w) data.length ≥ est + add
        · rw [if_pos hge] at h; cases h
        · rw [if_neg hge] at h
          have hd2 : ¬ data.length ≤ est - w := by simpa using hd
          have hlen : (l2.take (begin + (est + add)) ++ (l2.drop (begin + est)).take
              (l2.length - (begin + (est + add)))).length = begin + (est + add) := by
            simp only [List.length_append, List.length_take, List.length_drop]; omega
          obtain ⟨l', a1, a2, a3, a4, a5⟩ := ih s3 (data.drop (est - w)) _ (est + add) (add * 2) _ s' w' t'
            r3 hlen (by omega) (by omega) (by simp only [List.length_drop]; omega) h
          refine ⟨l', a1, a2, ?_, a4, H.trans k1 (H.trans k2 (H.trans k3 a5))⟩
          rw [a3, List.length_drop]; omega

/-- A splice keeps it if the iterator knows its length, or if the bytes go to the end, or if
the iterator has no more bytes than it says. -/
theorem detail (L : SxLaws ops R Q P none) (H : SxKeeps ops R K m A B) {s s0 s' : S} (d : Src β)
    (rb re : Bound) (pre old post : List β) (hc : ops.compact s = .ok s0)
    (hR : R s0 (pre ++ old ++ post)) (hb : rb.spliceBegin = pre.length)
    (he : re.spliceEnd (pre ++ old ++ post).length = pre.length + old.length)
    (hm : m = (pre ++ d.items ++ post).length)
    (hx : d.estimate = d.items.length ∨ (old = [] ∧ post = [] ∧ A) ∨ (d.items.length ≤ d.estimate ∧ B))
    (hs : ops.trySpliceDetail s d rb re = .ok (s', none)) : K s0 s' := by
  unfold SxOps.trySpliceDetail at hs
  rw [hc] at hs
  simp only [Res.ok_bind] at hs
  rw [L.size hR] at hs
  simp only [Res.ok_bind] at hs
  rw [hb, he, usub_ok (by omega)] at hs
  simp only [Res.ok_bind] at hs
  rw [show pre.length + old.length - pre.length = old.length by omega] at hs
  simp only [List.length_append] at hm hs
  -- before the main loop
  have start : ∃ s1, ops.firstGrow s0 (pre.length + old.length) (pre.length + old.length + post.length)
        old.length d.estimate = .ok (s1, d.estimate) ∧
      ∃ s2 l2, ops.moveTail s1 (pre.length + old.length) (pre.length + d.estimate) = .ok s2 ∧
        R s2 l2 ∧ pre.length + d.estimate ≤ l2.length ∧
        (pre.length + d.estimate + post.length ≤ l2.length) ∧
        (old = [] → post = [] → l2.length = pre.length + d.estimate) ∧ K s0 s2 := by
    unfold SxOps.firstGrow
    rw [usub_ok (by omega)]
    simp only [Res.ok_bind]
    by_cases hg : old.length < d.estimate
    · rw [if_pos (by omega), usub_ok (by omega)]
      simp only [Res.ok_bind]
      obtain ⟨s1, l1, e1, q1, h1, _⟩ := L.resize (d.estimate + (pre.length + old.length + post.length) - old.length)
        hR (fun c hc => by cases hc) (Or.inl rfl)
      rw [e1]
      simp only [Res.ok_bind]
      have r1 := L.weaken q1
      obtain ⟨s2, e2, r2⟩ := L.up (pre.length + old.length) (pre.length + d.estimate) r1 (by omega)
        (by omega)
      have k1 := H.resize hR (by
        rcases hx with hx | ⟨_, _, hA⟩ | ⟨hx, _⟩
        · left; omega
        · exact Or.inr hA
        · left; omega) e1
      have k2 := H.up r1 (by omega) (by omega) (by
        rcases hx with hx | ⟨ho, hp, _⟩ | ⟨_, hB⟩
        · left; omega
        · right; left; subst ho; subst hp; simp at h1 ⊢; omega
        · exact Or.inr (Or.inr hB)) e2
      refine ⟨s1, rfl, s2, _, e2, r2, ?_, ?_, ?_, H.trans k1 k2⟩
      · simp only [List.length_append, List.length_take, List.length_drop]; omega
      · simp only [List.length_append, List.length_take, List.length_drop]; omega
      · intro ho hp
        subst ho; subst hp
        simp at h1
        simp only [List.length_append, List.length_take, List.length_drop, List.length_nil]; omega
    · rw [if_neg (by omega)]
      refine ⟨s0, rfl, ?_⟩
      have hl0 : (pre ++ old ++ post).length = pre.length + old.length + post.length := by
        simp only [List.length_append]
      by_cases hz : d.estimate = old.length
      · obtain ⟨s2, e2, r2⟩ := L.same (pre.length + old.length) hR
        refine ⟨s2, _, by rw [hz]; exact e2, r2, by omega, by omega, ?_, H.same hR e2⟩
        intro ho hp
        subst ho; subst hp
        simp at hz ⊢; omega
      · obtain ⟨s2, e2, r2⟩ := L.down (pre.length + old.length) (pre.length + d.estimate) hR
          (by omega) (by omega)
        have k2 := H.down hR (by omega) (by omega) (by
          rcases hx with hx | ⟨ho, _⟩ | ⟨_, hB⟩
          · left; omega
          · subst ho; simp at hg hz; omega
          · exact Or.inr hB) e2
        refine ⟨s2, _, e2, r2, ?_, ?_, ?_, k2⟩
        · simp only [List.length_append, List.length_take, List.length_drop]; omega
        · simp only [List.length_append, List.length_take, List.length_drop]; omega
        · intro ho _
          subst ho; simp at hg hz; omega
  obtain ⟨s1, e1, s2, l2, e2, r2, hl2, hl2', hl3, k2⟩ := start
  rw [e1] at hs
  simp only [Res.ok_bind] at hs
  rw [usub_ok (by omega)] at hs
  simp only [Res.ok_bind] at hs
  rw [show pre.length + old.length + d.estimate - old.length = pre.length + d.estimate by omega, e2] at hs
  simp only [Res.ok_bind] at hs
  have hx' : (d.items.length ≤ d.estimate ∧ (d.estimate = d.items.length ∨ B)) ∨
      (old = [] ∧ post = [] ∧ A) := by
    rcases hx with hx | hx | ⟨hx, hB⟩
    · exact Or.inl ⟨by omega, Or.inl hx⟩
    · exact Or.inr hx
    · exact Or.inl ⟨hx, Or.inr hB⟩
  rcases hx' with ⟨hle, hx⟩ | ⟨ho, hp, hA⟩
  · obtain ⟨s3, l3, e3, r3, h3, k3⟩ := H.fill L pre.length d.estimate d.items s2 l2 0 r2 hl2
      (by omega) (Or.inl (by omega))
    have hloop : ops.mainLoop pre.length (pre.length + old.length + post.length) old.length
        (d.items.length + 1) s2 d.items 0 d.estimate 1 (pre.length + d.estimate) =
        .ok (.done s3 d.items.length (pre.length + d.estimate)) := by
      simp only [SxOps.mainLoop]
      rw [e3]
      simp only [Res.ok_bind]
      rw [show 0 + min (d.estimate - 0) d.items.length = d.items.length by omega]
      by_cases hlt : d.items.length < d.estimate
      · rw [if_pos (by simp; omega)]; rfl
      · rw [if_neg (by simp; omega), show (d.items.length == d.estimate) = true by
          simp; omega]
        simp only [Res.assert, if_true, Res.ok_bind]
        rw [if_pos (by simp; omega)]
        rfl
    rw [hloop] at hs
    simp only [Res.ok_bind] at hs
    have hmv : ∃ s4 l4, ops.moveTail s3 (pre.length + d.estimate) (pre.length + d.items.length) = .ok s4 ∧
        R s4 l4 ∧ l4.length = l3.length ∧ K s3 s4 := by
      by_cases hz : d.estimate = d.items.length
      · obtain ⟨s4, e4, r4⟩ := L.same (pre.length + d.estimate) r3
        exact ⟨s4, l3, by rw [← hz]; exact e4, r4, rfl, H.same r3 e4⟩
      · obtain ⟨s4, e4, r4⟩ := L.down (pre.length + d.estimate) (pre.length + d.items.length) r3
          (by omega) (by omega)
        refine ⟨s4, _, e4, r4, ?_, H.down r3 (by omega) (by omega) (Or.inr (hx.resolve_left hz)) e4⟩
        simp only [List.length_append, List.length_take, List.length_drop]; omega
    obtain ⟨s4, l4, e4, r4, h4, k4⟩ := hmv
    rw [e4] at hs
    simp only [Res.ok_bind] at hs
    rw [usub_ok (by omega)] at hs
    simp only [Res.ok_bind] at hs
    obtain ⟨s5, e5, _⟩ := L.shrink (d.items.length + (pre.length + old.length + post.length) - old.length) r4
      (by omega)
    rw [e5] at hs
    cases hs
    exact H.trans k2 (H.trans k3 (H.trans k4 (H.resize r4 (Or.inl (by omega)) e5)))
  · subst ho
    subst hp
    simp only [List.length_nil, Nat.add_zero] at hs hm
    have hl := hl3 rfl rfl
    cases hloop : ops.mainLoop pre.length pre.length 0 (d.items.length + 1) s2 d.items 0 d.estimate 1
        (pre.length + d.estimate) with
    | ok r =>
      rw [hloop] at hs
      simp only [Res.ok_bind] at hs
      cases r with
      | overflow s3 => cases hs
      | done s3 w t =>
        obtain ⟨l3, r3, h3, h4, h5, k3⟩ := H.appendLoop L hA pre.length _ s2 d.items 0 d.estimate 1 l2 s3 w t
          r2 hl (by omega) (by omega) (by omega) hloop
        simp only at hs
        have hmv : ∃ s4 l4, ops.moveTail s3 t (pre.length + w) = .ok s4 ∧ R s4 l4 ∧
            l4.length = t ∧ K s3 s4 := by
          by_cases hz : t = pre.length + w
          · obtain ⟨s4, e4, r4⟩ := L.same t r3
            exact ⟨s4, l3, by rw [← hz]; exact e4, r4, h3, H.same r3 e4⟩
          · obtain ⟨s4, e4, r4⟩ := L.down t (pre.length + w) r3 (by omega) (by omega)
            refine ⟨s4, _, e4, r4, ?_, H.down r3 (by omega) (by omega) (Or.inl (by omega)) e4⟩
            simp only [List.length_append, List.length_take, List.length_drop]; omega
        obtain ⟨s4, l4, e4, r4, h6, k4⟩ := hmv
        rw [e4] at hs
        simp only [Res.ok_bind] at hs
        rw [usub_ok (by omega)] at hs
        simp only [Res.ok_bind] at hs
        obtain ⟨s5, e5, _⟩ := L.shrink (w + pre.length - 0) r4 (by omega)
        rw [e5] at hs
        cases hs
        exact H.trans k2 (H.trans k3 (H.trans k4 (H.resize r4 (Or.inr hA) e5)))
    | err e => rw [hloop] at hs; cases hs
    | panic => rw [hloop] at hs; cases hs

end SxKeeps

namespace Sx

/-- The first packet was left alone behind its first `m` payload bytes. -/
def Kept (k : Sx) (m : Nat) (b b' : Buf .ump) : Prop :=
  ∀ i, m ≤ i → i < k.cap → octetAt b' (k.addr i) = octetAt b (k.addr i)

theorem addr_first (k : Sx) {i : Nat} (h : i < k.cap) : k.addr i = k.off + i := by
  rw [addr_eq, Nat.div_eq_of_lt h, Nat.mod_eq_of_lt h]; omega

theorem Resized.kept {k : Sx} {g : BitVec 4} {p n : Nat} {b b' : Buf .ump}
    (r : Resized k g p n b b') (m : Nat) : Kept k m b b' := by
  intro i _ hi
  rw [k.addr_first hi]
  have h1 := k.two_le_off
  have h2 := k.cap_off
  by_cases hp : 0 < p
  · have := r.rest 0 (k.off + i) hp (by omega) (by omega)
    simp only [Nat.mul_zero, Nat.zero_add] at this
    rw [this, if_neg]
    intro c
    have := c.1
    have := c.2.1
    omega
  · have : p = 0 := by omega
    subst this
    exact r.beyond _ (by simp)

theorem tryResize_kept {k : Sx} {b b' : Buf .ump} {n : Nat} (hb : k.stride ≤ b.length) (m : Nat)
    (h : k.tryResize .vec b n = .ok (b', none)) : Kept k m b b' := by
  have hs := k.stride_pos
  have hlen : k.stride ≤ k.stride * k.count n := Nat.le_mul_of_pos_right _ (k.count_pos n)
  have hs1 := length_vecResize b (k.stride * k.count n)
  obtain ⟨w, hw⟩ : ∃ w, b[0]? = some w := ⟨b[0], List.getElem?_eq_getElem (by omega)⟩
  have hw1 : (vecResize b (k.stride * k.count n))[0]? = some w := by
    unfold vecResize
    rw [List.getElem?_append_left (by simp; omega), List.getElem?_take_of_lt (by omega), hw]
  obtain ⟨b2, e1, r⟩ := k.tryResize_fine (m := .vec) (b := b) (n := n) rfl
    (Nat.le_of_eq hs1.symm) ⟨w, hw1, rfl⟩
  rw [h] at e1
  cases e1
  intro i h1 h2
  rw [r.kept m i h1 h2]
  have := k.cap_off
  rw [k.addr_first h2]
  exact octetAt_vecResize_lt _ _ _ (by omega) (by omega)

section
variable {k : Sx} {g : BitVec 4} {p : Nat} {b b' : Buf .ump} {l : List k.Byte} {dbg : Bool}

theorem Packed.write_kept (P : Packed k g p b l) {v : k.Byte} {i m : Nat} (h : i < l.length)
    (hm : i < m) (e : k.writeDatum b v i = .ok b') : Kept k m b b' := by
  obtain ⟨b2, e1, _, e3, _⟩ := k.modify_byte (P.addr_lt h) v
  have : k.writeDatum b v i = modifyAt b (k.addr i / 4) (fun w => k.set w (k.addr i % 4) v) := by
    unfold writeDatum
    have ha := k.addr_eq i
    rw [show k.stride * (i / k.cap) + (i % k.cap + k.off) / 4 = k.addr i / 4 by omega,
      show (i % k.cap + k.off) % 4 = k.addr i % 4 by omega]
  rw [this, e1] at e
  cases e
  intro j h1 _
  exact e3 _ fun c => by have := k.addr_inj c; omega

theorem Packed.up_kept (P : Packed k g p b l) {tail to m : Nat} (h1 : tail < to)
    (h2 : to ≤ l.length) (hm : l.length ≤ m ∨ l.length = to)
    (e : k.moveTail dbg b tail to = .ok b') : Kept k m b b' := by
  obtain ⟨b2, e1, _, _, e4⟩ := copyUp k tail (to - tail) (l.length - (to - tail) - tail) b
    (by omega) (fun i hi => P.addr_lt (by omega))
  unfold moveTail at e
  cases ha : Res.assert (!dbg || k.isCompact b) with
  | ok =>
    rw [ha, P.payloadSize_eq] at e
    simp only [Res.ok_bind] at e
    rw [if_pos h1, usub_ok (by omega)] at e
    simp only [Res.ok_bind] at e
    rw [e1] at e
    cases e
    intro j h3 _
    exact e4 _ fun i h4 h5 c => by have := k.addr_inj c; omega
  | err => rw [ha] at e; cases e
  | panic => rw [ha] at e; cases e

theorem Packed.down_kept (P : Packed k g p b l) {tail to m : Nat} (h1 : to < tail)
    (h2 : tail ≤ l.length) (hm : to + (l.length - tail) ≤ m)
    (e : k.moveTail dbg b tail to = .ok b') : Kept k m b b' := by
  obtain ⟨b2, e1, _, _, e4⟩ := copyDown k (tail - to) (l.length - tail) tail b
    (by omega) (by omega) (fun i hi => P.addr_lt (by omega))
  unfold moveTail at e
  cases ha : Res.assert (!dbg || k.isCompact b) with
  | ok =>
    rw [ha, P.payloadSize_eq] at e
    simp only [Res.ok_bind] at e
    rw [if_neg (by omega), if_pos h1] at e
    rw [e1] at e
    cases e
    intro j h3 _
    exact e4 _ fun i h4 h5 c => by have := k.addr_inj c; omega
  | err => rw [ha] at e; cases e
  | panic => rw [ha] at e; cases e

theorem keeps (k : Sx) (dbg : Bool) {I : Buf .ump → Prop} (g : BitVec 4) (m : Nat) :
    SxKeeps (k.ops dbg .vec) (Loose k dbg I g none) (Kept k m) m True False where
  refl _ _ _ _ := rfl
  trans h1 h2 i a c := (h2 i a c).trans (h1 i a c)
  write := by
    rintro b b' l v i ⟨⟨p, P⟩, _⟩ hi hm e
    exact P.write_kept hi (by simpa using hm) e
  same := by
    rintro b b' l i ⟨⟨p, P⟩, W⟩ e
    have := P.move_same (fun e => (W.steady e).isCompact) i
    change k.moveTail dbg b i i = _ at e
    rw [this] at e
    cases e
    exact fun _ _ _ => rfl
  up := by
    rintro b b' l tail to ⟨⟨p, P⟩, _⟩ h1 h2 hm e
    exact P.up_kept h1 h2 (by simpa using hm) e
  down := by
    rintro b b' l tail to ⟨⟨p, P⟩, _⟩ h1 h2 hm e
    exact P.down_kept h1 h2 (by simpa using hm) e
  resize := by
    rintro b b' l n ⟨⟨p, P⟩, _⟩ _ e
    exact tryResize_kept (by have := P.frame.le_mul P.pos; omega) m e

/-- On a resizable buffer a message is compact. -/
theorem Strict.compact_self {I : Buf .ump → Prop} (S : Strict k dbg I g none b l) :
    k.compact b = .ok b := by
  unfold compact
  have ht := S.packed.tidy (tidyFrom_end (by have := S.exact rfl; omega))
  rw [if_pos (isCompact_of_tidy ht)]

theorem Strict.splice_kept {I : Buf .ump → Prop} (hI : Inv k I false)
    (S : Strict k dbg I g none b l) (d : Src k.Byte) (rb re : Bound)
    (h1 : rb.first ≤ re.last l.length) (h2 : re.last l.length ≤ l.length)
    (hx : d.upper.getD d.lower = d.items.length ∨ rb.first = l.length)
    (e : (k.ops dbg .vec).splice b d rb re = .ok b') :
    Kept k (spliced l rb.first (re.last l.length) d.items).length b b' := by
  have hcut := cut l rb.first (re.last l.length) h1
  have hlen : ((l.take (re.last l.length)).drop rb.first).length = re.last l.length - rb.first := by
    simp only [List.length_drop, List.length_take]; omega
  have L : SxLaws (k.ops dbg .vec) _ _ _ none := (laws k dbg g none hI).toLaws
  have he : d.estimate = d.upper.getD d.lower := by
    unfold Src.estimate; cases d.upper <;> rfl
  unfold SxOps.splice at e
  cases hd : (k.ops dbg .vec).trySpliceDetail b d rb re with
  | ok r =>
    rw [hd] at e
    obtain ⟨s, r⟩ := r
    cases r with
    | some => cases e
    | none =>
      cases e
      refine (keeps k dbg (I := I) g _).detail L (s := b) (s0 := b) d rb re (l.take rb.first)
        ((l.take (re.last l.length)).drop rb.first) (l.drop (re.last l.length)) S.compact_self
        (by rw [← hcut]; exact ⟨⟨_, S.packed⟩, S.whole⟩) ?_ ?_ rfl ?_ hd
      · rw [spliceBegin_eq, List.length_take]; omega
      · rw [← hcut, spliceEnd_eq, List.length_take, hlen]; omega
      · rcases hx with hx | hx
        · left; omega
        · right; left
          exact ⟨List.eq_nil_of_length_eq_zero (by omega), List.drop_eq_nil_of_le (by omega), trivial⟩
  | err => rw [hd] at e; cases e
  | panic => rw [hd] at e; cases e

theorem Strict.setByte_kept {I : Buf .ump → Prop} {N : Option Nat} (S : Strict k dbg I g N b l)
    (v : k.Byte) {i : Nat} (hi : i < l.length) (e : k.setByte b v i = .ok b') :
    Kept k l.length b b' := by
  have P := S.packed
  have hpay : P.valid.payload = l := by
    unfold Valid.payload
    rw [P.restFrom_eq _ 0 rfl (by omega)]; simp
  obtain ⟨b2, e1, _, _, e4⟩ := P.valid.setByte v (by rw [hpay]; exact hi)
  rw [e1] at e
  cases e
  have hsz : ∀ j, j < k.count l.length → k.fillSize (k.count l.length) l.length j = min k.cap (l.length - k.cap * j) :=
    fun j hj => k.fillSize_eq _ _ hj
  have ha := addrs_full k hsz P.hi (k.count l.length) 0 i (by omega) (by omega) (by omega)
  rw [Nat.mul_zero, Nat.zero_add] at ha
  intro t h1 _
  exact e4 _ (by rw [ha]; intro e; have := k.addr_inj (Option.some.inj e); omega)

theorem setGroup_kept (k : Sx) (b : Buf .ump) (g' : BitVec 4) (m : Nat) :
    Kept k m b (k.setGroup b g') := fun i _ _ => setGroup_other k b g' _ (k.not_addr_first i)

end

end Sx

end Midi2
