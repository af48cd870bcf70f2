import Verif.Lemmas.Effort
import Verif.Lemmas.SysexHold
import Verif.Lemmas.SysexBytes

/-! Resizing of the modelled buffers: lengths and limits. -/

namespace Midi2

theorem foldlM_len {α γ : Type} {f : List α → γ → Res (List α)}
    (hf : ∀ {b x b'}, f b x = .ok b' → b'.length = b.length) :
    ∀ (l : List γ) {b b' : List α}, l.foldlM f b = .ok b' → b'.length = b.length := by
  intro l
  induction l with
  | nil =>
    intro b b' h
    rw [List.foldlM_nil] at h
    cases h; rfl
  | cons x l ih =>
    intro b b' h
    rw [List.foldlM_cons] at h
    obtain ⟨b1, h1, h⟩ := Res.of_bind_ok h
    rw [ih h, hf h1]

namespace Sx

theorem zeroTail_len {k : Sx} {r : Nat} {p p' : Buf .ump} (h : k.zeroTail r p = .ok p') :
    p'.length = p.length :=
  foldlM_len (fun h => modifyAt_len h) _ h

theorem restPackets_len {k : Sx} {n : Nat} {g : BitVec 4} : ∀ (ps : List (Buf .ump))
    {ps' : List (Buf .ump)}, k.restPackets n g ps = .ok ps' →
    ps'.map List.length = ps.map List.length
  | [], ps', h => by cases h; rfl
  | [p], ps', h => by
    unfold restPackets at h
    obtain ⟨p1, h1, h⟩ := Res.of_bind_ok h
    split at h
    · obtain ⟨p2, h2, h⟩ := Res.of_bind_ok h
      cases h
      simp only [List.map_cons, List.map_nil, modifyAt_len h2, modifyAt_len h1]
    · obtain ⟨s, -, h⟩ := Res.of_bind_ok h
      obtain ⟨p2, h2, h⟩ := Res.of_bind_ok h
      obtain ⟨p3, h3, h⟩ := Res.of_bind_ok h
      cases h
      simp only [List.map_cons, List.map_nil, zeroTail_len h3, modifyAt_len h2, modifyAt_len h1]
  | p :: q :: ps, ps', h => by
    unfold restPackets at h
    obtain ⟨p1, h1, h⟩ := Res.of_bind_ok h
    obtain ⟨p2, h2, h⟩ := Res.of_bind_ok h
    cases h
    rw [List.map_cons, modifyAt_len h1, restPackets_len (q :: ps) h2]
    rfl

theorem packets_len {k : Sx} {n : Nat} {ps ps' : List (Buf .ump)} (h : k.packets n ps = .ok ps') :
    ps'.map List.length = ps.map List.length := by
  cases ps with
  | nil => cases h; rfl
  | cons p ps =>
    unfold packets at h
    obtain ⟨w, -, h⟩ := Res.of_bind_ok h
    obtain ⟨w', -, h⟩ := Res.of_bind_ok h
    obtain ⟨p1, h1, h⟩ := Res.of_bind_ok h
    obtain ⟨ps1, h2, h⟩ := Res.of_bind_ok h
    cases h
    rw [List.map_cons, modifyAt_len h1, restPackets_len ps h2]
    rfl

/-- A resize gives the length the closure gave. -/
theorem tryResize_len {k : Sx} {m : Mem} {b b' : Buf .ump} {n : Nat} {r : Option Nat}
    (h : k.tryResize m b n = .ok (b', r)) :
    b'.length = (m.resize b (k.bufferSize n)).1.length ∧
    r = if (m.resize b (k.bufferSize n)).2 then none
      else some ((m.resize b (k.bufferSize n)).1.length / k.stride * k.cap) := by
  unfold tryResize at h
  simp only at h
  generalize m.resize b (k.bufferSize n) = x at h ⊢
  obtain ⟨c, fine⟩ := x
  simp only at h ⊢
  obtain ⟨cs', h1, h⟩ := Res.of_bind_ok h
  simp only [Res.pure_eq, Res.ok.injEq, Prod.mk.injEq] at h
  obtain ⟨rfl, rfl⟩ := h
  refine ⟨?_, ?_⟩
  · rw [List.length_append, List.length_flatten, packets_len h1, List.length_drop]
    have hall : ∀ q ∈ (chunksExact k.stride c).take
        ((if fine = true then k.bufferSize n else c.length) / k.stride), q.length = k.stride :=
      fun q hq => chunksExact_mem_length k.stride_pos (List.mem_of_mem_take hq)
    generalize hcs : (chunksExact k.stride c).take
        ((if fine = true then k.bufferSize n else c.length) / k.stride) = cs at hall
    have hsum : ∀ (l : List (Buf .ump)), (∀ q ∈ l, q.length = k.stride) →
        (l.map List.length).sum = k.stride * l.length := by
      intro l
      induction l with
      | nil => intro _; simp
      | cons q l ih =>
        intro hq
        rw [List.map_cons, List.sum_cons, ih (fun x hx => hq x (by simp [hx])), hq q (by simp),
          List.length_cons, Nat.mul_add, Nat.mul_one]
        omega
    rw [hsum cs hall]
    have hle : cs.length ≤ c.length / k.stride := by
      rw [← hcs, List.length_take, chunksExact_length k.stride_pos]
      exact Nat.min_le_right _ _
    have : k.stride * cs.length ≤ c.length :=
      Nat.le_trans (Nat.mul_le_mul_left _ hle) (Nat.mul_div_le _ _)
    omega
  · cases fine <;> rfl

theorem copyOctet_len {b b' : Buf .ump} {s d : Nat} (h : copyOctet b s d = .ok b') :
    b'.length = b.length := by
  unfold copyOctet at h
  obtain ⟨w, -, h⟩ := Res.of_bind_ok h
  exact modifyAt_len h

theorem moveTail_len {k : Sx} {dbg : Bool} {b b' : Buf .ump} {t u : Nat}
    (h : k.moveTail dbg b t u = .ok b') : b'.length = b.length := by
  unfold moveTail at h
  obtain ⟨_, -, h⟩ := Res.of_bind_ok h
  obtain ⟨ps, -, h⟩ := Res.of_bind_ok h
  split at h
  · obtain ⟨hi, -, h⟩ := Res.of_bind_ok h
    exact foldlM_len (fun h => copyOctet_len h) _ h
  · split at h
    · exact foldlM_len (fun h => copyOctet_len h) _ h
    · cases h; rfl

theorem compactPacket_len {k : Sx} {src : Nat} : ∀ (is : List Nat) {b : Buf .ump} {dp di : Nat}
    {b' : Buf .ump} {x : Nat × Nat}, k.compactPacket src is b dp di = .ok (b', x) →
    b'.length = b.length := by
  intro is
  induction is with
  | nil => intro b dp di b' x h; cases h; rfl
  | cons i is ih =>
    intro b dp di b' x h
    unfold compactPacket at h
    obtain ⟨w, -, h⟩ := Res.of_bind_ok h
    obtain ⟨b1, h1, h⟩ := Res.of_bind_ok h
    split at h <;> rw [ih h, modifyAt_len h1]

theorem compactLoop_len {k : Sx} : ∀ (fuel : Nat) {b b' : Buf .ump} {s p i : Nat},
    k.compactLoop fuel b s p i = .ok b' → b'.length = b.length := by
  intro fuel
  induction fuel with
  | zero => intro b b' s p i h; cases h
  | succ fuel ih =>
    intro b b' s p i h
    unfold compactLoop at h
    obtain ⟨w, -, h⟩ := Res.of_bind_ok h
    split at h
    · cases h; rfl
    · obtain ⟨size, -, h⟩ := Res.of_bind_ok h
      obtain ⟨⟨b1, x⟩, h1, h⟩ := Res.of_bind_ok h
      simp only at h
      split at h
      · cases h; exact compactPacket_len _ h1
      · rw [ih h, compactPacket_len _ h1]

theorem compact_len {k : Sx} {b b' : Buf .ump} (h : k.compact b = .ok b') :
    b'.length = b.length := by
  unfold compact at h
  split at h
  · cases h; rfl
  · obtain ⟨n, -, h⟩ := Res.of_bind_ok h
    obtain ⟨b1, h1, h⟩ := Res.of_bind_ok h
    obtain ⟨⟨b2, _ | r⟩, h2, h⟩ := Res.of_bind_ok h
    · cases h
      rw [(tryResize_len h2).1, ← compactLoop_len _ h1]
      rfl
    · cases h

/-- Growable buffers. -/
theorem paced_vec (k : Sx) (dbg : Bool) : Paced (k.ops dbg .vec) (fun _ => True) none where
  resize {s n s' r} _ h := by
    have h : k.tryResize .vec s n = .ok (s', r) := h
    refine ⟨trivial, fun _ c hc => (by cases hc), fun sz hs => ?_⟩
    have := (tryResize_len h).2
    rw [hs] at this
    cases this
  compact _ _ := trivial
  move _ _ := trivial
  write _ _ := trivial

/-- Buffers of fixed size. -/
theorem paced_fixed (k : Sx) (dbg : Bool) (N : Nat) :
    Paced (k.ops dbg .fixed) (fun b => b.length = N) (some (N / k.stride * k.cap)) where
  resize {s n s' r} hI h := by
    have h : k.tryResize .fixed s n = .ok (s', r) := h
    obtain ⟨h1, h2⟩ := tryResize_len h
    have hl : (Mem.fixed.resize s (k.bufferSize n)).1.length = N := hI
    refine ⟨h1.trans hl, fun hr c hc => ?_, fun sz hs => ?_⟩
    · cases hc
      rw [hr] at h2
      have hf : (Mem.fixed.resize s (k.bufferSize n)).2 = true := by
        cases hx : (Mem.fixed.resize s (k.bufferSize n)).2
        · rw [hx] at h2; cases h2
        · rfl
      have hle : k.bufferSize n ≤ s.length := of_decide_eq_true hf
      rw [k.bufferSize_eq, hI] at hle
      have hq : k.count n ≤ N / k.stride :=
        (Nat.le_div_iff_mul_le k.stride_pos).mpr (by rw [Nat.mul_comm]; exact hle)
      rw [Nat.mul_comm]
      exact (k.count_le_iff n _ (Nat.lt_of_lt_of_le (k.count_pos n) hq)).mp hq
    · rw [hs] at h2
      split at h2
      · cases h2
      · rw [h2, hl]
  compact hI h := (compact_len h).trans hI
  move hI h := (moveTail_len h).trans hI
  write hI h := (modifyAt_len h).trans hI

end Sx

namespace Sxb

theorem copyWithin_len {b b' : Buf .bytes} {f l t : Nat} (h : copyWithin b f l t = .ok b') :
    b'.length = b.length := by
  unfold copyWithin at h
  split at h
  · cases h
    simp only [List.length_append, List.length_take, List.length_drop]
    omega
  · cases h

theorem moveTail_len {b b' : Buf .bytes} {t u : Nat} (h : moveTail b t u = .ok b') :
    b'.length = b.length := by
  unfold moveTail at h
  obtain ⟨n, -, h⟩ := Res.of_bind_ok h
  split at h
  · exact copyWithin_len h
  · split at h
    · exact copyWithin_len h
    · cases h; rfl

theorem paced_vec : Paced (ops .vec) (fun _ => True) none where
  resize _ h := by
    obtain ⟨x, h1, h⟩ := Res.of_bind_ok h
    cases h
    exact ⟨trivial, fun _ c hc => (by cases hc), fun sz hs => (by cases hs)⟩
  compact _ _ := trivial
  move _ _ := trivial
  write _ _ := trivial

theorem paced_fixed (N : Nat) :
    Paced (ops .fixed) (fun b => b.length = N) (some (N - 2)) where
  resize {s n s' r} hI h := by
    have h : tryResizeFixed s n = .ok (s', r) := h
    unfold tryResizeFixed at h
    obtain ⟨old, -, h⟩ := Res.of_bind_ok h
    simp only at h
    have key : ∃ b1 i b2, b1.length = s.length ∧ modifyAt b1 i (fun _ => endByte) = .ok b2 ∧
        s' = b2 ∧ r = if decide (n + 2 ≤ s.length) = true then none else some (b2.length - 2) := by
      generalize hsz : (if decide (n + 2 ≤ s.length) = true then n + 2 else s.length) = sz at h
      by_cases hgt : sz > old
      · rw [if_pos hgt] at h
        obtain ⟨b1, h1, h⟩ := Res.of_bind_ok h
        obtain ⟨i, -, h⟩ := Res.of_bind_ok h
        obtain ⟨b2, h2, h⟩ := Res.of_bind_ok h
        simp only [Res.pure_eq, Res.ok.injEq, Prod.mk.injEq] at h
        exact ⟨b1, i, b2, modifyAt_len h1, h2, h.1.symm, h.2.symm⟩
      · rw [if_neg hgt] at h
        obtain ⟨b1, h1, h⟩ := Res.of_bind_ok h
        obtain ⟨i, -, h⟩ := Res.of_bind_ok h
        obtain ⟨b2, h2, h⟩ := Res.of_bind_ok h
        simp only [Res.pure_eq, Res.ok.injEq, Prod.mk.injEq] at h
        have e1 : s = b1 := by cases h1; rfl
        exact ⟨b1, i, b2, by rw [← e1], h2, h.1.symm, h.2.symm⟩
    obtain ⟨b1, i, b2, l1, h2, rfl, rfl⟩ := key
    have l2 : s'.length = N := by rw [modifyAt_len h2, l1, hI]
    refine ⟨l2, fun hr c hc => ?_, fun sz hs => ?_⟩
    · cases hc
      by_cases hd : n + 2 ≤ s.length
      · rw [hI] at hd; omega
      · simp [hd] at hr
    · by_cases hd : n + 2 ≤ s.length
      · simp [hd] at hs
      · simp only [hd, decide_false, Bool.false_eq_true, if_false, Option.some.injEq] at hs
        rw [← hs, l2]
  compact hI h := by cases h; exact hI
  move hI h := (moveTail_len h).trans hI
  write hI h := (modifyAt_len h).trans hI

end Sxb

end Midi2
