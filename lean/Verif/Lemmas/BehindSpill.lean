import Verif.Lemmas.BehindHint

/-! Setting a payload that does not fit on a buffer of fixed size: what is left behind. -/

namespace Midi2

namespace Sx

/-- Octets that are neither headers nor payload are kept. -/
def Marked (k : Sx) (b s : Buf .ump) : Prop :=
  s.length = b.length ∧
  (∀ j o, 2 ≤ o → o < k.off → octetAt s (4 * (k.stride * j) + o) = octetAt b (4 * (k.stride * j) + o)) ∧
  ∀ a, 4 * (k.stride * (b.length / k.stride)) ≤ a → octetAt s a = octetAt b a

theorem Marked.refl (k : Sx) (b : Buf .ump) : Marked k b b := ⟨rfl, fun _ _ _ _ => rfl, fun _ _ => rfl⟩

theorem Marked.trans {k : Sx} {a b c : Buf .ump} (h : Marked k a b) (h' : Marked k b c) :
    Marked k a c :=
  ⟨h'.1.trans h.1, fun j o h1 h2 => (h'.2.1 j o h1 h2).trans (h.2.1 j o h1 h2),
    fun x hx => (h'.2.2 x (by rw [h.1]; exact hx)).trans (h.2.2 x hx)⟩

theorem Resized.marked {k : Sx} {g : BitVec 4} {m : Nat} {b b' : Buf .ump}
    (r : Resized k g (k.count m) m b b') (hl : k.stride * k.count m ≤ b.length) : Marked k b b' := by
  refine ⟨r.len, fun j o h1 h2 => ?_, fun a ha => r.beyond a (Nat.le_trans ?_ ha)⟩
  · by_cases hj : j < k.count m
    · have hc := k.cap_off
      rw [r.rest j o hj h1 (by omega), if_neg]
      intro c
      have := c.2.2.2.1
      omega
    · refine r.beyond _ ?_
      have := Nat.mul_le_mul_left k.stride (show k.count m ≤ j by omega)
      omega
  · refine Nat.mul_le_mul_left 4 (Nat.mul_le_mul_left _ ?_)
    rw [Nat.le_div_iff_mul_le k.stride_pos, Nat.mul_comm]
    exact hl

theorem Packed.write_marked {k : Sx} {g : BitVec 4} {p : Nat} {b b' : Buf .ump} {l : List k.Byte}
    (P : Packed k g p b l) {v : k.Byte} {i : Nat} (h : i < l.length)
    (hw : k.writeDatum b v i = .ok b') : Marked k b b' ∧ Packed k g p b' (l.set i v) := by
  obtain ⟨b1, e1, _, P'⟩ := P.write v h
  have hlt := P.addr_lt h
  obtain ⟨b2, f1, f2, f3, _⟩ := k.modify_byte hlt v
  rw [hw] at e1
  cases e1
  rw [writeDatum_eq, f1] at hw
  cases hw
  refine ⟨⟨f2, fun j o h1 h2 => f3 _ ?_, fun a ha => f3 a ?_⟩, P'⟩
  · have hm := Nat.mod_lt i k.cap_pos
    have hc := k.cap_off
    rw [addr_eq]
    intro c
    rcases Nat.lt_trichotomy j (i / k.cap) with h | h | h
    · have := Nat.mul_le_mul_left k.stride (show j + 1 ≤ i / k.cap from h)
      rw [Nat.mul_succ] at this
      omega
    · rw [h] at c
      omega
    · have := Nat.mul_le_mul_left k.stride (show i / k.cap + 1 ≤ j from h)
      rw [Nat.mul_succ] at this
      omega
  · have h1 : k.addr i < 4 * (k.stride * p) := by
      rw [k.addr_lt_iff]
      exact Nat.lt_of_lt_of_le h P.hi
    have h2 : p ≤ b.length / k.stride := by
      rw [Nat.le_div_iff_mul_le k.stride_pos, Nat.mul_comm]
      exact P.len
    have := Nat.mul_le_mul_left 4 (Nat.mul_le_mul_left k.stride h2)
    omega

theorem take_set_succ {α : Type} {l : List α} {i : Nat} {v : α} (h : i < l.length) :
    (l.set i v).take (i + 1) = l.take i ++ [v] := by
  apply List.ext_getElem?
  intro j
  rw [List.getElem?_take, List.getElem?_set, List.getElem?_append, List.length_take]
  by_cases h1 : j < i
  · rw [if_pos (by omega), if_neg (by omega), if_pos (by omega), List.getElem?_take, if_pos h1]
  · by_cases h2 : j = i
    · subst h2
      rw [if_pos (by omega), if_pos rfl, if_pos h, if_neg (by omega), Nat.min_eq_left (by omega)]
      simp
    · rw [if_neg (by omega), if_neg (by omega), Nat.min_eq_left (by omega),
        List.getElem?_eq_none (by simp; omega)]

/-- Writing the items from `w` on into room made for `est` of them. -/
theorem fill_marked (k : Sx) (dbg : Bool) (m : Mem) {g : BitVec 4} {p est : Nat} (items : List k.Byte)
    (he : est < items.length) :
    ∀ (data : List k.Byte) {s : Buf .ump} {l : List k.Byte} {w : Nat} {s' : Buf .ump}
      {rest : List k.Byte} {w' : Nat} {ex : Bool},
    Packed k g p s l → l.length = est → w ≤ est → data = items.drop w → l.take w = items.take w →
    (k.ops dbg m).fill 0 est data s w = .ok (s', rest, w', ex) →
    Marked k s s' ∧ w' = est ∧ rest = items.drop est ∧ ex = false ∧
      Packed k g p s' (items.take est) := by
  intro data
  induction data with
  | nil =>
    intro s l w s' rest w' ex P hl hw hd ht h
    have := congrArg List.length hd
    rw [List.length_drop, List.length_nil] at this
    omega
  | cons v data ih =>
    intro s l w s' rest w' ex P hl hw hd ht h
    have hwl : w < items.length := by omega
    rw [List.drop_eq_getElem_cons hwl] at hd
    obtain ⟨hv, hd'⟩ := List.cons.inj hd
    unfold SxOps.fill at h
    split at h
    · next hlt =>
      obtain ⟨s1, h1, h⟩ := Res.of_bind_ok h
      have h1 : k.writeDatum s v (0 + w) = .ok s1 := h1
      rw [Nat.zero_add] at h1
      obtain ⟨M, P'⟩ := P.write_marked (by omega) h1
      obtain ⟨i1, i2⟩ := ih P' (by rw [List.length_set]; exact hl) (by omega) hd' (by
        rw [take_set_succ (by omega), ht, hv, List.take_succ_eq_append_getElem hwl]) h
      exact ⟨M.trans i1, i2⟩
    · next hlt =>
      simp only [Res.ok.injEq, Prod.mk.injEq] at h
      obtain ⟨rfl, rfl, rfl, rfl⟩ := h
      have e : w = est := by omega
      subst e
      rw [List.take_of_length_le (by omega)] at ht
      refine ⟨Marked.refl _ _, rfl, ?_, rfl, ht ▸ P⟩
      rw [List.drop_eq_getElem_cons hwl, hv, hd']

/-- A resize does not change the bytes there are. -/
theorem Resized.take {k : Sx} {g : BitVec 4} {n m : Nat} {b b' : Buf .ump} {l : List k.Byte}
    (P : Packed k g (k.count m) b l) (hlm : l.length = m) (hmn : m ≤ n)
    (r : Resized k g (k.count n) n b b') (hl : k.stride * k.count n ≤ b.length) :
    ∃ l' : List k.Byte, l'.length = n ∧ l'.take m = l ∧ Packed k g (k.count n) b' l' := by
  obtain ⟨l', h1, P', h2, _⟩ := r.packed hl
  refine ⟨l', h1, ?_, P'⟩
  have := keep_bytes P P' (fun i h3 _ => h2 i (by omega))
  rw [hlm] at this
  rw [this, List.take_of_length_le (by omega)]

/-- `compact()` on an empty message. -/
theorem compact_marked {k : Sx} {g : BitVec 4} {b b' : Buf .ump}
    (P : Packed k g 1 b ([] : List k.Byte)) (h : k.compact b = .ok b') :
    Marked k b b' ∧ Packed k g 1 b' ([] : List k.Byte) := by
  unfold compact at h
  split at h
  · cases h; exact ⟨Marked.refl _ _, P⟩
  · rw [P.payloadSize_eq] at h
    simp only [Res.ok_bind, List.length_nil] at h
    obtain ⟨b1, h1, h⟩ := Res.of_bind_ok h
    have : b1 = b := by
      unfold compactLoop at h1
      obtain ⟨w, h2, h1⟩ := Res.of_bind_ok h1
      have h0 := P.oct1 0 (by omega)
      rw [Nat.mul_zero, Nat.mul_zero, Nat.zero_add] at h0
      obtain ⟨w', e1, e2⟩ := octetAt_word (i := 0) (r := 1) (by omega) h0
      rw [Nat.zero_mul] at h2
      unfold at' at h2
      rw [e1] at h2
      injection h2 with h2
      rw [if_pos] at h1
      · cases h1; rfl
      · rw [← h2, show 2 = 2 * 1 from rfl, U32.nibble_octet_hi w' 1 (by omega), e2]
        cases k <;> decide
    rw [this] at h
    have hc0 : k.count 0 = 1 := rfl
    obtain ⟨⟨b2, r⟩, h2, h⟩ := Res.of_bind_ok h
    obtain ⟨_, rfl, R⟩ := tryResize_keeps (n := 0) (.inr rfl) (.inl rfl)
      (by rw [hc0]; exact P.len) P.group_eq h2
    cases h
    obtain ⟨l', f1, f2, _⟩ := R.packed (by rw [hc0]; exact P.len)
    cases List.eq_nil_of_length_eq_zero f1
    exact ⟨R.marked (by rw [hc0]; exact P.len), f2⟩

/-- The loop, when there is not room enough. -/
theorem mainLoop_spilled (k : Sx) (dbg : Bool) {g : BitVec 4} {b : Buf .ump} {C : Nat}
    (items : List k.Byte)
    (hC : C = b.length / k.stride * k.cap) (hn : C < items.length) (hb : k.stride ≤ b.length) :
    ∀ (fuel : Nat) {s : Buf .ump} {data l : List k.Byte} {w est a : Nat} {e : LoopEnd (Buf .ump)},
    Packed k g (k.count est) s l → l.length = est → w ≤ est → est ≤ C → data = items.drop w →
    l.take w = items.take w → Marked k b s →
    (k.ops dbg .fixed).mainLoop 0 0 0 fuel s data w est (a + 1) est = .ok e →
    ∃ s', e = .overflow s' ∧ Packed k g (k.count C) s' (items.take C) ∧ Marked k b s' := by
  intro fuel
  induction fuel with
  | zero => intro s data l w est a e _ _ _ _ _ _ _ h; cases h
  | succ fuel ih =>
    intro s data l w est a e P hl hw hest hd ht M h
    unfold SxOps.mainLoop at h
    obtain ⟨⟨s1, rest, w1, ex⟩, h1, h⟩ := Res.of_bind_ok h
    obtain ⟨M1, hw1, hrest, hex, P1⟩ := fill_marked k dbg .fixed items (by omega) data P hl hw hd ht h1
    simp only at h
    rw [hex, hw1, hrest] at h
    simp only [Bool.false_eq_true, if_false] at h
    obtain ⟨_, -, h⟩ := Res.of_bind_ok h
    have hne : (items.drop est).isEmpty = false := by
      have : (items.drop est).length ≠ 0 := by rw [List.length_drop]; omega
      cases he : items.drop est with
      | nil => rw [he] at this; exact absurd rfl this
      | cons _ _ => rfl
    rw [hne] at h
    simp only [Bool.false_eq_true, if_false] at h
    have Mb := M.trans M1
    have hs1 : k.stride ≤ s1.length := by rw [Mb.1]; exact hb
    obtain ⟨⟨s2, est2, to⟩, h2, h⟩ := Res.of_bind_ok h
    unfold SxOps.growMore at h2
    rw [if_pos (by omega)] at h2
    obtain ⟨m, h3, h2⟩ := Res.of_bind_ok h2
    obtain ⟨_, hm⟩ := usub_inv h3
    rw [Nat.add_zero, Nat.sub_zero] at hm
    obtain ⟨⟨s3, r3⟩, h4, h2⟩ := Res.of_bind_ok h2
    rw [hm] at h4
    obtain ⟨c, hc, hr3, R, hfit⟩ := tryResize_clipped hs1 P1.group_eq h4
    have hout : s3 = s2 ∧ est2 = c ∧ to = c := by
      cases r3 with
      | none =>
        simp only [Res.ok.injEq, Prod.mk.injEq] at h2
        obtain ⟨x1, x2, x3⟩ := h2
        simp only [Option.getD_none] at hr3
        exact ⟨x1, by omega, by omega⟩
      | some sz =>
        obtain ⟨kept, h5, h2⟩ := Res.of_bind_ok h2
        obtain ⟨_, hkept⟩ := usub_inv h5
        obtain ⟨to', h6, h2⟩ := Res.of_bind_ok h2
        obtain ⟨_, hto⟩ := usub_inv h6
        simp only [Res.ok.injEq, Prod.mk.injEq] at h2
        obtain ⟨x1, x2, x3⟩ := h2
        simp only [Option.getD_some] at hr3
        exact ⟨x1, by omega, by omega⟩
    obtain ⟨rfl, rfl, rfl⟩ := hout
    have hC2 : s1.length / k.stride * k.cap = C := by rw [Mb.1, hC]
    rw [hC2] at hc
    have hle : est ≤ to := by omega
    have htl : (items.take est).length = est := by rw [List.length_take]; omega
    obtain ⟨l2, hl2, ht2, P2⟩ := R.take P1 htl hle hfit
    simp only at h
    obtain ⟨s4, h7, h⟩ := Res.of_bind_ok h
    have hps : k.payloadSize s3 = .ok to := by rw [P2.payloadSize_eq, hl2]
    rw [moveTail_end hps (.inr rfl) h7] at h
    have M3 := Mb.trans (R.marked hfit)
    by_cases hov : to ≤ est
    · rw [if_pos hov] at h
      cases h
      have e1 : to = est := by omega
      have e2 : to = C := by omega
      refine ⟨s3, rfl, ?_, M3⟩
      rw [e1] at hl2
      rw [List.take_of_length_le (by omega)] at ht2
      rw [← e2, e1, ← ht2]
      rw [e1] at P2
      exact P2
    · rw [if_neg hov, Nat.zero_add, show (a + 1) * 2 = (2 * a + 1) + 1 by omega] at h
      exact ih P2 hl2 hle (by omega) rfl ht2 M3 h

/-- `try_set_payload` with any size hint, on a buffer without room. -/
theorem trySetPayload_spilled (k : Sx) (dbg : Bool) {g : BitVec 4} {b b' : Buf .ump}
    {o : Option Error} (d : Src k.Byte) (hb1 : k.stride ≤ b.length)
    (hl : b.length < k.stride * k.count d.items.length)
    (hg : ∃ w, b[0]? = some w ∧ U32.nibble w 1 = g)
    (h : (k.ops dbg .fixed).trySetPayload b d = .ok (b', o)) :
    ∃ s C, C = b.length / k.stride * k.cap ∧ C < d.items.length ∧
      Packed k g (k.count C) s (d.items.take C) ∧ Marked k b s ∧ Resized k g 1 0 s b' := by
  have hc0 : k.count 0 = 1 := rfl
  have hb : k.stride * k.count 0 ≤ b.length := by rw [hc0]; omega
  have hC : b.length / k.stride * k.cap < d.items.length := by
    rcases Nat.lt_or_ge (b.length / k.stride * k.cap) d.items.length with c | c
    · exact c
    · have := (k.limit_iff hb1).mp c
      omega
  suffices key : ∃ s, Packed k g (k.count (b.length / k.stride * k.cap)) s
      (d.items.take (b.length / k.stride * k.cap)) ∧ Marked k b s ∧ Resized k g 1 0 s b' by
    obtain ⟨s, h1, h2, h3⟩ := key
    exact ⟨s, _, rfl, hC, h1, h2, h3⟩
  generalize hCe : b.length / k.stride * k.cap = C at hC ⊢
  unfold SxOps.trySetPayload at h
  obtain ⟨⟨b1, r⟩, h1, h⟩ := Res.of_bind_ok h
  obtain ⟨_, rfl, R1⟩ := tryResize_keeps (n := 0) (.inl rfl) (.inl rfl) hb hg h1
  have M1 := R1.marked hb
  obtain ⟨l', f1, P1, _⟩ := R1.packed hb
  cases List.eq_nil_of_length_eq_zero f1
  simp only [SxOps.tryInsert, SxOps.trySplice] at h
  obtain ⟨⟨b9, o9⟩, h2, h⟩ := Res.of_bind_ok h
  have key : Packed k g (k.count C) b9 (d.items.take C) ∧ Marked k b b9 ∧
      o9 = some .bufferOverflow := by
    unfold SxOps.trySpliceDetail at h2
    obtain ⟨b2, h3, h2⟩ := Res.of_bind_ok h2
    obtain ⟨M2, P2⟩ := compact_marked P1 h3
    have Mb := M1.trans M2
    obtain ⟨initial, h4, h2⟩ := Res.of_bind_ok h2
    have h4 : k.payloadSize b2 = .ok initial := h4
    rw [P2.payloadSize_eq] at h4
    cases h4
    simp only [Bound.spliceBegin, Bound.spliceEnd, List.length_nil] at h2
    obtain ⟨sp, h5, h2⟩ := Res.of_bind_ok h2
    obtain ⟨_, hsp⟩ := usub_inv h5
    rw [Nat.sub_zero] at hsp
    subst hsp
    obtain ⟨⟨b3, est⟩, h6, h2⟩ := Res.of_bind_ok h2
    have grow : est ≤ C ∧ Marked k b b3 ∧
        (∃ l3 : List k.Byte, l3.length = est ∧ Packed k g (k.count est) b3 l3) := by
      unfold SxOps.firstGrow at h6
      obtain ⟨gr, h7, h6⟩ := Res.of_bind_ok h6
      obtain ⟨_, hgr⟩ := usub_inv h7
      split at h6
      · next hlt =>
        obtain ⟨m, h8, h6⟩ := Res.of_bind_ok h6
        obtain ⟨_, hm⟩ := usub_inv h8
        obtain ⟨⟨b4, r⟩, h9, h6⟩ := Res.of_bind_ok h6
        rw [hm, Nat.add_zero, Nat.sub_zero] at h9
        obtain ⟨c, hc, hr3, R, hfit⟩ := tryResize_clipped (by rw [Mb.1]; exact hb1) P2.group_eq h9
        have hout : b4 = b3 ∧ est = c := by
          cases r with
          | none =>
            simp only [Res.ok.injEq, Prod.mk.injEq] at h6
            simp only [Option.getD_none] at hr3
            exact ⟨h6.1, by omega⟩
          | some sz =>
            obtain ⟨kept, h5, h6⟩ := Res.of_bind_ok h6
            obtain ⟨_, hkept⟩ := usub_inv h5
            simp only [Res.ok.injEq, Prod.mk.injEq] at h6
            simp only [Option.getD_some] at hr3
            exact ⟨h6.1, by omega⟩
        obtain ⟨rfl, rfl⟩ := hout
        rw [Mb.1, hCe] at hc
        obtain ⟨l3, g1, P3, _⟩ := R.packed hfit
        exact ⟨by omega, Mb.trans (R.marked hfit), ⟨l3, g1, P3⟩⟩
      · next hz =>
        simp only [Res.ok.injEq, Prod.mk.injEq] at h6
        obtain ⟨rfl, hest⟩ := h6
        have hest0 : est = 0 := by omega
        subst hest0
        exact ⟨Nat.zero_le _, Mb, ⟨[], rfl, P2⟩⟩
    obtain ⟨hest, M3, ⟨l3, g1, P3⟩⟩ := grow
    obtain ⟨tail, h7, h2⟩ := Res.of_bind_ok h2
    obtain ⟨_, htail⟩ := usub_inv h7
    rw [Nat.zero_add, Nat.sub_zero] at htail
    subst htail
    obtain ⟨b4, h8, h2⟩ := Res.of_bind_ok h2
    have hps : k.payloadSize b3 = .ok tail := by rw [P3.payloadSize_eq, g1]
    rw [moveTail_end hps (.inr rfl) h8] at h2
    obtain ⟨e, h9, h2⟩ := Res.of_bind_ok h2
    obtain ⟨s', e1, P5, M5⟩ := mainLoop_spilled k dbg (a := 0) d.items hCe.symm hC hb1 _ P3 g1
      (Nat.zero_le _) hest rfl rfl M3 h9
    subst e1
    cases h2
    exact ⟨P5, M5, rfl⟩
  obtain ⟨P9, M9, rfl⟩ := key
  simp only at h
  obtain ⟨⟨b10, r10⟩, h10, h⟩ := Res.of_bind_ok h
  obtain ⟨_, rfl, R10⟩ := tryResize_keeps (n := 0) (m := 0) (.inl rfl) (.inl rfl)
    (by rw [M9.1]; exact hb) P9.group_eq h10
  cases h
  exact ⟨b9, P9, M9, R10⟩

theorem SpilledBehind.of {k : Sx} {g : BitVec 4} {b s b' : Buf .ump} {C : Nat} {items : List k.Byte}
    (hb1 : k.stride ≤ b.length) (hC : C = b.length / k.stride * k.cap) (hn : C < items.length)
    (P : Packed k g (k.count C) s (items.take C)) (M : Marked k b s) (R : Resized k g 1 0 s b') :
    SpilledBehind k.layout g.toNat (items.map BitVec.toNat) b b' := by
  have hs0 := k.stride_pos
  have hpos : 0 < b.length / k.stride := Nat.div_pos hb1 hs0
  have hcnt : k.count C = b.length / k.stride := by rw [hC, k.count_mul _ hpos]
  have hlen : b'.length = b.length := R.len.trans M.1
  have htl : (items.take C).length = C := by rw [List.length_take]; omega
  unfold SpilledBehind
  rw [words_eq]
  refine ⟨hlen, ?_, ?_⟩
  · intro i hi
    have hst : k.stride * 1 ≤ k.stride * (b.length / k.stride) := Nat.mul_le_mul_left _ hpos
    have ho : ∀ r, r < 4 → octetAt b' (4 * i + r) = octetAt b (4 * i + r) := by
      intro r hr
      rw [R.beyond _ (by omega), M.2.2 _ (by omega)]
    exact word_of_octetAt hlen ho
  · intro j hj0 hj
    have hle : k.stride * 1 ≤ k.stride * j := Nat.mul_le_mul_left _ hj0
    have hjc : j < k.count C := by rw [hcnt]; exact hj
    have hfill : k.fillSize (k.count C) C j = k.cap := by
      rw [fillSize_eq k C j hjc, hC]
      have := Nat.mul_le_mul_left k.cap (show j + 1 ≤ b.length / k.stride from hj)
      rw [Nat.mul_succ, Nat.mul_comm k.cap (b.length / k.stride)] at this
      omega
    refine ⟨?_, ?_, ?_, ?_⟩
    · rw [octetVal_eq, Nat.mul_assoc, R.beyond _ (by omega), P.oct0 j hjc, Option.map_some,
        Option.getD_some, typOctet, toNat_append4, type_eq]
    · have : k.cap + k.bias < 16 := by cases k <;> decide
      rw [octetVal_eq, Nat.mul_assoc, R.beyond _ (by omega), P.oct1 j hjc, Option.map_some,
        Option.getD_some, sizeOctet, toNat_append4, stat_toNat, htl, hfill, hcnt, extra_eq,
        capacity_eq, BitVec.toNat_ofNat, Nat.mod_eq_of_lt (by omega)]
    · intro o h1 h2
      rw [first_eq] at h2
      rw [octetVal_eq, octetVal_eq, Nat.mul_assoc, R.beyond _ (by omega), M.2.1 j o h1 h2]
    · intro i hi
      rw [capacity_eq] at hi ⊢
      have hlt : k.cap * j + i < C := by
        have := Nat.mul_le_mul_left k.cap (show j + 1 ≤ b.length / k.stride from hj)
        rw [Nat.mul_succ, Nat.mul_comm k.cap (b.length / k.stride)] at this
        omega
      have hby := P.bytes (k.cap * j + i) (by omega)
      rw [k.addr_mul_add j i hi, List.getElem?_take, if_pos hlt] at hby
      rw [List.getElem?_map, ← hby, octetVal_eq, Nat.mul_assoc, first_eq, values_eq,
        R.beyond _ (by omega), Option.map_map]
      have hin : 4 * (k.stride * j) + k.off + i < 4 * s.length := by
        rw [← k.addr_mul_add j i hi]
        exact P.addr_lt (by omega)
      rw [octetAt_lt hin]
      simp only [Option.map_some, Function.comp, Option.getD_some]
      unfold ofOctet
      rw [BitVec.toNat_setWidth]

end Sx

end Midi2
