import Verif.Lemmas.Canonical
import Verif.Lemmas.Effort
import Verif.Lemmas.BehindSysex

/-! Setting a payload on a buffer of fixed size: what is kept behind it. -/

namespace Midi2

namespace Sx

/-- The octets from `T` on are kept. -/
def Keeps (T : Nat) (b b' : Buf .ump) : Prop :=
  b'.length = b.length ∧ ∀ a, T ≤ a → octetAt b' a = octetAt b a

theorem Keeps.refl (T : Nat) (b : Buf .ump) : Keeps T b b := ⟨rfl, fun _ _ => rfl⟩

theorem Keeps.trans {T : Nat} {a b c : Buf .ump} (h : Keeps T a b) (h' : Keeps T b c) :
    Keeps T a c :=
  ⟨h'.1.trans h.1, fun x hx => (h'.2 x hx).trans (h.2 x hx)⟩

/-- The octets a message of `n` bytes needs: all packets, or the used part of a single one. -/
def span (k : Sx) (n : Nat) : Nat :=
  if n < k.cap then k.off + n else 4 * (k.stride * k.count n)

theorem span_le (k : Sx) (n : Nat) : k.span n ≤ 4 * (k.stride * k.count n) := by
  unfold span
  split
  · next h =>
    have : k.stride * 1 ≤ k.stride * k.count n := Nat.mul_le_mul_left _ (k.count_pos n)
    have := k.cap_off
    omega
  · exact Nat.le_refl _

theorem addr_lt_span (k : Sx) {i n : Nat} (h : i < n) : k.addr i < k.span n := by
  unfold span
  split
  · next hn =>
    unfold addr
    rw [Nat.div_eq_of_lt (by omega)]
    omega
  · rw [k.addr_lt_iff]
    exact Nat.lt_of_lt_of_le h ((k.count_le_iff n _ (k.count_pos n)).mp (Nat.le_refl _))

theorem Resized.keeps {k : Sx} {g : BitVec 4} {n m : Nat} {b b' : Buf .ump} (hm : m = 0 ∨ m = n)
    (r : Resized k g (k.count m) m b b') : Keeps (k.span n) b b' := by
  refine ⟨r.len, fun a ha => ?_⟩
  by_cases hb : 4 * (k.stride * k.count m) ≤ a
  · exact r.beyond a hb
  · have hc : k.count m = 1 ∧ n < k.cap := by
      unfold span at ha
      split at ha
      · next h =>
        refine ⟨?_, h⟩
        have := (k.count_le_iff m 1 (by omega)).mpr (by omega)
        have := k.count_pos m
        omega
      · next h =>
        rcases hm with rfl | rfl
        · exfalso
          apply hb
          refine Nat.le_trans ?_ ha
          have : k.stride * k.count 0 ≤ k.stride * k.count n :=
            Nat.mul_le_mul_left _ (k.count_pos n)
          omega
        · exact absurd ha hb
    rw [hc.1, Nat.mul_one] at hb
    have h2 : 2 ≤ a := by
      unfold span at ha
      rw [if_pos hc.2] at ha
      have := k.two_le_off
      omega
    have := r.rest 0 a (k.count_pos m) h2 (by omega)
    rw [Nat.mul_zero, Nat.mul_zero, Nat.zero_add] at this
    rw [this, if_neg]
    intro h
    have := h.1
    omega

theorem writeDatum_eq (k : Sx) (b : Buf .ump) (v : k.Byte) (i : Nat) :
    k.writeDatum b v i = modifyAt b (k.addr i / 4) fun w => k.set w (k.addr i % 4) v := by
  have e1 : k.stride * (i / k.cap) + (i % k.cap + k.off) / 4 = k.addr i / 4 := by
    rw [addr_eq]; omega
  have e2 : (i % k.cap + k.off) % 4 = k.addr i % 4 := by
    rw [addr_eq]; omega
  unfold writeDatum
  rw [e1, e2]

theorem fill_keeps (k : Sx) (dbg : Bool) (m : Mem) {n : Nat} : ∀ (data : List k.Byte) {s : Buf .ump}
    {w : Nat} {s' : Buf .ump} {rest : List k.Byte} {w' : Nat} {ex : Bool}, w + data.length = n →
    (k.ops dbg m).fill 0 n data s w = .ok (s', rest, w', ex) →
    Keeps (k.span n) s s' ∧ octetAt s' 0 = octetAt s 0 ∧ rest = [] ∧ w' = n ∧ ex = false := by
  intro data
  induction data with
  | nil =>
    intro s w s' rest w' ex hw h
    simp only [SxOps.fill, Res.ok.injEq, Prod.mk.injEq] at h
    obtain ⟨rfl, rfl, rfl, rfl⟩ := h
    simp only [List.length_nil, Nat.add_zero] at hw
    exact ⟨Keeps.refl _ _, rfl, rfl, hw, decide_eq_false (by omega)⟩
  | cons v data ih =>
    intro s w s' rest w' ex hw h
    rw [List.length_cons] at hw
    unfold SxOps.fill at h
    rw [if_pos (by omega)] at h
    obtain ⟨s1, h1, h⟩ := Res.of_bind_ok h
    obtain ⟨i1, i2, i3⟩ := ih (by omega) h
    have h1 : k.writeDatum s v (0 + w) = .ok s1 := h1
    rw [Nat.zero_add] at h1
    have hlt : k.addr w < 4 * s.length := by
      rw [writeDatum_eq] at h1
      unfold modifyAt at h1
      split at h1
      · next e =>
        have := (List.getElem?_eq_some_iff.mp e).1
        omega
      · cases h1
    obtain ⟨b', e1, e2, e3, _⟩ := k.modify_byte hlt v
    rw [writeDatum_eq, e1] at h1
    cases h1
    have hne := k.addr_ne_head w 0 0 (by have := k.two_le_off; omega)
    refine ⟨Keeps.trans ⟨e2, fun a ha => e3 a ?_⟩ i1, ?_, i3⟩
    · have := k.addr_lt_span (i := w) (n := n) (by omega)
      omega
    · rw [i2, e3]
      simpa using Ne.symm hne

theorem group_of_octet {k : Sx} {g : BitVec 4} {b : Buf .ump}
    (h : octetAt b 0 = some (k.typOctet g)) : ∃ w, b[0]? = some w ∧ U32.nibble w 1 = g := by
  obtain ⟨w, e1, e2⟩ := octetAt_word (i := 0) (r := 0) (by omega) h
  refine ⟨w, e1, ?_⟩
  rw [show 1 = 2 * 0 + 1 from rfl, U32.nibble_octet_lo w 0 (by omega), e2]
  exact append_lo _ _

/-- A resize that fits. -/
theorem tryResize_keeps {k : Sx} {g : BitVec 4} {n m : Nat} {b b' : Buf .ump} {r : Option Nat}
    {mem : Mem} (hmem : mem = .fixed ∨ mem = .keep) (hm : m = 0 ∨ m = n)
    (hl : k.stride * k.count m ≤ b.length) (hg : ∃ w, b[0]? = some w ∧ U32.nibble w 1 = g)
    (h : k.tryResize mem b m = .ok (b', r)) :
    Keeps (k.span n) b b' ∧ r = none ∧ Resized k g (k.count m) m b b' := by
  obtain ⟨b1, e, R⟩ := k.tryResize_fine (m := mem) (b := b) (n := m) (b1 := b)
    (by rcases hmem with rfl | rfl <;> simp [Mem.resize, hl]) hl hg
  rw [e] at h
  cases h
  exact ⟨R.keeps hm, rfl, R⟩

theorem moveTail_same {k : Sx} {dbg : Bool} {b b' : Buf .ump} {t : Nat}
    (h : k.moveTail dbg b t t = .ok b') : b' = b := by
  unfold moveTail at h
  obtain ⟨_, -, h⟩ := Res.of_bind_ok h
  obtain ⟨ps, -, h⟩ := Res.of_bind_ok h
  rw [if_neg (by omega), if_neg (by omega)] at h
  cases h
  rfl

theorem moveTail_none {k : Sx} {dbg : Bool} {b b' : Buf .ump} {n : Nat}
    (hn : k.payloadSize b = .ok n) (h : k.moveTail dbg b 0 n = .ok b') : b' = b := by
  unfold moveTail at h
  obtain ⟨_, -, h⟩ := Res.of_bind_ok h
  rw [hn] at h
  simp only [Res.ok_bind] at h
  split at h
  · obtain ⟨hi, h1, h⟩ := Res.of_bind_ok h
    obtain ⟨_, rfl⟩ := usub_inv h1
    simp only [Nat.sub_zero, Nat.sub_self, List.range'_zero, List.reverse_nil, List.foldlM_nil] at h
    cases h
    rfl
  · rw [if_neg (by omega)] at h
    cases h
    rfl

/-- `compact()` on an empty message. -/
theorem compact_keeps {k : Sx} {g : BitVec 4} {n : Nat} {b b' : Buf .ump}
    (P : Packed k g 1 b ([] : List k.Byte)) (h : k.compact b = .ok b') :
    Keeps (k.span n) b b' ∧ Packed k g 1 b' ([] : List k.Byte) := by
  unfold compact at h
  split at h
  · cases h; exact ⟨Keeps.refl _ _, P⟩
  · rw [P.payloadSize_eq] at h
    simp only [Res.ok_bind, List.length_nil] at h
    obtain ⟨b1, h1, h⟩ := Res.of_bind_ok h
    have : b1 = b := by
      unfold compactLoop at h1
      obtain ⟨w, h2, h1⟩ := Res.of_bind_ok h1
      have h0 := P.oct1 0 (by omega)
      rw [Nat.mul_zero, Nat.mul_zero, Nat.zero_add] at h0
      obtain ⟨w', e1, e2⟩ := octetAt_word (i := 0) (r := 1) (by omega) h0
      rw [Nat.zero_mul] at h2
      unfold at' at h2
      rw [e1] at h2
      injection h2 with h2
      rw [if_pos] at h1
      · cases h1; rfl
      · rw [← h2, show 2 = 2 * 1 from rfl, U32.nibble_octet_hi w' 1 (by omega), e2]
        cases k <;> decide
    rw [this] at h
    have hc0 : k.count 0 = 1 := rfl
    obtain ⟨⟨b2, r⟩, h2, h⟩ := Res.of_bind_ok h
    obtain ⟨K, rfl, R⟩ := tryResize_keeps (n := n) (.inr rfl) (.inl rfl)
      (by rw [hc0]; exact P.len) P.group_eq h2
    cases h
    obtain ⟨l', f1, f2, _⟩ := R.packed (by rw [hc0]; exact P.len)
    cases List.eq_nil_of_length_eq_zero f1
    exact ⟨K, f2⟩

/-- `try_set_payload` with the right size hint, on a buffer with room: what is behind the payload is
kept. -/
theorem trySetPayload_keeps (k : Sx) (dbg : Bool) {g : BitVec 4} {b b' : Buf .ump}
    {o : Option Error} (d : Src k.Byte) (he : d.estimate = d.items.length)
    (hl : k.stride * k.count d.items.length ≤ b.length)
    (hg : ∃ w, b[0]? = some w ∧ U32.nibble w 1 = g)
    (h : (k.ops dbg .fixed).trySetPayload b d = .ok (b', o)) :
    Keeps (k.span d.items.length) b b' := by
  generalize hn : d.items.length = n at he hl ⊢
  have hc0 : k.count 0 = 1 := rfl
  have hb : k.stride * k.count 0 ≤ b.length :=
    Nat.le_trans (Nat.mul_le_mul_left _ (k.count_pos n)) hl
  unfold SxOps.trySetPayload at h
  obtain ⟨⟨b1, r⟩, h1, h⟩ := Res.of_bind_ok h
  obtain ⟨K1, rfl, R1⟩ := tryResize_keeps (n := n) (.inl rfl) (.inl rfl) hb hg h1
  obtain ⟨l', f1, P1, _⟩ := R1.packed hb
  cases List.eq_nil_of_length_eq_zero f1
  simp only [SxOps.tryInsert, SxOps.trySplice] at h
  obtain ⟨⟨b9, o9⟩, h2, h⟩ := Res.of_bind_ok h
  have key : Keeps (k.span n) b1 b9 ∧ o9 = none := by
    unfold SxOps.trySpliceDetail at h2
    obtain ⟨b2, h3, h2⟩ := Res.of_bind_ok h2
    obtain ⟨K2, P2⟩ := compact_keeps (n := n) P1 h3
    obtain ⟨initial, h4, h2⟩ := Res.of_bind_ok h2
    have h4 : k.payloadSize b2 = .ok initial := h4
    rw [P2.payloadSize_eq] at h4
    cases h4
    have hl2 : k.stride * k.count n ≤ b2.length := by rw [K2.1, K1.1]; exact hl
    simp only [Bound.spliceBegin, Bound.spliceEnd, List.length_nil] at h2
    obtain ⟨sp, h5, h2⟩ := Res.of_bind_ok h2
    obtain ⟨_, rfl⟩ := usub_inv h5
    rw [he] at h2
    obtain ⟨⟨b3, est⟩, h6, h2⟩ := Res.of_bind_ok h2
    -- the growth before the loop
    have grow : Keeps (k.span n) b2 b3 ∧ est = n ∧ k.payloadSize b3 = .ok n ∧
        octetAt b3 0 = some (k.typOctet g) := by
      unfold SxOps.firstGrow at h6
      obtain ⟨gr, h7, h6⟩ := Res.of_bind_ok h6
      obtain ⟨_, rfl⟩ := usub_inv h7
      split at h6
      · obtain ⟨m, h8, h6⟩ := Res.of_bind_ok h6
        obtain ⟨_, hm⟩ := usub_inv h8
        obtain ⟨⟨b4, r⟩, h9, h6⟩ := Res.of_bind_ok h6
        have h9 : k.tryResize .fixed b2 n = .ok (b4, r) := by
          rw [hm] at h9
          simp only [Nat.add_zero, Nat.sub_zero] at h9
          exact h9
        obtain ⟨K3, rfl, R3⟩ := tryResize_keeps (n := n) (.inl rfl) (.inr rfl) hl2 P2.group_eq h9
        cases h6
        obtain ⟨l', f1, P3, _⟩ := R3.packed hl2
        have e0 := P3.oct0 0 P3.pos
        rw [Nat.mul_zero, Nat.mul_zero] at e0
        exact ⟨K3, rfl, by rw [P3.payloadSize_eq, f1], e0⟩
      · next hz =>
        simp only [Res.ok.injEq, Prod.mk.injEq] at h6
        have e0 := P2.oct0 0 P2.pos
        rw [Nat.mul_zero, Nat.mul_zero] at e0
        have hn0 : n = 0 := by omega
        rw [← h6.1, ← h6.2]
        refine ⟨Keeps.refl _ _, rfl, ?_, e0⟩
        rw [P2.payloadSize_eq, hn0]; rfl
    obtain ⟨K3, hest, hps, hoct⟩ := grow
    simp only [hest] at h2
    obtain ⟨tail, h7, h2⟩ := Res.of_bind_ok h2
    obtain ⟨_, rfl⟩ := usub_inv h7
    simp only [Nat.zero_add, Nat.sub_self, Nat.sub_zero] at h2
    obtain ⟨b4, h8, h2⟩ := Res.of_bind_ok h2
    rw [moveTail_none hps h8] at h2
    obtain ⟨e, h9, h2⟩ := Res.of_bind_ok h2
    unfold SxOps.mainLoop at h9
    obtain ⟨⟨b5, rest, w, ex⟩, h10, h9⟩ := Res.of_bind_ok h9
    obtain ⟨K5, e5, rfl, rfl, rfl⟩ := fill_keeps k dbg .fixed d.items
      (by rw [Nat.zero_add]; exact hn) h10
    simp only [Bool.false_eq_true, if_false, beq_self_eq_true, List.isEmpty_nil, if_true] at h9
    obtain ⟨_, -, h9⟩ := Res.of_bind_ok h9
    cases h9
    simp only at h2
    obtain ⟨b6, h11, h2⟩ := Res.of_bind_ok h2
    rw [moveTail_same h11] at h2
    obtain ⟨m, h12, h2⟩ := Res.of_bind_ok h2
    obtain ⟨_, hm⟩ := usub_inv h12
    obtain ⟨⟨b7, r⟩, h13, h2⟩ := Res.of_bind_ok h2
    rw [hm] at h13
    simp only [Nat.add_zero, Nat.sub_zero] at h13
    obtain ⟨K7, rfl, _⟩ := tryResize_keeps (n := w) (m := w) (.inl rfl) (.inr rfl)
      (by rw [K5.1, K3.1]; exact hl2) (group_of_octet (e5.trans hoct)) h13
    cases h2
    exact ⟨((K2.trans K3).trans K5).trans K7, rfl⟩
  obtain ⟨K9, rfl⟩ := key
  cases h
  exact K1.trans K9

end Sx

end Midi2
