import Verif.Lemmas.SysexParse

/-! What the representation invariants say in terms of the specification. -/

namespace Midi2

namespace Sx

/-! ### Packetisation -/

theorem split_ge {α : Type} (k : Sx) (l : List α) (h : l.length ≤ k.cap) : k.layout.split l = [l] := by
  rw [SysexLayout.split, dif_pos]
  rw [capacity_eq]; exact Or.inl h

theorem split_lt {α : Type} (k : Sx) (l : List α) (h : k.cap < l.length) :
    k.layout.split l = l.take k.cap :: k.layout.split (l.drop k.cap) := by
  rw [SysexLayout.split, dif_neg, capacity_eq]
  rw [capacity_eq]
  have := k.cap_pos
  omega

theorem fill_ge (k : Sx) (n : Nat) (h : n ≤ k.cap) : k.layout.fill n = [n] := by
  rw [SysexLayout.fill, if_pos]
  rw [capacity_eq]; exact Or.inl h

theorem fill_lt (k : Sx) (n : Nat) (h : k.cap < n) :
    k.layout.fill n = k.cap :: k.layout.fill (n - k.cap) := by
  rw [SysexLayout.fill, if_neg, capacity_eq]
  rw [capacity_eq]
  have := k.cap_pos
  omega

theorem count_one (k : Sx) {n : Nat} (h : n ≤ k.cap) : k.count n = 1 := by
  have := k.count_pos n
  have := (k.count_le_iff n 1 (by omega)).mpr (by omega)
  omega

theorem count_step (k : Sx) {n : Nat} (h : k.cap < n) : k.count n = k.count (n - k.cap) + 1 := by
  have hc := k.cap_pos
  unfold count
  rw [if_neg (by omega), if_neg (by omega)]
  cases k <;> simp only [cap] at * <;> omega

theorem split_eq {α : Type} (k : Sx) : ∀ (m : Nat) (l : List α), l.length ≤ m →
    k.layout.split l = (List.range (k.count l.length)).map fun j => (l.drop (k.cap * j)).take k.cap := by
  intro m
  induction m with
  | zero =>
    intro l hl
    rw [split_ge k l (by omega), count_one k (by omega)]
    simp only [List.range_one, List.map_cons, List.map_nil, Nat.mul_zero, List.drop_zero]
    rw [List.take_of_length_le (by omega)]
  | succ m ih =>
    intro l hl
    by_cases h : l.length ≤ k.cap
    · rw [split_ge k l h, count_one k h]
      simp only [List.range_one, List.map_cons, List.map_nil, Nat.mul_zero, List.drop_zero]
      rw [List.take_of_length_le h]
    · have hc := k.cap_pos
      rw [split_lt k l (by omega), ih _ (by rw [List.length_drop]; omega), List.length_drop,
        count_step k (n := l.length) (by omega), List.range_succ_eq_map, List.map_cons, List.map_map]
      congr 1
      apply List.map_congr_left
      intro j _
      simp only [Function.comp]
      rw [List.drop_drop, Nat.mul_succ, Nat.add_comm]

theorem fillSize_eq (k : Sx) (n j : Nat) (h : j < k.count n) :
    k.fillSize (k.count n) n j = min k.cap (n - k.cap * j) := by
  unfold fillSize
  split
  · next e =>
    have h1 := k.le_count n
    rw [show k.count n - 1 = j by omega]
    rw [← e, Nat.mul_succ] at h1
    omega
  · next e =>
    have h1 := k.count_le n
    have : k.cap * (j + 1) ≤ k.cap * (k.count n - 1) := Nat.mul_le_mul_left _ (by omega)
    rw [Nat.mul_succ] at this
    omega

theorem fill_eq (k : Sx) : ∀ (m n : Nat), n ≤ m →
    k.layout.fill n = (List.range (k.count n)).map (k.fillSize (k.count n) n) := by
  intro m
  induction m with
  | zero =>
    intro n hn
    rw [fill_ge k n (by omega), count_one k (by omega)]
    simp [fillSize]
  | succ m ih =>
    intro n hn
    by_cases h : n ≤ k.cap
    · rw [fill_ge k n h, count_one k h]
      simp [fillSize]
    · have hc := k.cap_pos
      rw [fill_lt k n (by omega), ih _ (by omega), count_step k (n := n) (by omega),
        List.range_succ_eq_map, List.map_cons, List.map_map]
      have hp := k.count_pos (n - k.cap)
      congr 1
      · unfold fillSize
        rw [if_neg (by omega)]
      · apply List.map_congr_left
        intro j hj
        have hj : j < k.count (n - k.cap) := by simpa using hj
        simp only [Function.comp]
        rw [fillSize_eq k _ _ hj, ← count_step k (n := n) (by omega),
          fillSize_eq k n _ (by rw [count_step k (n := n) (by omega)]; omega), Nat.succ_eq_add_one, Nat.mul_succ]
        omega

theorem length_fill (k : Sx) (n : Nat) : (k.layout.fill n).length = k.count n := by
  rw [fill_eq k n n (Nat.le_refl _)]; simp

theorem wireLength_eq (k : Sx) (n : Nat) : k.layout.wireLength n = 4 * (k.stride * k.count n) := by
  unfold SysexLayout.wireLength
  rw [length_fill, words_eq, Nat.mul_assoc]

/-! ### From the invariants -/

section
variable {k : Sx} {g : BitVec 4} {b : Buf .ump} {l : List k.Byte}

theorem Packed.isMessage (P : Packed k g (k.count l.length) b l) :
    k.layout.IsMessage b g.toNat (k.layout.fill l.length) := by
  rw [fill_eq k _ _ (Nat.le_refl _)]
  exact valid_iff.mp P.valid

theorem Packed.group_ok {p : Nat} (P : Packed k g p b l) : Sx.group b = .ok g := by
  obtain ⟨w, e1, e2⟩ := P.group_eq
  unfold Sx.group at'
  rw [e1]
  simp only [Res.ok_bind, Res.pure_eq, e2]

theorem Packed.data_eq {p : Nat} (P : Packed k g p b l) : k.data b = .ok (b.take (k.stride * p)) :=
  P.frame.data_eq

theorem octetAt_take (b : Buf .ump) (n a : Nat) (h : a < 4 * n) :
    octetAt (b.take n) a = octetAt b a := by
  unfold octetAt
  rw [List.getElem?_take_of_lt (by omega)]

theorem Packed.take {p : Nat} (P : Packed k g p b l) : Packed k g p (b.take (k.stride * p)) l := by
  have hhd : ∀ j r, j < p → r < 2 → 4 * (k.stride * j) + r < 4 * (k.stride * p) := by
    intro j r hj hr
    have : k.stride * (j + 1) ≤ k.stride * p := Nat.mul_le_mul_left _ hj
    have := k.stride_pos
    rw [Nat.mul_succ] at *
    omega
  refine ⟨P.pos, ?_, P.lo, P.hi, ?_, ?_, ?_⟩
  · rw [List.length_take, Nat.min_eq_left P.len]; exact Nat.le_refl _
  · intro j hj
    rw [octetAt_take _ _ _ (by have := hhd j 0 hj; omega), P.oct0 j hj]
  · intro j hj
    rw [octetAt_take _ _ _ (hhd j 1 hj (by omega)), P.oct1 j hj]
  · intro i hi
    rw [octetAt_take _ _ _ (k.addr_lt_iff.mpr (Nat.lt_of_lt_of_le hi P.hi)), P.bytes i hi]

theorem zeroId_take (h : ZeroId k b) (n : Nat) : ZeroId k (b.take n) := by
  have key : ∀ a o, octetAt (b.take n) a = some o → octetAt b a = some o := by
    intro a o ho
    have : a < 4 * n := by
      have : (octetAt (b.take n) a).isSome := by simp [ho]
      rw [octetAt_isSome, List.length_take] at this
      omega
    rwa [octetAt_take _ _ _ this] at ho
  exact ⟨fun hk j o ho => h.1 hk j o (key _ _ ho), fun hk a o ho => h.2 hk a o (key _ _ ho)⟩

theorem zeroId_fields (h : ZeroId k b) (hk : k = s8) (j : Nat) (hj : k.stride * j < b.length) :
    fieldAt b (k.stride * j) 16 8 = some 0 := by
  subst hk
  simp only [stride] at *
  have hlt : 16 * j + 2 < 4 * b.length := by omega
  have := h.1 rfl j _ (octetAt_lt hlt)
  have e1 : (16 * j + 2) / 4 = 4 * j := by omega
  have e2 : (16 * j + 2) % 4 = 2 := by omega
  simp only [e1, e2] at this
  rw [fieldAt_ok hj]
  have e := octet_field b[4 * j] (i := 2) (by omega)
  rw [this] at e
  exact congrArg some e.symm

/-- The message part of a packed buffer is accepted by the parser. -/
theorem Packed.accepted {p : Nat} (P : Packed k g p b l) (hz : ZeroId k b) :
    k.tryFrom (b.take (k.stride * p)) = .ok (b.take (k.stride * p)) := by
  rw [tryFrom_iff]
  have hlen : (b.take (k.stride * p)).length = k.stride * p := by
    rw [List.length_take, Nat.min_eq_left P.len]
  refine P.take.valid.accepts hlen ?_
  intro hk j hj
  have hz' := zeroId_take hz (k.stride * p)
  have hs := k.stride_pos
  have h1 : k.stride * j < (b.take (k.stride * p)).length := by
    rw [hlen]; exact Nat.mul_lt_mul_of_pos_left hj hs
  have h0 := zeroId_fields hz' hk 0 (by rw [Nat.mul_zero]; omega)
  rw [Nat.mul_zero] at h0
  rw [zeroId_fields hz' hk j h1, h0]

theorem length_octets (b : Buf .ump) : (octets b).length = 4 * b.length := by
  unfold octets; simp

theorem octets_getElem? (b : Buf .ump) (a : Nat) :
    (octets b)[a]? = (octetAt b a).map BitVec.toNat := by
  unfold octets
  rw [List.getElem?_map]
  by_cases h : a < 4 * b.length
  · rw [List.getElem?_range h, Option.map_some, octetVal_eq, octetAt_lt h]; rfl
  · rw [List.getElem?_eq_none (by simpa using h), octetAt_none (by omega)]; rfl

theorem toNat_append4 (x y : BitVec 4) : (x ++ y : BitVec 8).toNat = x.toNat * 16 + y.toNat := by
  revert x y; decide +kernel

theorem length_packet (k : Sx) (g n j : Nat) (c : List Nat) (hc : c.length ≤ k.cap) :
    (k.layout.packet g n j c).length = 4 * k.stride := by
  unfold SysexLayout.packet
  simp only [List.length_append, List.length_cons, List.length_nil, List.length_replicate]
  rw [capacity_eq, first_eq]
  have := k.cap_off
  have := k.two_le_off
  omega

theorem toNat_ofOctet (h : Septets k b) {a : Nat} {o : BitVec 8} (ho : octetAt b a = some o) :
    (k.ofOctet o).toNat = o.toNat := by
  unfold ofOctet
  rw [BitVec.toNat_setWidth]
  cases k with
  | s7 =>
    have := h rfl a o ho
    exact Nat.mod_eq_of_lt this
  | s8 => exact Nat.mod_eq_of_lt o.isLt

/-- The octets of the message: exactly the wire format up to the payload's end; behind it
when the padding is zero. -/
theorem Packed.wire_getElem? (P : Packed k g (k.count l.length) b l) (hz : ZeroId k b) (a : Nat)
    (ha : a < 4 * (k.stride * k.count l.length))
    (hpad : ∀ i, l.length ≤ i → a = k.addr i → octetAt b a = some 0) :
    (octetAt b a).map BitVec.toNat = (k.layout.wire g.toNat (l.map BitVec.toNat))[a]? := by
  have hs := k.stride_pos
  have ho := k.two_le_off
  have hco := k.cap_off
  have hcb := k.cap_bias
  unfold SysexLayout.wire
  have hsplit : k.layout.split (l.map BitVec.toNat) =
      (List.range (k.count l.length)).map fun j => ((l.map BitVec.toNat).drop (k.cap * j)).take k.cap := by
    rw [split_eq k _ _ (Nat.le_refl _), List.length_map]
  have hslen : (k.layout.split (l.map BitVec.toNat)).length = k.count l.length := by
    rw [hsplit]; simp
  -- position
  obtain ⟨j, r, hj, hr, rfl⟩ : ∃ j r, j < k.count l.length ∧ r < 4 * k.stride ∧
      a = 4 * (k.stride * j) + r := by
    refine ⟨a / (4 * k.stride), a % (4 * k.stride), ?_, Nat.mod_lt _ (by omega), ?_⟩
    · rw [Nat.div_lt_iff_lt_mul (by omega), Nat.mul_comm, Nat.mul_assoc]; exact ha
    · rw [← Nat.mul_assoc, Nat.div_add_mod]
  have huni : ∀ q ∈ ((k.layout.split (l.map BitVec.toNat)).zipIdx.map fun (c, j) =>
      k.layout.packet g.toNat (k.layout.split (l.map BitVec.toNat)).length j c), q.length = 4 * k.stride := by
    intro q hq
    rw [List.mem_map] at hq
    obtain ⟨⟨c, i⟩, hc, rfl⟩ := hq
    refine length_packet k _ _ _ _ ?_
    have := (List.mem_zipIdx' hc)
    have hc2 : c ∈ k.layout.split (l.map BitVec.toNat) := by rw [this.2]; exact List.getElem_mem _
    rw [hsplit, List.mem_map] at hc2
    obtain ⟨t, _, rfl⟩ := hc2
    rw [List.length_take]; omega
  rw [show 4 * (k.stride * j) + r = (4 * k.stride) * j + r by rw [Nat.mul_assoc],
    flatten_getElem? (by omega) _ huni j r hr, List.getElem?_map, List.getElem?_zipIdx, hslen, hsplit]
  rw [List.getElem?_map, List.getElem?_range hj]
  simp only [Option.map_some, Option.bind_some, Nat.zero_add]
  have hcl : (((l.map BitVec.toNat).drop (k.cap * j)).take k.cap).length = k.fillSize (k.count l.length) l.length j := by
    rw [fillSize_eq k _ _ hj, List.length_take, List.length_drop, List.length_map]
  have hfl := fillSize_le P j
  unfold SysexLayout.packet
  rw [Nat.mul_assoc]
  by_cases h0 : r = 0
  · subst h0
    have := P.oct0 j hj
    rw [Nat.add_zero, this, Option.map_some]
    simp only [List.cons_append, List.getElem?_cons_zero]
    rw [type_eq, typOctet, toNat_append4]
  · by_cases h1 : r = 1
    · subst h1
      rw [P.oct1 j hj, Option.map_some]
      simp only [List.cons_append, List.getElem?_cons_zero, List.getElem?_cons_succ]
      rw [sizeOctet, toNat_append4, stat_toNat, hcl, extra_eq, BitVec.toNat_ofNat,
        Nat.mod_eq_of_lt (by omega)]
    · rw [List.append_assoc, List.append_assoc, List.getElem?_append_right (by simp; omega)]
      simp only [List.length_cons, List.length_nil]
      by_cases h2 : r < k.off
      · -- stream id
        have hk : k = s8 := by cases k with | s7 => simp only [off] at h2; omega | s8 => rfl
        subst hk
        simp only [off] at h2
        have hr2 : r = 2 := by omega
        subst hr2
        have hlt : 4 * (s8.stride * j) + 2 < 4 * b.length := by have := P.len; omega
        have h3 : octetAt b (4 * (s8.stride * j) + 2) = some 0 := by
          rw [octetAt_lt hlt]
          congr 1
          refine hz.1 rfl j _ ?_
          rw [show 16 * j + 2 = 4 * (s8.stride * j) + 2 by simp only [stride]; omega, octetAt_lt hlt]
        rw [h3]
        rfl
      · have hf : k.layout.first - 2 = k.off - 2 := by rw [first_eq]
        rw [List.getElem?_append_right (by simp [first_eq]; omega), List.length_replicate, hf,
          show r - 2 - (k.off - 2) = r - k.off by omega]
        have haddr := k.exists_addr j r (by omega) hr
        by_cases h3 : r - k.off < k.fillSize (k.count l.length) l.length j
        · rw [List.getElem?_append_left (by rw [hcl]; exact h3), List.getElem?_take_of_lt (by omega),
            List.getElem?_drop, List.getElem?_map]
          have hi : k.cap * j + (r - k.off) < l.length := by
            rw [fillSize_eq k _ _ hj] at h3
            omega
          have hby := P.bytes _ hi
          rw [← haddr, ← hby]
          rw [Option.map_map, octetAt_lt (P.addr_lt hi)]
          simp only [Option.map_some, Function.comp, Option.some.injEq]
          exact (toNat_ofOctet hz.2 (octetAt_lt (P.addr_lt hi))).symm
        · rw [List.getElem?_append_right (by rw [hcl]; omega), hcl, List.getElem?_replicate,
            capacity_eq, if_pos (by omega)]
          rw [hpad (k.cap * j + (r - k.off)) ?_ haddr.symm]
          · rfl
          · rw [fillSize_eq k _ _ hj] at h3
            omega

end

end Sx

end Midi2
