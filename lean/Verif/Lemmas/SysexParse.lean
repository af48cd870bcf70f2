import Verif.Lemmas.SysexCompact
import Verif.Lemmas.Legal
import Verif.Spec.Sysex

/-! Parsed buffers and the specification of messages. -/

namespace Midi2

theorem words_eq (k : Sx) : k.layout.words = k.stride := by cases k <;> rfl
theorem capacity_eq (k : Sx) : k.layout.capacity = k.cap := by cases k <;> rfl
theorem first_eq (k : Sx) : k.layout.first = k.off := by cases k <;> rfl
theorem extra_eq (k : Sx) : k.layout.extra = k.bias := by cases k <;> rfl
theorem type_eq (k : Sx) : k.layout.type = k.typ.toNat := by cases k <;> rfl
theorem values_eq (k : Sx) : k.layout.values = 2 ^ k.bits := by cases k <;> rfl

theorem stat_toNat (p j : Nat) : (Sx.stat p j).toNat = statusCode p j := by
  unfold Sx.stat statusCode
  split
  · rfl
  · split
    · rfl
    · split <;> rfl

/-! ### Sequences of statuses -/

theorem statusesLoop_seq (f : BitVec 32 → Nat) : ∀ l : List (BitVec 32),
    statusesLoopW (fun w => decide (f w = 2)) (fun w => decide (f w = 3)) l = .ok () ↔
      l = [] ∨ ∃ n, l.map f = List.replicate n 2 ++ [3]
  | [] => by simp [statusesLoopW]
  | [p] => by
    simp only [statusesLoopW]
    constructor
    · intro h
      right
      refine ⟨0, ?_⟩
      by_cases h3 : f p = 3
      · simp [h3]
      · simp [h3] at h
    · rintro (h | ⟨n, h⟩)
      · cases h
      · have hl := congrArg List.length h
        simp at hl
        subst hl
        simp at h
        simp [h]
  | p :: q :: rest => by
    simp only [statusesLoopW]
    by_cases h2 : f p = 2
    · simp only [h2, decide_true, if_true]
      rw [statusesLoop_seq f (q :: rest)]
      simp only [reduceCtorEq, false_or]
      constructor
      · rintro ⟨n, h⟩
        refine ⟨n + 1, ?_⟩
        rw [List.map_cons, h, h2, List.replicate_succ, List.cons_append]
      · rintro ⟨n, h⟩
        cases n with
        | zero => simp at h
        | succ n =>
          rw [List.map_cons, List.replicate_succ, List.cons_append, List.cons.injEq] at h
          exact ⟨n, h.2⟩
    · simp only [h2, decide_false, Bool.false_eq_true, if_false, reduceCtorEq, false_or, false_iff,
        not_exists]
      intro n h
      cases n with
      | zero => simp at h
      | succ n =>
        rw [List.map_cons, List.replicate_succ, List.cons_append, List.cons.injEq] at h
        exact h2 h.1

theorem statuses_seq (f : BitVec 32 → Nat) (l : List (BitVec 32)) :
    statusesW (fun w => decide (f w = 0)) (fun w => decide (f w = 1)) (fun w => decide (f w = 2))
      (fun w => decide (f w = 3)) l = .ok () ↔ SeqOk (l.map f) := by
  match l with
  | [] => simp [statusesW, SeqOk]
  | [p] =>
    simp only [statusesW, SeqOk]
    constructor
    · intro h
      by_cases h0 : f p = 0
      · left; simp [h0]
      · simp [h0] at h
    · rintro (h | ⟨n, h⟩)
      · simp at h; simp [h]
      · simp at h
  | p :: q :: rest =>
    simp only [statusesW, SeqOk]
    by_cases h1 : f p = 1
    · simp only [h1, decide_true, if_true]
      rw [statusesLoop_seq f (q :: rest)]
      simp [h1]
    · simp [h1]

/-- The sequence by positions. -/
theorem seqOk_iff (fs : List Nat) :
    SeqOk fs ↔ fs ≠ [] ∧ ∀ j x, fs[j]? = some x → x = statusCode fs.length j := by
  constructor
  · rintro (rfl | ⟨n, rfl⟩)
    · refine ⟨by simp, ?_⟩
      intro j x h
      cases j with
      | zero => simp at h; simp [statusCode, ← h]
      | succ j => simp at h
    · refine ⟨by simp, ?_⟩
      intro j x h
      have hlen : (1 :: (List.replicate n 2 ++ [3])).length = n + 2 := by simp
      rw [hlen]
      unfold statusCode
      rw [if_neg (by omega)]
      cases j with
      | zero => simp at h; simp [← h]
      | succ j =>
        rw [List.getElem?_cons_succ] at h
        rw [if_neg (by omega)]
        by_cases hj : j < n
        · rw [List.getElem?_append_left (by simpa using hj), List.getElem?_replicate, if_pos hj] at h
          rw [if_neg (by omega)]
          exact (Option.some.inj h).symm
        · rw [List.getElem?_append_right (by simpa using hj)] at h
          simp only [List.length_replicate] at h
          have hjn : j = n := by
            by_cases e : j = n
            · exact e
            · rw [List.getElem?_eq_none (by simp; omega)] at h; cases h
          subst hjn
          simp at h
          rw [if_pos rfl, ← h]
  · rintro ⟨hne, h⟩
    match fs, hne, h with
    | [x], _, h =>
      left
      have := h 0 x rfl
      simp [statusCode] at this
      rw [this]
    | x :: y :: rest, _, h =>
      right
      refine ⟨rest.length, ?_⟩
      have hx := h 0 x rfl
      simp [statusCode] at hx
      subst hx
      congr 1
      apply List.ext_getElem?
      intro j
      by_cases hj : j < (y :: rest).length
      · have := h (j + 1) ((y :: rest)[j]) (by
          rw [List.getElem?_cons_succ, List.getElem?_eq_getElem hj])
        rw [List.getElem?_eq_getElem hj, this]
        unfold statusCode
        simp only [List.length_cons] at hj ⊢
        rw [if_neg (by omega), if_neg (by omega)]
        by_cases hl : j = rest.length
        · subst hl
          rw [if_pos (by omega), List.getElem?_append_right (by simp)]
          simp
        · rw [if_neg (by omega), List.getElem?_append_left (by simp; omega),
            List.getElem?_replicate, if_pos (by omega)]
      · rw [List.getElem?_eq_none (by omega), List.getElem?_eq_none (by simp at hj ⊢; omega)]

/-! ### Fields and octets -/

namespace Sx

theorem octet0_fields (w : BitVec 32) (k : Sx) (g : BitVec 4) :
    U32.octet w 0 = k.typOctet g ↔ field w 0 4 = k.typ.toNat ∧ field w 4 4 = g.toNat := by
  rw [octet0_nibbles, typOctet]
  have e0 := nibble_field w (i := 0) (by omega)
  have e1 := nibble_field w (i := 1) (by omega)
  rw [Nat.mul_zero] at e0
  rw [Nat.mul_one] at e1
  constructor
  · intro h
    have h1 := congrArg (BitVec.extractLsb' 4 4) h
    have h2 := congrArg (BitVec.extractLsb' 0 4) h
    rw [append_hi, append_hi] at h1
    rw [append_lo, append_lo] at h2
    rw [← e0, ← e1, h1, h2]
    exact ⟨rfl, rfl⟩
  · rintro ⟨h1, h2⟩
    rw [BitVec.eq_of_toNat_eq (e0.trans h1), BitVec.eq_of_toNat_eq (e1.trans h2)]

theorem octet1_fields (w : BitVec 32) (s t : BitVec 4) :
    U32.octet w 1 = s ++ t ↔ field w 8 4 = s.toNat ∧ field w 12 4 = t.toNat := by
  rw [octet1_nibbles]
  have e0 := nibble_field w (i := 2) (by omega)
  have e1 := nibble_field w (i := 3) (by omega)
  constructor
  · intro h
    have h1 := congrArg (BitVec.extractLsb' 4 4) h
    have h2 := congrArg (BitVec.extractLsb' 0 4) h
    rw [append_hi, append_hi] at h1
    rw [append_lo, append_lo] at h2
    rw [show (8 : Nat) = 4 * 2 from rfl, show (12 : Nat) = 4 * 3 from rfl, ← e0, ← e1, h1, h2]
    exact ⟨rfl, rfl⟩
  · rintro ⟨h1, h2⟩
    rw [BitVec.eq_of_toNat_eq (e0.trans h1), BitVec.eq_of_toNat_eq (e1.trans h2)]

theorem octetAt_head (b : Buf .ump) (i r : Nat) (hr : r < 4) :
    octetAt b (4 * i + r) = (b[i]?).map (U32.octet · r) := by
  unfold octetAt
  rw [show (4 * i + r) / 4 = i by omega, show (4 * i + r) % 4 = r by omega]

theorem octetVal_eq (b : Buf .ump) (a : Nat) : octetVal b a = ((octetAt b a).map BitVec.toNat).getD 0 := by
  unfold octetVal fieldAt octetAt
  rw [Option.map_map]
  congr 2
  funext w
  exact (octet_field w (by omega)).symm

/-- The model's description of a message and the specification's. -/
theorem valid_iff {k : Sx} {g : BitVec 4} {p : Nat} {sz : Nat → Nat} {b : Buf .ump} :
    Valid k g p sz b ↔ k.layout.IsMessage b g.toNat ((List.range p).map sz) := by
  have hb := k.cap_bias
  constructor
  · intro V
    have hw : ∀ j, j < p → ∃ w, b[k.stride * j]? = some w ∧ field w 0 4 = k.typ.toNat ∧
        field w 4 4 = g.toNat ∧ field w 8 4 = (stat p j).toNat ∧
        field w 12 4 = sz j + k.bias := by
      intro j hj
      obtain ⟨w, e1, e2⟩ := octetAt_word (by omega) (V.oct1 j hj)
      obtain ⟨w', f1, f2⟩ := octetAt_word (r := 0) (by omega) (V.oct0 j hj)
      rw [e1] at f1
      cases f1
      have h1 := (octet0_fields w k g).mp f2
      have h2 := (octet1_fields w _ _).mp e2
      have := V.le_cap j hj
      rw [BitVec.toNat_ofNat, Nat.mod_eq_of_lt (by omega)] at h2
      exact ⟨w, e1, h1.1, h1.2, h2.1, h2.2⟩
    refine ⟨?_, ?_, ?_, ?_, ?_, ?_, ?_⟩
    · have := V.pos
      intro h
      have := congrArg List.length h
      simp at this; omega
    · rw [words_eq, List.length_map, List.length_range]; exact V.len
    · intro s hs
      rw [List.mem_map] at hs
      obtain ⟨j, hj, rfl⟩ := hs
      rw [capacity_eq]
      exact V.le_cap j (by simpa using hj)
    · intro j hj
      obtain ⟨w, a, b, c, d, e⟩ := hw j (by simpa using hj)
      rw [words_eq, fieldAt, a, Option.map_some, b, type_eq]
    · intro j hj
      obtain ⟨w, a, b, c, d, e⟩ := hw j (by simpa using hj)
      rw [words_eq, fieldAt, a, Option.map_some, c]
    · intro j hj
      obtain ⟨w, a, b, c, d, e⟩ := hw j (by simpa using hj)
      rw [words_eq, fieldAt, a, Option.map_some, d, stat_toNat, List.length_map, List.length_range]
    · intro j s hs
      rw [List.getElem?_map] at hs
      by_cases hj : j < p
      · obtain ⟨w, a, b, c, d, e⟩ := hw j hj
        rw [List.getElem?_range hj] at hs
        simp only [Option.map_some, Option.some.injEq] at hs
        rw [words_eq, fieldAt, a, Option.map_some, e, extra_eq, hs]
      · rw [List.getElem?_eq_none (by simpa using hj)] at hs; cases hs
  · intro M
    have hlen : ((List.range p).map sz).length = p := by simp
    have hsm : ∀ j, j < p → sz j ≤ k.cap := by
      intro j hj
      rw [← capacity_eq]
      exact M.small _ (List.mem_map.mpr ⟨j, by simpa using hj, rfl⟩)
    have hw : ∀ j, j < p → ∃ w, b[k.stride * j]? = some w ∧ field w 0 4 = k.typ.toNat ∧
        field w 4 4 = g.toNat ∧ field w 8 4 = (stat p j).toNat ∧
        field w 12 4 = sz j + k.bias := by
      intro j hj
      have h1 := M.type j (by rw [hlen]; exact hj)
      have h2 := M.group j (by rw [hlen]; exact hj)
      have h3 := M.status j (by rw [hlen]; exact hj)
      have h4 := M.size j (sz j) (by rw [List.getElem?_map, List.getElem?_range hj]; rfl)
      rw [hlen] at h3
      rw [words_eq, fieldAt] at h1 h2 h3 h4
      cases e : b[k.stride * j]? with
      | none => rw [e] at h1; cases h1
      | some w =>
        rw [e, Option.map_some] at h1 h2 h3 h4
        rw [type_eq] at h1
        rw [extra_eq] at h4
        rw [← stat_toNat] at h3
        exact ⟨w, rfl, Option.some.inj h1, Option.some.inj h2, Option.some.inj h3, Option.some.inj h4⟩
    refine ⟨?_, ?_, hsm, ?_, ?_⟩
    · have := M.nonempty
      cases p with
      | zero => simp at this
      | succ p => omega
    · have := M.whole
      rwa [words_eq, hlen] at this
    · intro j hj
      obtain ⟨w, a, b, c, d, e⟩ := hw j hj
      have := octetAt_head ‹Buf .ump› (k.stride * j) 0 (by omega)
      rw [Nat.add_zero] at this
      rw [this, a, Option.map_some, (octet0_fields w k g).mpr ⟨b, c⟩]
    · intro j hj
      obtain ⟨w, a, b, c, d, e⟩ := hw j hj
      rw [octetAt_head _ _ 1 (by omega), a, Option.map_some]
      rw [(octet1_fields w (stat p j) (BitVec.ofNat 4 (sz j + k.bias))).mpr]
      refine ⟨d, ?_⟩
      have := hsm j hj
      rw [BitVec.toNat_ofNat, Nat.mod_eq_of_lt (by omega), e]

/-- Sizes as a function of the packet number. -/
theorem isMessage_valid {k : Sx} {g : Nat} {sizes : List Nat} {b : Buf .ump}
    (M : k.layout.IsMessage b g sizes) :
    ∃ g' : BitVec 4, g'.toNat = g ∧ Valid k g' sizes.length (fun j => sizes.getD j 0) b := by
  have hne : 0 < sizes.length := by
    have := M.nonempty
    cases sizes with
    | nil => exact absurd rfl this
    | cons => simp
  have hg : g < 16 := by
    have := M.group 0 hne
    unfold fieldAt at this
    cases e : b[k.layout.words * 0]? with
    | none => rw [e] at this; cases this
    | some w =>
      rw [e, Option.map_some] at this
      rw [← Option.some.inj this]
      unfold field
      exact Nat.mod_lt _ (by decide)
  refine ⟨BitVec.ofNat 4 g, by simp; omega, ?_⟩
  rw [valid_iff]
  have : (List.range sizes.length).map (fun j => sizes.getD j 0) = sizes := by
    apply List.ext_getElem
    · simp
    · intro i h1 h2
      simp only [List.getElem_map, List.getElem_range, List.getD_eq_getElem?_getD]
      rw [List.getElem?_eq_getElem h2]; rfl
  rw [this]
  have : (BitVec.ofNat 4 g).toNat = g := by simp; omega
  rw [this]; exact M

/-- Declared bytes. -/
theorem payload_spec {k : Sx} {g : BitVec 4} {sizes : List Nat} {b : Buf .ump}
    (V : Valid k g sizes.length (fun j => sizes.getD j 0) b) :
    V.payload.map BitVec.toNat = k.layout.payload b sizes := by
  unfold Valid.payload restFrom SysexLayout.payload
  rw [Nat.sub_zero, List.map_flatMap, List.flatMap]
  congr 1
  apply List.ext_getElem
  · simp
  · intro j h1 h2
    have hj : j < sizes.length := by simpa using h2
    rw [List.getElem_map, List.getElem_map]
    simp only [List.getElem_range', List.getElem_zipIdx, Nat.zero_add, Nat.one_mul]
    simp only [packetBytes, SysexLayout.packetBytes]
    have hsz : sizes.getD j 0 = sizes[j] := by
      rw [List.getD_eq_getElem?_getD, List.getElem?_eq_getElem hj, Option.getD_some]
    simp only [List.map_map, hsz]
    apply List.map_congr_left
    intro i _
    simp only [Function.comp]
    rw [words_eq, first_eq, values_eq, octetVal_eq, Nat.mul_assoc]
    unfold byteD ofOctet
    rw [BitVec.toNat_setWidth]
    cases octetAt b (4 * (k.stride * j) + k.off + i) <;> rfl

/-! ### Parsing -/

theorem chunk_heads_exact {k : Nat} (hk : 0 < k) (b : List (BitVec 32)) :
    (chunksExact k b).map head0 = (List.range (b.length / k)).map fun i => (b[k * i]?).getD 0 := by
  rw [chunksExact_eq_map hk, List.map_map]
  apply List.map_congr_left
  intro i hi
  have hi : i < b.length / k := by simpa using hi
  have hlt : k * i < b.length := by
    have : (i + 1) * k ≤ b.length := (Nat.le_div_iff_mul_le hk).mp hi
    rw [Nat.mul_comm, Nat.mul_succ] at this
    omega
  simp only [Function.comp]
  rw [head0_drop_take hk (List.getElem?_eq_getElem hlt), List.getElem?_eq_getElem hlt]; rfl

theorem run_eq (k : Sx) (b : Buf .ump) :
    k.layout.run b = ((chunks k.stride b).map head0).takeWhile (fun w => U32.nibble w 0 == k.typ) := by
  unfold SysexLayout.run
  rw [chunks_heads k.stride_pos, words_eq]
  congr 1
  funext w
  rw [beq_toNat, nibble_field w (i := 0) (by omega), type_eq]

theorem run_getElem (k : Sx) (b : Buf .ump) {j : Nat} (hj : j < (k.layout.run b).length) :
    ∃ w, b[k.stride * j]? = some w ∧ (k.layout.run b)[j]? = some w ∧ U32.nibble w 0 = k.typ := by
  have hpre : k.layout.run b <+: packetHeads k.stride b := by
    unfold SysexLayout.run
    rw [words_eq]
    exact List.takeWhile_prefix _
  have hget : (k.layout.run b)[j]? = (packetHeads k.stride b)[j]? := by
    obtain ⟨t, ht⟩ := hpre
    rw [← ht, List.getElem?_append_left hj]
  rw [List.getElem?_eq_getElem hj] at hget ⊢
  unfold packetHeads at hget
  rw [List.getElem?_map] at hget
  have hlt : j < (b.length + k.stride - 1) / k.stride := by
    rcases Nat.lt_or_ge j ((b.length + k.stride - 1) / k.stride) with h | h
    · exact h
    · rw [List.getElem?_eq_none (by simpa using h)] at hget; cases hget
  rw [List.getElem?_range hlt] at hget
  have hb : k.stride * j < b.length := by
    have : (j + 1) * k.stride ≤ b.length + k.stride - 1 := (Nat.le_div_iff_mul_le k.stride_pos).mp hlt
    rw [Nat.mul_comm, Nat.mul_succ] at this
    have := k.stride_pos
    omega
  rw [Option.map_some, List.getElem?_eq_getElem hb] at hget
  refine ⟨b[k.stride * j], List.getElem?_eq_getElem hb, hget, ?_⟩
  have hm : (k.layout.run b)[j] ∈ k.layout.run b := List.getElem_mem hj
  rw [Option.some.inj hget, run_eq] at hm
  have := mem_takeWhile_true _ _ hm
  simpa using this

/-- Packets of this type among the complete ones. -/
theorem typed_exact (k : Sx) (b : Buf .ump) (q : BitVec 32 → Bool) :
    ((chunksExact k.stride b).takeWhile (fun p => U32.nibble (head0 p) 0 == k.typ)).all
        (fun p => q (head0 p)) = true ↔
      ∀ j w, j < (k.layout.run b).length → k.stride * (j + 1) ≤ b.length →
        b[k.stride * j]? = some w → q w = true := by
  have hs := k.stride_pos
  have e : ((chunksExact k.stride b).takeWhile (fun p => U32.nibble (head0 p) 0 == k.typ)).map head0 =
      ((chunksExact k.stride b).map head0).takeWhile (fun w => U32.nibble w 0 == k.typ) := by
    rw [List.takeWhile_map]; rfl
  have hall : ((chunksExact k.stride b).takeWhile (fun p => U32.nibble (head0 p) 0 == k.typ)).all
      (fun p => q (head0 p)) =
      (((chunksExact k.stride b).map head0).takeWhile (fun w => U32.nibble w 0 == k.typ)).all q := by
    rw [← e, List.all_map]; rfl
  rw [hall]
  -- the complete packets are the first ones of all packets
  have hpre : (List.range (b.length / k.stride)).map (fun i => (b[k.stride * i]?).getD 0) =
      (packetHeads k.stride b).take (b.length / k.stride) := by
    unfold packetHeads
    rw [← List.map_take, List.take_range, Nat.min_eq_left]
    exact Nat.div_le_div_right (by omega)
  have htw : ((chunksExact k.stride b).map head0).takeWhile (fun w => U32.nibble w 0 == k.typ) =
      (k.layout.run b).take (b.length / k.stride) := by
    rw [chunk_heads_exact hs, hpre, run_eq, ← chunks_heads hs]
    generalize (chunks k.stride b).map head0 = l
    generalize b.length / k.stride = n
    induction l generalizing n with
    | nil => simp
    | cons x l ih =>
      cases n with
      | zero => simp
      | succ n =>
        rw [List.take_succ_cons, List.takeWhile_cons, List.takeWhile_cons]
        split
        · rw [List.take_succ_cons, ih]
        · rfl
  rw [htw, List.all_eq_true]
  constructor
  · intro h j w hj hl hw
    apply h
    obtain ⟨w', e1, e2, _⟩ := run_getElem k b hj
    rw [hw] at e1
    cases e1
    have : j < b.length / k.stride := by
      apply (Nat.le_div_iff_mul_le hs).mpr
      rw [Nat.mul_comm]; exact hl
    apply List.mem_of_getElem? (i := j)
    rw [List.getElem?_take_of_lt this, e2]
  · intro h w hw
    obtain ⟨j, hj, rfl⟩ := List.getElem_of_mem hw
    rw [List.length_take] at hj
    obtain ⟨w', e1, e2, _⟩ := run_getElem k b (j := j) (by omega)
    rw [List.getElem_take]
    have hl : k.stride * (j + 1) ≤ b.length := by
      rw [Nat.mul_comm]
      exact (Nat.le_div_iff_mul_le hs).mp (by omega)
    rw [List.getElem?_eq_getElem (by omega)] at e2
    rw [Option.some.inj e2]
    exact h j w' (by omega) hl e1

theorem seq_ok {α : Type} {x : Res Unit} {y : Res α} {a : α} :
    (x >>= fun _ => y) = .ok a ↔ x = .ok () ∧ y = .ok a := by
  cases x with
  | ok u => simp
  | err e => simp
  | panic => simp

def streamCheck (k : Sx) (b : Buf .ump) : Res Unit :=
  match k with
  | s7 => .ok ()
  | s8 => validStreamId b

theorem streams_ok (k : Sx) (b : Buf .ump) :
    (match k with
      | s7 => pure b
      | s8 => do
        validStreamId b
        pure b : Res (Buf .ump)) = .ok b ↔
      streamCheck k b = .ok () := by
  cases k with
  | s7 => exact ⟨fun _ => rfl, fun _ => rfl⟩
  | s8 =>
    refine (seq_ok (x := validStreamId b) (y := .ok b) (a := b)).trans ?_
    simp [streamCheck]

/-- The sizes of the packets. -/
theorem validSizes_iff (k : Sx) (b : Buf .ump) :
    k.validSizes b = .ok () ↔ ∀ j, k.layout.words * (j + 1) ≤ b.length →
      ∃ s, fieldAt b (k.layout.words * j) 12 4 = some s ∧ k.layout.extra ≤ s ∧
        s ≤ k.layout.capacity + k.layout.extra := by
  have hs := k.stride_pos
  unfold validSizes
  rw [check_iff, Bool.not_eq_true', List.any_eq_false, words_eq, extra_eq, capacity_eq]
  constructor
  · intro h j hj
    have hlt : k.stride * j < b.length := by rw [Nat.mul_succ] at hj; omega
    have hw : b[k.stride * j]? = some b[k.stride * j] := List.getElem?_eq_getElem hlt
    have := h ((b.drop (k.stride * j)).take k.stride) (by
      rw [chunksExact_eq_map hs, List.mem_map]
      refine ⟨j, ?_, rfl⟩
      rw [List.mem_range]
      apply (Nat.le_div_iff_mul_le hs).mpr
      rw [Nat.mul_comm]; exact hj)
    rw [head0_drop_take hs hw] at this
    have hn := nibble_field b[k.stride * j] (i := 3) (by omega)
    refine ⟨_, fieldAt_ok hlt _ _, ?_⟩
    cases k with
    | s7 =>
      simp only [decide_eq_true_eq] at this
      rw [hn] at this
      simp only [bias, cap]
      exact ⟨by omega, by simpa using this⟩
    | s8 =>
      simp only [Bool.not_eq_true', Bool.not_eq_false, Bool.and_eq_true, decide_eq_true_eq] at this
      rw [hn] at this
      exact this
  · intro h p hp
    rw [chunksExact_eq_map hs, List.mem_map] at hp
    obtain ⟨j, hj, rfl⟩ := hp
    have hj : k.stride * (j + 1) ≤ b.length := by
      rw [Nat.mul_comm]
      exact (Nat.le_div_iff_mul_le hs).mp (Nat.succ_le_of_lt (by simpa using hj))
    have hlt : k.stride * j < b.length := by rw [Nat.mul_succ] at hj; omega
    have hw : b[k.stride * j]? = some b[k.stride * j] := List.getElem?_eq_getElem hlt
    obtain ⟨s, e1, e2, e3⟩ := h j hj
    rw [fieldAt_ok hlt] at e1
    have e1 := Option.some.inj e1
    have hn := nibble_field b[k.stride * j] (i := 3) (by omega)
    rw [head0_drop_take hs hw]
    rw [e1] at hn
    cases k with
    | s7 =>
      simp only [decide_eq_true_eq]
      rw [hn]
      simp only [bias, cap] at e3
      omega
    | s8 =>
      simp only [Bool.not_eq_true', Bool.not_eq_false, Bool.and_eq_true, decide_eq_true_eq]
      rw [hn]
      exact ⟨e2, e3⟩

/-- The stream ids of the packets. -/
theorem streamCheck_iff (k : Sx) {b : Buf .ump} (hb : 0 < b.length) :
    streamCheck k b = .ok () ↔
      (k.layout.extra = 1 → ∀ j, j < (k.layout.run b).length → k.layout.words * (j + 1) ≤ b.length →
        fieldAt b (k.layout.words * j) 16 8 = fieldAt b 0 16 8) := by
  have hh0 : head0 b = b[0] := by
    unfold head0
    cases b with
    | nil => simp at hb
    | cons => rfl
  cases k with
  | s7 => simp [streamCheck, layout, sysex7Layout]
  | s8 =>
    simp only [streamCheck]
    unfold validStreamId
    have ht := typed_exact s8 b (fun w => U32.octet w 2 == U32.octet (head0 b) 2)
    simp only [stride] at ht
    rw [check_iff, ht]
    constructor
    · intro h _ j hj hl'
      have hl' : 4 * (j + 1) ≤ b.length := hl'
      have hlt : 4 * j < b.length := by omega
      have := h j _ hj hl' (List.getElem?_eq_getElem hlt)
      rw [beq_toNat, octet_field _ (i := 2) (by omega), octet_field _ (i := 2) (by omega), hh0,
        decide_eq_true_eq] at this
      show fieldAt b (4 * j) 16 8 = _
      rw [fieldAt_ok hlt, fieldAt_ok hb]
      exact congrArg some this
    · intro h j w hj hl' hw
      have hlt : 4 * j < b.length := by omega
      have := h rfl j hj hl'
      have this : fieldAt b (4 * j) 16 8 = fieldAt b 0 16 8 := this
      rw [fieldAt_ok hlt, fieldAt_ok hb] at this
      rw [List.getElem?_eq_getElem hlt] at hw
      rw [beq_toNat, octet_field _ (i := 2) (by omega), octet_field _ (i := 2) (by omega), hh0,
        decide_eq_true_eq, ← Option.some.inj hw]
      exact Option.some.inj this

/-- The parser accepts exactly the slices of the specification. -/
theorem tryFrom_iff (k : Sx) (b : Buf .ump) : k.tryFrom b = .ok b ↔ k.layout.Accepts b := by
  have hs := k.stride_pos
  unfold tryFrom
  by_cases hl : b.length < k.stride
  · rw [if_pos hl]
    constructor
    · intro h; cases h
    · intro A
      have := A.len
      rw [words_eq] at this
      omega
  · rw [if_neg hl]
    have hb : 0 < b.length := by omega
    rw [at'_lt hb]
    simp only [Res.ok_bind]
    rw [seq_ok, seq_ok, seq_ok, seq_ok, check_iff]
    -- statuses
    have hst : validateStatuses (fun p => U32.nibble (head0 p) 2 == 0x0)
        (fun p => U32.nibble (head0 p) 2 == 0x1) (fun p => U32.nibble (head0 p) 2 == 0x2)
        (fun p => U32.nibble (head0 p) 2 == 0x3) k.stride k.typ b = .ok () ↔
        SeqOk ((k.layout.run b).map fun w => field w 8 4) := by
      have := validateStatuses_eq k.stride k.typ (fun w => U32.nibble w 2 == 0x0)
        (fun w => U32.nibble w 2 == 0x1) (fun w => U32.nibble w 2 == 0x2)
        (fun w => U32.nibble w 2 == 0x3) b
      rw [this, ← run_eq, ← statuses_seq]
      have hn : ∀ (c : BitVec 4), (fun w => U32.nibble w 2 == c) = fun w => decide (field w 8 4 = c.toNat) := by
        intro c; funext w
        rw [beq_toNat, nibble_field w (i := 2) (by omega)]
      rw [hn, hn, hn, hn]
      rfl
    rw [hst]
    rw [validSizes_iff]
    -- groups
    have hh0 : head0 b = b[0] := by
      unfold head0
      cases b with
      | nil => simp at hb
      | cons => rfl
    have hgr : consistentGroups k.stride k.typ b = .ok () ↔
        ∀ j, j < (k.layout.run b).length → k.layout.words * (j + 1) ≤ b.length →
          fieldAt b (k.layout.words * j) 4 4 = fieldAt b 0 4 4 := by
      unfold consistentGroups
      rw [check_iff, typed_exact k b (fun w => U32.nibble w 1 == U32.nibble (head0 b) 1), words_eq]
      constructor
      · intro h j hj hl'
        have hlt : k.stride * j < b.length := by rw [Nat.mul_succ] at hl'; omega
        have := h j _ hj hl' (List.getElem?_eq_getElem hlt)
        rw [beq_toNat, nibble_field _ (i := 1) (by omega), nibble_field _ (i := 1) (by omega), hh0,
          decide_eq_true_eq] at this
        rw [fieldAt_ok hlt, fieldAt_ok hb]
        exact congrArg some this
      · intro h j w hj hl' hw
        have hlt : k.stride * j < b.length := by rw [Nat.mul_succ] at hl'; omega
        have := h j hj hl'
        rw [fieldAt_ok hlt, fieldAt_ok hb] at this
        rw [List.getElem?_eq_getElem hlt] at hw
        rw [beq_toNat, nibble_field _ (i := 1) (by omega), nibble_field _ (i := 1) (by omega), hh0,
          decide_eq_true_eq, ← Option.some.inj hw]
        exact Option.some.inj this
    rw [hgr]
    refine Iff.trans (and_congr Iff.rfl (and_congr Iff.rfl (and_congr Iff.rfl
      (and_congr Iff.rfl ((streams_ok k b).trans (streamCheck_iff k hb)))))) ?_
    constructor
    · rintro ⟨_, h2, h3, h4, h5⟩
      exact ⟨by rw [words_eq]; omega, h2, h3, h4, h5⟩
    · intro A
      refine ⟨?_, A.statuses, A.sizes, A.groups, A.streams⟩
      have := ((seqOk_iff _).mp A.statuses).1
      have hr : 0 < (k.layout.run b).length := by
        cases e : k.layout.run b with
        | nil => rw [e] at this; simp at this
        | cons => simp
      obtain ⟨w, e1, _, e3⟩ := run_getElem k b hr
      rw [Nat.mul_zero, List.getElem?_eq_getElem hb] at e1
      rw [Option.some.inj e1, e3]
      simp

/-- An accepted slice whose last packet is complete holds a message. -/
theorem accepts_isMessage {k : Sx} {b : Buf .ump} (A : k.layout.Accepts b)
    (h : k.layout.Untruncated b) :
    ∃ g sizes, k.layout.IsMessage b g sizes ∧ sizes.length = (k.layout.run b).length := by
  have hs := k.stride_pos
  unfold SysexLayout.Untruncated at h
  rw [words_eq] at h
  obtain ⟨hne, hseq⟩ := (seqOk_iff _).mp A.statuses
  have hpos : 0 < (k.layout.run b).length := by
    cases e : k.layout.run b with
    | nil => rw [e] at hne; simp at hne
    | cons => simp
  have hfit : ∀ j, j < (k.layout.run b).length → k.stride * (j + 1) ≤ b.length := by
    intro j hj
    exact Nat.le_trans (Nat.mul_le_mul_left _ hj) h
  have hb : 0 < b.length := by
    have := hfit 0 hpos
    omega
  refine ⟨field b[0] 4 4,
    (List.range (k.layout.run b).length).map fun j => (fieldAt b (k.stride * j) 12 4).getD 0 - k.bias, ?_, by simp⟩
  have hl : ((List.range (k.layout.run b).length).map
      fun j => (fieldAt b (k.stride * j) 12 4).getD 0 - k.bias).length = (k.layout.run b).length := by simp
  refine ⟨?_, ?_, ?_, ?_, ?_, ?_, ?_⟩
  · intro e
    have := congrArg List.length e
    rw [hl] at this
    simp at this; rw [this] at hpos; simp at hpos
  · rw [hl, words_eq]; exact h
  · intro s hs'
    rw [List.mem_map] at hs'
    obtain ⟨j, hj, rfl⟩ := hs'
    obtain ⟨s, e1, e2, e3⟩ := A.sizes j (by rw [words_eq]; exact hfit j (by simpa using hj))
    rw [words_eq] at e1
    rw [e1, capacity_eq]
    rw [capacity_eq, extra_eq] at e3
    simp only [Option.getD_some]
    omega
  · intro j hj
    rw [hl] at hj
    obtain ⟨w, e1, _, e3⟩ := run_getElem k b hj
    rw [words_eq, fieldAt, e1, Option.map_some, type_eq]
    have := nibble_field w (i := 0) (by omega)
    rw [Nat.mul_zero] at this
    rw [← this, e3]
  · intro j hj
    rw [hl] at hj
    rw [A.groups j hj (by rw [words_eq]; exact hfit j hj), fieldAt_ok hb]
  · intro j hj
    rw [hl] at hj ⊢
    obtain ⟨w, e1, e2, _⟩ := run_getElem k b hj
    have := hseq j (field w 8 4) (by rw [List.getElem?_map, e2]; rfl)
    rw [List.length_map] at this
    rw [words_eq, fieldAt, e1, Option.map_some, this]
  · intro j s hs'
    rw [List.getElem?_map] at hs'
    have hj : j < (k.layout.run b).length := by
      rcases Nat.lt_or_ge j (k.layout.run b).length with h' | h'
      · exact h'
      · rw [List.getElem?_eq_none (by simpa using h')] at hs'; cases hs'
    rw [List.getElem?_range hj] at hs'
    simp only [Option.map_some, Option.some.injEq] at hs'
    obtain ⟨x, e1, e2, e3⟩ := A.sizes j (by rw [words_eq]; exact hfit j hj)
    rw [words_eq] at e1 ⊢
    rw [extra_eq] at e2 ⊢
    rw [e1] at hs' ⊢
    simp only [Option.getD_some] at hs'
    congr 1
    omega

theorem takeWhile_self {α : Type} (q : α → Bool) :
    ∀ l : List α, (∀ x ∈ l, q x = true) → l.takeWhile q = l
  | [], _ => rfl
  | x :: l, h => by
    rw [List.takeWhile_cons, if_pos (h x (by simp)), takeWhile_self q l fun y hy => h y (by simp [hy])]

/-- The packets of a buffer which is nothing but one message. -/
theorem Valid.run_eq {k : Sx} {g : BitVec 4} {p : Nat} {sz : Nat → Nat} {b : Buf .ump}
    (V : Valid k g p sz b) (hl : b.length = k.stride * p) :
    k.layout.run b = (List.range p).map fun i => (b[k.stride * i]?).getD 0 := by
  have hs := k.stride_pos
  have hheads : packetHeads k.stride b = (List.range p).map fun i => (b[k.stride * i]?).getD 0 := by
    unfold packetHeads
    congr 2
    rw [hl, show k.stride * p + k.stride - 1 = k.stride * p + (k.stride - 1) by omega,
      Nat.mul_add_div hs, Nat.div_eq_of_lt (by omega)]
    omega
  unfold SysexLayout.run
  rw [words_eq, hheads]
  rw [takeWhile_self]
  intro w hw
  rw [List.mem_map] at hw
  obtain ⟨j, hj, rfl⟩ := hw
  obtain ⟨w, e1, e2, _⟩ := V.word (show j < p by simpa using hj)
  rw [e1, Option.getD_some, type_eq, ← e2, nibble_field w (i := 0) (by omega)]
  simp

/-- A buffer which is nothing but one message is accepted; in sysex8 the stream ids must
agree. -/
theorem Valid.accepts {k : Sx} {g : BitVec 4} {p : Nat} {sz : Nat → Nat} {b : Buf .ump}
    (V : Valid k g p sz b) (hl : b.length = k.stride * p)
    (hz : k = s8 → ∀ j, j < p → fieldAt b (k.stride * j) 16 8 = fieldAt b 0 16 8) :
    k.layout.Accepts b := by
  have hs := k.stride_pos
  have hrun := V.run_eq hl
  have hlen : (k.layout.run b).length = p := by rw [hrun]; simp
  have M := valid_iff.mp V
  have hML : ((List.range p).map sz).length = p := by simp
  refine ⟨?_, ?_, ?_, ?_, ?_⟩
  · rw [words_eq, hl]
    have := V.pos
    exact Nat.le_mul_of_pos_right _ this
  · rw [seqOk_iff]
    refine ⟨?_, ?_⟩
    · intro e
      have := congrArg List.length e
      rw [List.length_map, hlen] at this
      have hp := V.pos
      rw [List.length_nil] at this
      omega
    · intro j x hx
      rw [List.length_map, hlen]
      have hj : j < p := by
        rcases Nat.lt_or_ge j p with h | h
        · exact h
        · rw [List.getElem?_eq_none (by rw [List.length_map, hlen]; exact h)] at hx; cases hx
      have hst := M.status j (by rw [hML]; exact hj)
      rw [hML, words_eq] at hst
      rw [List.getElem?_map, hrun, List.getElem?_map, List.getElem?_range hj] at hx
      obtain ⟨w, e1, _⟩ := V.word hj
      rw [fieldAt, e1] at hst
      simp only [Option.map_some, e1, Option.getD_some, Option.some.injEq] at hx hst
      rw [← hx, hst]
  · intro j hj
    rw [words_eq, hl] at hj
    have hj : j < p := Nat.lt_of_mul_lt_mul_left (a := k.stride) (by rw [Nat.mul_succ] at hj; omega)
    have := M.size j (sz j) (by rw [List.getElem?_map, List.getElem?_range hj]; rfl)
    refine ⟨_, this, by omega, ?_⟩
    have := V.le_cap j hj
    rw [capacity_eq]; omega
  · intro j hj _
    rw [hlen] at hj
    rw [M.group j (by rw [hML]; exact hj)]
    have := M.group 0 (by rw [hML]; exact V.pos)
    rw [Nat.mul_zero] at this
    exact this.symm
  · intro he j hj _
    have hk : k = s8 := by cases k <;> simp [layout, sysex7Layout] at he ⊢
    rw [hlen] at hj
    rw [words_eq]
    exact hz hk j hj

/-- The header of a group of four words. -/
theorem group_head {k : Sx} {b : Buf .ump} {i : Nat} (hl : 4 * i + 4 ≤ b.length) :
    ∃ o0 o1 : BitVec 8, octetAt b (16 * i) = some o0 ∧ octetAt b (16 * i + 1) = some o1 ∧
      (o0.extractLsb' 4 4 = k.typ ↔ fieldAt b (4 * i) 0 4 = some k.layout.type) ∧
      (o1.extractLsb' 4 4 = 0x1 ∨ o1.extractLsb' 4 4 = 0x2 ↔
        fieldAt b (4 * i) 8 4 = some 1 ∨ fieldAt b (4 * i) 8 4 = some 2) ∧
      (o1.extractLsb' 0 4 = k.fullNibble ↔
        fieldAt b (4 * i) 12 4 = some (k.layout.capacity + k.layout.extra)) := by
  have hb := k.cap_bias
  have hlt : 4 * i < b.length := by omega
  have hw : b[4 * i]? = some b[4 * i] := List.getElem?_eq_getElem hlt
  have h1 := octetAt_head b (4 * i) 0 (by omega)
  have h2 := octetAt_head b (4 * i) 1 (by omega)
  rw [hw, show 4 * (4 * i) + 0 = 16 * i by omega] at h1
  rw [hw, show 4 * (4 * i) + 1 = 16 * i + 1 by omega] at h2
  have hfull : k.fullNibble.toNat = k.cap + k.bias := by
    unfold fullNibble
    rw [BitVec.toNat_ofNat, Nat.mod_eq_of_lt (by omega)]
  have f0 := (U32.nibble_octet_hi b[4 * i] 0 (by omega)).symm
  have f1 := (U32.nibble_octet_hi b[4 * i] 1 (by omega)).symm
  have f2 := (U32.nibble_octet_lo b[4 * i] 1 (by omega)).symm
  have n0 := nibble_field b[4 * i] (i := 0) (by omega)
  have n2 := nibble_field b[4 * i] (i := 2) (by omega)
  have n3 := nibble_field b[4 * i] (i := 3) (by omega)
  have val : ∀ x y : BitVec 4, x = y ↔ some x.toNat = some y.toNat := fun x y =>
    ⟨fun h => by rw [h], fun h => BitVec.eq_of_toNat_eq (Option.some.inj h)⟩
  refine ⟨_, _, h1, h2, ?_, ?_, ?_⟩
  · rw [f0, val, n0, fieldAt_ok hlt, type_eq]
  · rw [f1, val, val, n2, fieldAt_ok hlt]; rfl
  · rw [f2, val, n3, hfull, fieldAt_ok hlt, capacity_eq, extra_eq]

/-- Tidiness. -/
theorem tidyFrom_iff {k : Sx} {q : Nat} {b : Buf .ump} : TidyFrom k q b ↔ k.layout.Tidy q b := by
  constructor
  · rintro t i hq hl ⟨h0, h1, h2⟩
    obtain ⟨o0, o1, e0, e1, t0, t1, t2⟩ := group_head (k := k) hl
    exact h2 (t2.mp (t i o0 o1 hq hl e0 e1 (t0.mpr h0) (t1.mpr h1)))
  · intro t i o0 o1 hq hl h0 h1 ht hs
    obtain ⟨o0', o1', e0, e1, t0, t1, t2⟩ := group_head (k := k) hl
    rw [e0] at h0
    rw [e1] at h1
    cases h0
    cases h1
    refine t2.mpr (Classical.byContradiction fun hn => t i hq hl ⟨t0.mp ht, t1.mp hs, hn⟩)

theorem runTidyFrom_iff {k : Sx} {q : Nat} {b : Buf .ump} :
    RunTidyFrom k q b ↔ k.layout.TidyRun q b := by
  constructor
  · rintro t i hq hl hr ⟨h0, h1, h2⟩
    obtain ⟨o0, o1, e0, e1, t0, t1, t2⟩ := group_head (k := k) hl
    refine h2 (t2.mp (t i o1 hq hl (fun i' hi' => ?_) e1 (t1.mpr h1)))
    obtain ⟨o0', o1', e0', -, t0', -⟩ := group_head (k := k) (b := b) (i := i') (by omega)
    exact ⟨o0', e0', t0'.mpr (hr i' hi')⟩
  · intro t i o1 hq hl hr h1 hs
    obtain ⟨o0', o1', e0, e1, t0, t1, t2⟩ := group_head (k := k) hl
    rw [e1] at h1
    cases h1
    have hr' : ∀ i', i' ≤ i → fieldAt b (4 * i') 0 4 = some k.layout.type := by
      intro i' hi'
      obtain ⟨u0, u1, e0', -, t0', -⟩ := group_head (k := k) (b := b) (i := i') (by omega)
      obtain ⟨o, ho, hto⟩ := hr i' hi'
      rw [e0'] at ho
      cases ho
      exact t0'.mp hto
    exact t2.mpr (Classical.byContradiction fun hn =>
      t i hq hl hr' ⟨hr' i (Nat.le_refl _), t1.mp hs, hn⟩)

end Sx

end Midi2
