import Verif.Lemmas.Text

/-!
# Packets of text: octets, sizes and framing

Shared by the flex data and the stream text messages.
-/

namespace Midi2

/-! ### Sizes -/

theorem textPackets_pos {cap n : Nat} (hc : 0 < cap) : 0 < textPackets cap n := by
  unfold textPackets
  split
  · omega
  · apply Nat.div_pos (by omega) hc

theorem le_textPackets {cap n : Nat} (hc : 0 < cap) : n ≤ cap * textPackets cap n := by
  unfold textPackets
  split
  · omega
  · have := Nat.div_add_mod (n + cap - 1) cap
    have := Nat.mod_lt (n + cap - 1) hc
    omega

/-! ### The text bytes -/

theorem filter_slots (l : List (BitVec 8)) (N : Nat) :
    ((List.range N).map fun i => (l[i]?).getD 0).filter (· ≠ 0) = (l.take N).filter (· ≠ 0) := by
  induction l generalizing N with
  | nil => simp
  | cons x l ih =>
    cases N with
    | zero => rfl
    | succ N =>
      rw [List.range_succ_eq_map, List.map_cons, List.map_map, List.take_succ_cons, List.filter_cons,
        List.filter_cons, ← ih N]
      rfl

/-! ### The octets on the wire -/

theorem textWire_get {header : Nat → List Nat} {h : Nat} (hh : ∀ j, (header j).length = h)
    (h16 : h < 16) (text : List Nat) (a : Nat) :
    (textWire header (16 - h) text)[a]? =
      if a / 16 < textPackets (16 - h) text.length then
        (if a % 16 < h then (header (a / 16))[a % 16]? else some ((text[slotIndex h a]?).getD 0))
      else none := by
  unfold textWire
  rw [List.flatMap_def, flatten_getElem? (k := 16) (by omega)]
  · rw [List.getElem?_map]
    by_cases hj : a / 16 < textPackets (16 - h) text.length
    · rw [if_pos hj, List.getElem?_range hj, Option.map_some, Option.bind_some]
      simp only
      by_cases hr : a % 16 < h
      · rw [if_pos hr, List.append_assoc, List.getElem?_append_left (by rw [hh]; exact hr)]
      · rw [if_neg hr, List.append_assoc, List.getElem?_append_right (by rw [hh]; omega), hh]
        have hx : slotIndex h a = (16 - h) * (a / 16) + (a % 16 - h) := rfl
        by_cases ht : slotIndex h a < text.length
        · rw [List.getElem?_append_left (by rw [List.length_take, List.length_drop]; omega),
            List.getElem?_take_of_lt (by omega), List.getElem?_drop, ← hx,
            List.getElem?_eq_getElem ht]
          rfl
        · rw [List.getElem?_append_right (by rw [List.length_take, List.length_drop]; omega),
            List.getElem?_replicate, if_pos, List.getElem?_eq_none (by omega)]
          · rfl
          · rw [List.length_take, List.length_drop]; omega
    · rw [if_neg hj, List.getElem?_eq_none (by rw [List.length_range]; omega)]
      rfl
  · intro p hp
    obtain ⟨j, hj, rfl⟩ := List.mem_map.mp hp
    simp only [List.length_append, hh, List.length_take, List.length_drop, List.length_replicate]
    omega

theorem octets_eq_of {d : Buf .ump} {L : List Nat}
    (h : ∀ a, (octetAt d a).map BitVec.toNat = L[a]?) : octets d = L := by
  apply List.ext_getElem?
  intro a
  rw [Sx.octets_getElem?, h]

/-! ### Framing -/

theorem findIdx_heads {b : Buf .ump} {q : BitVec 32 → Bool} {n : Nat} (hn : 0 < n)
    (hl : 4 * n ≤ b.length) (h1 : ∀ j, j + 1 < n → ∃ w, b[4 * j]? = some w ∧ q w = false)
    (h2 : ∃ w, b[4 * (n - 1)]? = some w ∧ q w = true) :
    (chunksExact 4 b).findIdx? (fun p => q (head0 p)) = some (n - 1) := by
  have hd : ∀ j, j < n → ∀ w, b[4 * j]? = some w → head0 ((b.drop (4 * j)).take 4) = w := by
    intro j hj w hw
    unfold head0
    rw [List.headD_eq_head?_getD, List.head?_eq_getElem?, List.getElem?_take_of_lt (by omega),
      List.getElem?_drop, Nat.add_zero, hw]
    rfl
  rw [List.findIdx?_eq_some_iff_getElem]
  have hlen := chunksExact_length (k := 4) (by omega) b
  have hget : ∀ j (hj : j < (chunksExact 4 b).length), 4 * (j + 1) ≤ b.length →
      (chunksExact 4 b)[j] = (b.drop (4 * j)).take 4 := by
    intro j hj hb
    have := chunksExact_getElem? (k := 4) (by omega) b j
    rw [if_pos hb, List.getElem?_eq_getElem hj] at this
    exact Option.some.inj this
  refine ⟨by omega, ?_, ?_⟩
  · obtain ⟨w, a1, a2⟩ := h2
    rw [hget _ _ (by omega), hd _ (by omega) w a1]
    exact a2
  · intro j hj
    obtain ⟨w, a1, a2⟩ := h1 j (by omega)
    rw [hget _ _ (by omega), hd _ (by omega) w a1, a2]
    exact Bool.false_ne_true

/-! ### Packets of one type at the start of a slice -/

/-- The leading packets with the type nibble `ty`. -/
def typedRun (k : Nat) (ty : BitVec 4) (b : Buf .ump) : List (BitVec 32) :=
  (packetHeads k b).takeWhile fun w => decide (field w 0 4 = ty.toNat)

theorem type_test (w : BitVec 32) (ty : BitVec 4) :
    (U32.nibble w 0 == ty) = decide (field w 0 4 = ty.toNat) := by
  rw [beq_toNat, nibble_field w (i := 0) (by omega), Nat.mul_zero]

theorem typedRun_get {k : Nat} (hk : 0 < k) {ty : BitVec 4} {b : Buf .ump} {j : Nat}
    (hj : j < (typedRun k ty b).length) :
    ∃ w, b[k * j]? = some w ∧ (typedRun k ty b)[j]? = some w ∧ field w 0 4 = ty.toNat := by
  have hpre : typedRun k ty b <+: packetHeads k b := List.takeWhile_prefix _
  have hget : (typedRun k ty b)[j]? = (packetHeads k b)[j]? := by
    obtain ⟨t, ht⟩ := hpre
    rw [← ht, List.getElem?_append_left hj]
  rw [List.getElem?_eq_getElem hj] at hget ⊢
  rw [Sx.packetHeads_getElem? _ _ hk] at hget
  refine ⟨_, hget.symm, rfl, ?_⟩
  have hm : (typedRun k ty b)[j] ∈ typedRun k ty b := List.getElem_mem hj
  have := Sx.mem_takeWhile_true _ _ hm
  simpa using this

theorem typed_all {k : Nat} (hk : 0 < k) (ty : BitVec 4) (b : Buf .ump) (q : BitVec 32 → Bool) :
    ((chunksExact k b).takeWhile (fun p => U32.nibble (head0 p) 0 == ty)).all
        (fun p => q (head0 p)) = true ↔
      ∀ j w, j < (typedRun k ty b).length → k * (j + 1) ≤ b.length →
        b[k * j]? = some w → q w = true := by
  have hall : ((chunksExact k b).takeWhile (fun p => U32.nibble (head0 p) 0 == ty)).all
      (fun p => q (head0 p)) =
      (((chunksExact k b).map head0).takeWhile (fun w => U32.nibble w 0 == ty)).all q := by
    rw [List.takeWhile_map, List.all_map]; rfl
  rw [hall]
  have hpre : (List.range (b.length / k)).map (fun i => (b[k * i]?).getD 0) =
      (packetHeads k b).take (b.length / k) := by
    unfold packetHeads
    rw [← List.map_take, List.take_range, Nat.min_eq_left]
    exact Nat.div_le_div_right (by omega)
  have htw : ((chunksExact k b).map head0).takeWhile (fun w => U32.nibble w 0 == ty) =
      (typedRun k ty b).take (b.length / k) := by
    unfold typedRun
    rw [Sx.chunk_heads_exact hk, hpre]
    have hq : (fun w => U32.nibble w 0 == ty) = fun w => decide (field w 0 4 = ty.toNat) := by
      funext w; exact type_test w ty
    rw [hq]
    generalize packetHeads k b = l
    generalize b.length / k = n
    induction l generalizing n with
    | nil => simp
    | cons x l ih =>
      cases n with
      | zero => simp
      | succ n =>
        rw [List.take_succ_cons, List.takeWhile_cons, List.takeWhile_cons]
        split
        · rw [List.take_succ_cons, ih]
        · rfl
  rw [htw, List.all_eq_true]
  constructor
  · intro h j w hj hl hw
    apply h
    obtain ⟨w', e1, e2, _⟩ := typedRun_get hk hj
    rw [hw] at e1
    cases e1
    have : j < b.length / k := by
      apply (Nat.le_div_iff_mul_le hk).mpr
      rw [Nat.mul_comm]; exact hl
    apply List.mem_of_getElem? (i := j)
    rw [List.getElem?_take_of_lt this, e2]
  · intro h w hw
    obtain ⟨j, hj, rfl⟩ := List.getElem_of_mem hw
    rw [List.length_take] at hj
    obtain ⟨w', e1, e2, _⟩ := typedRun_get hk (ty := ty) (b := b) (j := j) (by omega)
    rw [List.getElem_take]
    have hl : k * (j + 1) ≤ b.length := by
      rw [Nat.mul_comm]
      exact (Nat.le_div_iff_mul_le hk).mp (by omega)
    rw [List.getElem?_eq_getElem (by omega)] at e2
    rw [Option.some.inj e2]
    exact h j w' (by omega) hl e1

theorem head0_eq {b : Buf .ump} (hb : 0 < b.length) : head0 b = b[0] := by
  unfold head0
  cases b with
  | nil => simp at hb
  | cons => rfl

theorem groups_iff {k : Nat} (hk : 0 < k) (ty : BitVec 4) {b : Buf .ump} (hb : 0 < b.length) :
    consistentGroups k ty b = .ok () ↔
      ∀ j, j < (typedRun k ty b).length → k * (j + 1) ≤ b.length →
        fieldAt b (k * j) 4 4 = fieldAt b 0 4 4 := by
  have hh0 := head0_eq hb
  unfold consistentGroups
  rw [check_iff, typed_all hk ty b (fun w => U32.nibble w 1 == U32.nibble (head0 b) 1)]
  constructor
  · intro h j hj hl'
    have hlt : k * j < b.length := by rw [Nat.mul_succ] at hl'; omega
    have := h j _ hj hl' (List.getElem?_eq_getElem hlt)
    rw [beq_toNat, nibble_field _ (i := 1) (by omega), nibble_field _ (i := 1) (by omega), hh0,
      decide_eq_true_eq] at this
    rw [fieldAt_ok hlt, fieldAt_ok hb]
    exact congrArg some this
  · intro h j w hj hl' hw
    have hlt : k * j < b.length := by rw [Nat.mul_succ] at hl'; omega
    have := h j hj hl'
    rw [fieldAt_ok hlt, fieldAt_ok hb] at this
    rw [List.getElem?_eq_getElem hlt] at hw
    rw [beq_toNat, nibble_field _ (i := 1) (by omega), nibble_field _ (i := 1) (by omega), hh0,
      decide_eq_true_eq, ← Option.some.inj hw]
    exact Option.some.inj this

/-- Formats in crumb `c` of the header. -/
theorem formats_iff {k : Nat} (hk : 0 < k) (ty : BitVec 4) (c : Nat) (hc : c < 16) (b : Buf .ump) :
    validateStatuses (fun p => U32.crumb (head0 p) c == 0#2) (fun p => U32.crumb (head0 p) c == 1#2)
      (fun p => U32.crumb (head0 p) c == 2#2) (fun p => U32.crumb (head0 p) c == 3#2) k ty b = .ok () ↔
      SeqOk ((typedRun k ty b).map fun w => field w (2 * c) 2) := by
  have := validateStatuses_eq k ty (fun w => U32.crumb w c == 0#2)
    (fun w => U32.crumb w c == 1#2) (fun w => U32.crumb w c == 2#2)
    (fun w => U32.crumb w c == 3#2) b
  rw [this, chunks_heads hk, ← statuses_seq]
  have hn : ∀ (x : BitVec 2), (fun w => U32.crumb w c == x) =
      fun w => decide (field w (2 * c) 2 = x.toNat) := by
    intro x; funext w
    rw [beq_toNat, crumb_field w hc]
  have hq : (fun w => U32.nibble w 0 == ty) = fun w => decide (field w 0 4 = ty.toNat) := by
    funext w; exact type_test w ty
  rw [hn, hn, hn, hn, hq]
  rfl

theorem formats_no_panic (k : Nat) (ty : BitVec 4) (q1 q2 q3 q4 : BitVec 32 → Bool) (b : Buf .ump) :
    validateStatuses (fun p => q1 (head0 p)) (fun p => q2 (head0 p)) (fun p => q3 (head0 p))
      (fun p => q4 (head0 p)) k ty b ≠ .panic := by
  rw [validateStatuses_eq]
  exact statusesW_no_panic _ _ _ _ _

theorem typedRun_pos {k : Nat} {ty : BitVec 4} {b : Buf .ump} {c : Nat}
    (h : SeqOk ((typedRun k ty b).map fun w => field w c 2)) : 0 < (typedRun k ty b).length := by
  have := ((seqOk_iff _).mp h).1
  cases e : typedRun k ty b with
  | nil => rw [e] at this; simp at this
  | cons => simp

/-- A slice that is all packets of the type. -/
theorem typedRun_full {k : Nat} (hk : 0 < k) {ty : BitVec 4} {b : Buf .ump} {n : Nat}
    (hl : b.length = k * n)
    (h : ∀ j, j < n → ∃ w, b[k * j]? = some w ∧ field w 0 4 = ty.toNat) :
    typedRun k ty b = (List.range n).map fun i => (b[k * i]?).getD 0 := by
  have hheads : packetHeads k b = (List.range n).map fun i => (b[k * i]?).getD 0 := by
    unfold packetHeads
    congr 2
    rw [hl, show k * n + k - 1 = k * n + (k - 1) by omega,
      Nat.mul_add_div hk, Nat.div_eq_of_lt (by omega)]
    omega
  unfold typedRun
  rw [hheads, Sx.takeWhile_self]
  intro w hw
  rw [List.mem_map] at hw
  obtain ⟨j, hj, rfl⟩ := hw
  obtain ⟨w, e1, e2⟩ := h j (by simpa using hj)
  rw [e1, Option.getD_some, e2]
  simp

end Midi2
