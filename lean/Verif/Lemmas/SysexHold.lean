import Verif.Lemmas.SysexOps
import Verif.Spec.SysexOps

/-! From the representation invariants to what a user observes. -/

namespace Midi2

namespace Sx

section
variable {k : Sx} {g : BitVec 4} {b : Buf .ump} {l : List k.Byte}

theorem Packed.payload_valid {p : Nat} (P : Packed k g p b l) : P.valid.payload = l := by
  unfold Valid.payload
  rw [P.restFrom_eq _ 0 rfl (by omega)]; simp

theorem Packed.payloadList_ok {p : Nat} (P : Packed k g p b l) : k.payloadList b = .ok l := by
  rw [P.frame.payloadList_eq]
  have := P.payload_valid
  unfold Valid.payload at this
  rw [this]

theorem payload_take (k : Sx) {b : Buf .ump} {sizes : List Nat} {g : Nat}
    (M : k.layout.IsMessage b g sizes) (l : List k.Byte)
    (h : k.payloadList b = .ok l) : k.layout.payload b sizes = l.map BitVec.toNat := by
  obtain ⟨g', hg, V⟩ := isMessage_valid M
  rw [← payload_spec V]
  rw [V.frame.payloadList_eq] at h
  unfold Valid.payload
  injection h with h
  rw [h]

/-- A packed buffer shows its content. -/
theorem Packed.holds (P : Packed k g (k.count l.length) b l) : k.Holds b g l := by
  refine ⟨P.payloadList_ok, P.payloadSize_eq, P.group_ok, b.take (k.stride * k.count l.length), P.data_eq, ?_, ?_, ?_⟩
  · rw [List.length_take, Nat.min_eq_left P.len, words_eq, length_fill]
  · exact P.take.isMessage
  · exact payload_take k P.take.isMessage l P.take.payloadList_ok

theorem Strict.holds {dbg : Bool} {I : Buf .ump → Prop} {N : Option Nat}
    (S : Strict k dbg I g N b l) : k.Holds b g l := S.packed.holds

/-- On a resizable buffer the message is the buffer. -/
theorem Strict.data_self {dbg : Bool} {I : Buf .ump → Prop} (S : Strict k dbg I g none b l) :
    k.data b = .ok b := by
  rw [S.packed.data_eq, ← S.exact rfl, List.take_length]

theorem Strict.accepted {dbg : Bool} {N : Option Nat}
    (S : Strict k dbg (ZeroId k) g N b l) :
    ∃ d, k.data b = .ok d ∧ k.tryFrom d = .ok d :=
  ⟨_, S.packed.data_eq, S.packed.accepted S.whole.inv⟩

end

/-- The group read from a buffer. -/
theorem group_word {b : Buf .ump} {g : BitVec 4} (h : Sx.group b = .ok g) :
    ∃ w, b[0]? = some w ∧ U32.nibble w 1 = g := by
  unfold Sx.group at' at h
  cases e : b[0]? with
  | none => rw [e] at h; cases h
  | some w =>
    rw [e] at h
    refine ⟨w, rfl, ?_⟩
    simp only [Res.ok_bind, Res.pure_eq] at h
    injection h

theorem group_total {b : Buf .ump} (h : b ≠ []) : ∃ g, Sx.group b = .ok g := by
  cases b with
  | nil => exact absurd rfl h
  | cons w b => exact ⟨U32.nibble w 1, rfl⟩

theorem payload_length {k : Sx} {g : BitVec 4} {sizes : List Nat} {b : Buf .ump}
    (V : Valid k g sizes.length (fun j => sizes.getD j 0) b) : V.payload.length = sizes.sum := by
  unfold Valid.payload
  rw [length_restFrom, Nat.sub_zero, ← List.range_eq_range']
  congr 1
  apply List.ext_getElem
  · simp
  · intro i h1 h2
    simp [List.getD, List.getElem?_eq_getElem h2]

theorem compactable {k : Sx} {sizes : List Nat} (h : k.layout.Compactable sizes) :
    (∀ j, j + 1 < sizes.length → sizes.getD j 0 = k.cap) ∨
      (∃ j, j + 1 < sizes.length ∧ k.checked j ∧ sizes.getD j 0 ≠ k.cap) := by
  rcases h with h1 | ⟨j, s, h2, h3, h4, h5⟩
  · left
    intro j hj
    simp only [List.getD, h1 j hj, Option.getD_some, capacity_eq]
  · right
    refine ⟨j, h2, ?_, ?_⟩
    · cases k
      · show j % 2 = 0
        rw [words_eq] at h3
        simp only [stride] at h3
        omega
      · trivial
    · simp only [List.getD, h4, Option.getD_some]
      rw [capacity_eq] at h5
      exact h5

theorem behind_iff {k : Sx} {N : Option Nat} {n : Nat} {b : Buf .ump} :
    SteadyFrom k N (k.stride * k.count n) b ↔ k.layout.Behind N.isSome n b := by
  unfold SysexLayout.Behind
  rw [words_eq, length_fill]
  cases N with
  | none => exact runTidyFrom_iff
  | some => exact tidyFrom_iff

/-- A message that can be spliced. -/
theorem Spliceable.start {k : Sx} {dbg : Bool} {I : Buf .ump → Prop} {N : Option Nat} (hI : Inv k I N.isSome)
    {b : Buf .ump} {g : BitVec 4} {sizes : List Nat} (M : k.layout.IsMessage b g.toNat sizes)
    (hs : k.layout.Spliceable dbg N.isSome b sizes) (hi : I b) (hN : ∀ n, N = some n → b.length = n)
    {l : List k.Byte} (hl : k.payloadList b = .ok l) :
    ∃ b0, k.compact b = .ok b0 ∧ Loose k dbg I g N b0 l := by
  obtain ⟨g', hg, V⟩ := isMessage_valid M
  have hg : g' = g := BitVec.eq_of_toNat_eq hg
  subst hg
  have hv : V.payload = l := by
    rw [V.frame.payloadList_eq] at hl
    injection hl
  rw [← hv]
  refine V.start hI hi hN (compactable hs.compactable) fun e => ?_
  rw [payload_length V]
  exact behind_iff.mpr (hs.behind e)

/-- A buffer filled by one message whose packets are full but the last. -/
theorem tidy_exact {k : Sx} {b : Buf .ump} {g : Nat} {sizes : List Nat}
    (M : k.layout.IsMessage b g sizes) (hl : b.length = k.layout.words * sizes.length)
    (hf : ∀ j, j + 1 < sizes.length → sizes[j]? = some k.layout.capacity) (q : Nat) :
    k.layout.Tidy q b := by
  rintro i - hi ⟨-, hst, hsz⟩
  have hs := k.stride_pos
  have e4 := k.four_stride i
  have hj : 4 * i = k.stride * (4 / k.stride * i) := by
    cases k <;> simp only [stride] <;> omega
  rw [words_eq] at hl
  have hlt : 4 / k.stride * i < sizes.length := by
    rcases Nat.lt_or_ge (4 / k.stride * i) sizes.length with h | h
    · exact h
    · have := Nat.mul_le_mul_left k.stride h
      omega
  have h1 := M.status _ hlt
  rw [words_eq, ← hj] at h1
  have hnl : 4 / k.stride * i + 1 < sizes.length := by
    rcases Nat.lt_or_ge (4 / k.stride * i + 1) sizes.length with h | h
    · exact h
    · rw [h1] at hst
      unfold statusCode at hst
      have hp : 4 / k.stride * i + 1 = sizes.length := by omega
      split at hst
      · simp at hst
      · split at hst
        · omega
        · simp [hp] at hst
  have := M.size _ _ (hf _ hnl)
  rw [words_eq, ← hj] at this
  exact hsz this

theorem tidyRun_of_tidy {L : SysexLayout} {q : Nat} {b : List (BitVec 32)} (h : L.Tidy q b) :
    L.TidyRun q b := fun i h1 h2 _ => h i h1 h2

theorem behind_of_tidy {L : SysexLayout} {fixed : Bool} {n : Nat} {b : List (BitVec 32)}
    (h : ∀ q, L.Tidy q b) : L.Behind fixed n b := by
  cases fixed
  · exact tidyRun_of_tidy (h _)
  · exact h _

/-! ### Fresh messages -/

theorem modifyHead0_getElem? {f : BitVec 32 → BitVec 32} (b : List (BitVec 32)) (i : Nat) :
    (modifyHead0 f b)[i]? = if i = 0 then (b[i]?).map f else b[i]? := by
  cases b with
  | nil => cases i <;> simp [modifyHead0]
  | cons w b => cases i <;> simp [modifyHead0]

/-- First word of a fresh message. -/
def freshWord : Sx → BitVec 32
  | s7 => 0x30000000
  | s8 => 0x50010000

theorem onTyped_zero (k : Sx) {b : Buf .ump} {w : BitVec 32} (f : BitVec 32 → BitVec 32)
    (hb : k.stride ≤ b.length) (h0 : b[0]? = some w) (hw : U32.nibble w 0 = k.typ) :
    (k.onTyped b f)[0]? = some (f w) ∧ (k.onTyped b f).length = b.length := by
  have hs := k.stride_pos
  rw [onTyped_eq]
  refine ⟨?_, onHeads_length hs _ _ b⟩
  rw [onHeads_getElem? hs, if_pos, h0]; rfl
  refine ⟨by simp, ?_⟩
  have := le_leading hs (fun w => U32.nibble w 0 == k.typ) b 1 (by omega) (fun j hj => by
    have : j = 0 := by omega
    subst this
    exact ⟨w, by simpa using h0, by simp [hw]⟩)
  rw [Nat.zero_div]
  omega

theorem onTyped_alone (k : Sx) {b : Buf .ump} {w : BitVec 32} (f : BitVec 32 → BitVec 32)
    (hb : k.stride ≤ b.length) (h0 : b[0]? = some w) (hw : U32.nibble w 0 = k.typ)
    (hz : ∀ i, 0 < i → i < b.length → b[i]? = some 0) :
    ∀ i, 0 < i → (k.onTyped b f)[i]? = b[i]? := by
  intro i hi
  rw [onTyped_eq, onHeads_one k.stride_pos _ _ b hb, modifyHead0_getElem?, if_neg (by omega)]
  · cases b with
    | nil => simp at h0
    | cons x b => simp at h0; subst h0; simp [head0, hw]
  · intro h2
    have hs := k.stride_pos
    refine ⟨0, hz _ hs (by omega), ?_⟩
    cases k <;> decide

/-- What the generated initialisation makes of a buffer whose first packet is zero. -/
theorem init_eq (k : Sx) {b : Buf .ump} (hb : k.stride ≤ b.length) (h0 : b[0]? = some 0) :
    ∃ b', k.init b = .ok b' ∧ b'.length = b.length ∧ b'[0]? = some k.freshWord ∧
      ((∀ i, i < b.length → b[i]? = some 0) → ∀ i, 0 < i → i < b.length → b'[i]? = some 0) := by
  have hs := k.stride_pos
  have h1 : b = 0 :: b.tail := by
    cases b with
    | nil => simp at h0
    | cons x b => simp at h0; subst h0; rfl
  obtain ⟨b1, e1, e2, e3, e4⟩ : ∃ b1, modifyAt b 0 (fun w => U32.setNibble w 0 k.typ) = .ok b1 ∧
      b1.length = b.length ∧ b1[0]? = some (U32.setNibble 0 0 k.typ) ∧ ∀ i, 0 < i → b1[i]? = b[i]? := by
    refine ⟨U32.setNibble 0 0 k.typ :: b.tail, by rw [h1]; rfl, ?_, rfl, ?_⟩
    · rw [h1]; rfl
    · intro i hi
      rw [h1]
      cases i with
      | zero => omega
      | succ i => rfl
  unfold init
  rw [e1]
  simp only [Res.ok_bind, Res.pure_eq]
  cases k with
  | s7 =>
    have z := onTyped_zero s7 (fun w => U32.setNibble w 1 0) (by omega) e3 (by decide)
    refine ⟨_, rfl, by show (s7.onTyped b1 _).length = _; omega, z.1, ?_⟩
    intro hz i hi hlt
    have a := onTyped_alone s7 (fun w => U32.setNibble w 1 0) (by omega) e3 (by decide)
      (fun i h h' => by rw [e4 i h]; exact hz i (by omega)) i hi
    rw [← hz i hlt, ← e4 i hi]; exact a
  | s8 =>
    have z1 := onTyped_zero s8 (fun w => U32.setNibble w 3 (if U32.nibble w 3 < 1 then 1 else U32.nibble w 3))
      (by omega) e3 (by decide)
    have z2 := onTyped_zero s8 (fun w => U32.setNibble w 1 0) (by omega) z1.1 (by decide)
    have z3 := onTyped_zero s8 (fun w => U32.setOctet w 3 0) (by omega) z2.1 (by decide)
    refine ⟨_, rfl, by show (s8.onTyped (s8.onTyped (s8.onTyped b1 _) _) _).length = _; omega, z3.1, ?_⟩
    intro hz i hi hlt
    have a1 := onTyped_alone s8 (fun w => U32.setNibble w 3 (if U32.nibble w 3 < 1 then 1 else U32.nibble w 3))
      (by omega) e3 (by decide) (fun i h h' => by rw [e4 i h]; exact hz i (by omega))
    have a2 := onTyped_alone s8 (fun w => U32.setNibble w 1 0) (by omega) z1.1 (by decide)
      (fun i h h' => by rw [a1 i h, e4 i h]; exact hz i (by omega))
    have a3 := onTyped_alone s8 (fun w => U32.setOctet w 3 0) (by omega) z2.1 (by decide)
      (fun i h h' => by rw [a2 i h, a1 i h, e4 i h]; exact hz i (by omega)) i hi
    rw [← hz i hlt, ← e4 i hi, ← a1 i hi, ← a2 i hi]; exact a3

theorem fresh_packed (k : Sx) {b : Buf .ump} (hb : k.stride ≤ b.length) (h0 : b[0]? = some k.freshWord) :
    Packed k 0 (k.count ([] : List k.Byte).length) b [] := by
  have hc : k.count ([] : List k.Byte).length = 1 := rfl
  rw [hc]
  refine ⟨by omega, by omega, by simp, by simp, ?_, ?_, by simp⟩
  · intro j hj
    have : j = 0 := by omega
    subst this
    have := octetAt_head b 0 0 (by omega)
    rw [h0] at this
    rw [show 4 * (k.stride * 0) = 4 * 0 + 0 by omega, this]
    cases k <;> decide
  · intro j hj
    have : j = 0 := by omega
    subst this
    have := octetAt_head b 0 1 (by omega)
    rw [h0] at this
    rw [show 4 * (k.stride * 0) + 1 = 4 * 0 + 1 by omega, this]
    cases k <;> decide

theorem fresh_octet (k : Sx) {b : Buf .ump} (h0 : b[0]? = some k.freshWord)
    (hz : ∀ i, 0 < i → i < b.length → b[i]? = some 0) (a : Nat) (ha : a < 4 * b.length) :
    octetAt b a = some (if a < 4 then U32.octet k.freshWord a else 0) := by
  unfold octetAt
  by_cases h : a < 4
  · rw [if_pos h, show a / 4 = 0 by omega, h0, show a % 4 = a by omega]; rfl
  · rw [if_neg h, hz _ (by omega) (by omega)]
    have key : ∀ r, r < 4 → U32.octet 0 r = 0 := by decide
    rw [Option.map_some, key _ (by omega)]

theorem fresh_zeroId (k : Sx) {b : Buf .ump} (h0 : b[0]? = some k.freshWord)
    (hz : ∀ i, 0 < i → i < b.length → b[i]? = some 0) : ZeroId k b := by
  have hlt : ∀ {a o}, octetAt b a = some o → a < 4 * b.length := by
    intro a o ho
    have : (octetAt b a).isSome := by simp [ho]
    rwa [octetAt_isSome] at this
  refine ⟨?_, ?_⟩
  · intro hk j o ho
    subst hk
    rw [fresh_octet s8 h0 hz _ (hlt ho)] at ho
    injection ho with ho
    rw [← ho]
    split
    · next h =>
      have : j = 0 := by omega
      subst this
      decide
    · rfl
  · intro hk a o ho
    subst hk
    rw [fresh_octet s7 h0 hz _ (hlt ho)] at ho
    injection ho with ho
    rw [← ho]
    split
    · next h =>
      have key : ∀ a, a < 4 → (U32.octet s7.freshWord a).toNat < 128 := by decide
      exact key a h
    · decide

theorem fresh_tidy (k : Sx) {b : Buf .ump} (h0 : b[0]? = some k.freshWord)
    (hz : ∀ i, 0 < i → i < b.length → b[i]? = some 0) : Tidy k b := by
  intro i o0 o1 hl ho0 ho1 ht hst
  rw [fresh_octet k h0 hz _ (by omega)] at ho0 ho1
  injection ho0 with ho0
  injection ho1 with ho1
  exfalso
  by_cases hi : i = 0
  · subst hi
    rw [← ho1] at hst
    revert hst
    cases k <;> decide
  · rw [if_neg (by omega)] at ho0
    rw [← ho0] at ht
    revert ht
    cases k <;> decide

theorem count_nil (k : Sx) : k.count ([] : List k.Byte).length = 1 := rfl

theorem not_two_count_nil (k : Sx) : ¬ 2 ≤ k.count ([] : List k.Byte).length := by rw [count_nil]; omega

/-- `new()` over a growable buffer. -/
theorem newVec_strict (k : Sx) (dbg : Bool) :
    ∃ b, k.newVec = .ok b ∧ Strict k dbg (ZeroId k) 0 none b [] := by
  have hs := k.stride_pos
  have hv : ∀ i, i < k.stride → (vecResize ([] : Buf .ump) k.stride)[i]? = some 0 := by
    intro i hi
    cases k <;> simp only [stride] at * <;> revert i <;> decide
  have hl := length_vecResize [] k.stride
  obtain ⟨b, e1, e2, e3, e4⟩ := k.init_eq (Nat.le_of_eq hl.symm) (hv 0 hs)
  have hz := e4 (fun i hi => hv i (by rw [hl] at hi; exact hi))
  rw [← e2] at hz
  refine ⟨b, e1, ⟨k.fresh_packed (by omega) e3, ⟨fun _ => (k.fresh_tidy e3 hz).steady _, k.fresh_zeroId e3 hz, fun _ h => by cases h⟩, ?_, ?_⟩⟩
  · intro h; exact absurd h (not_two_count_nil k)
  · intro _; rw [e2, hl, count_nil, Nat.mul_one]

/-- `new()` over an array. -/
theorem newArray_strict (k : Sx) (dbg : Bool) {n : Nat} (hn : k.stride ≤ n) :
    ∃ b, k.newArray n = .ok b ∧ k.tryNew n = .ok b ∧ Strict k dbg (ZeroId k) 0 (some n) b [] := by
  have hs := k.stride_pos
  have hv : ∀ i, i < n → (List.replicate n (0 : BitVec 32))[i]? = some 0 := by
    intro i hi
    rw [List.getElem?_replicate, if_pos hi]
  have hl : (List.replicate n (0 : BitVec 32)).length = n := List.length_replicate
  obtain ⟨b, e1, e2, e3, e4⟩ := k.init_eq (b := List.replicate n 0) (by omega) (hv 0 (by omega))
  have hz := e4 (fun i hi => hv i (by rw [hl] at hi; exact hi))
  rw [← e2] at hz
  refine ⟨b, ?_, ?_, ⟨k.fresh_packed (by omega) e3, ⟨fun _ => (k.fresh_tidy e3 hz).steady _, k.fresh_zeroId e3 hz, fun x h => ?_⟩, ?_, ?_⟩⟩
  · unfold newArray
    rw [if_neg (by omega), e1]
  · unfold tryNew fixedTryResize
    rw [if_neg (by rw [hl]; omega)]
    exact e1
  · rw [e2, hl]; exact Option.some.inj h
  · intro h; exact absurd h (not_two_count_nil k)
  · intro h; cases h

/-- `try_new_with_buffer` over a buffer with arbitrary contents. -/
theorem tryNewWithBuffer_strict (k : Sx) {b : Buf .ump} (hn : k.stride ≤ b.length) :
    ∃ b', k.tryNewWithBuffer b = .ok b' ∧ Strict k false (fun _ => True) 0 (some b.length) b' [] := by
  have hs := k.stride_pos
  have hl : (zeroPrefix b k.stride).length = b.length := by
    unfold zeroPrefix
    simp only [List.length_append, List.length_replicate, List.length_drop]
    omega
  have h0 : (zeroPrefix b k.stride)[0]? = some 0 := by
    unfold zeroPrefix
    rw [List.getElem?_append_left (by simpa using hs), List.getElem?_replicate, if_pos hs]
  obtain ⟨b', e1, e2, e3, _⟩ := k.init_eq (by omega) h0
  refine ⟨b', ?_, ⟨k.fresh_packed (by omega) e3, ⟨fun h => (by cases h), trivial, fun x h => ?_⟩, ?_, ?_⟩⟩
  · unfold tryNewWithBuffer fixedTryResize
    rw [if_neg (by omega)]
    exact e1
  · rw [e2, hl]; exact Option.some.inj h
  · intro h; exact absurd h (not_two_count_nil k)
  · intro h; cases h

/-! ### `set_group` keeps acceptance -/

theorem packetHeads_getElem? (s : Nat) (b : List (BitVec 32)) (hs : 0 < s) (j : Nat) :
    (packetHeads s b)[j]? = b[s * j]? := by
  unfold packetHeads
  rw [List.getElem?_map]
  by_cases h : j < (b.length + s - 1) / s
  · rw [List.getElem?_range h, Option.map_some]
    have : (j + 1) * s ≤ b.length + s - 1 := (Nat.le_div_iff_mul_le hs).mp h
    rw [Nat.mul_comm, Nat.mul_succ] at this
    rw [List.getElem?_eq_getElem (show s * j < b.length by omega)]; rfl
  · rw [List.getElem?_eq_none (by simpa using h)]
    rw [List.getElem?_eq_none]; rfl
    have := (Nat.div_lt_iff_lt_mul hs).mp (Nat.lt_succ_of_le (Nat.le_of_not_lt h))
    rw [Nat.succ_mul, Nat.mul_comm] at this
    omega

theorem map_takeWhile_congr {α β : Type} (q : α → Bool) (f : α → β) :
    ∀ l l' : List α, l.length = l'.length →
      (∀ (j : Nat) x y, l[j]? = some x → l'[j]? = some y → q x = q y ∧ f x = f y) →
      (l.takeWhile q).map f = (l'.takeWhile q).map f
  | [], [], _, _ => rfl
  | [], _ :: _, h, _ => by simp at h
  | _ :: _, [], h, _ => by simp at h
  | x :: l, y :: l', h, H => by
    have h0 := H 0 x y rfl rfl
    rw [List.takeWhile_cons, List.takeWhile_cons, h0.1]
    have ih := map_takeWhile_congr q f l l' (by simpa using h) (fun j a c ha hc => H (j + 1) a c ha hc)
    split
    · rw [List.map_cons, List.map_cons, h0.2, ih]
    · rfl

/-- Fields of the words after `set_group`. -/
theorem setGroup_word (k : Sx) (b : Buf .ump) (g : BitVec 4) (i : Nat) :
    (k.setGroup b g)[i]? =
      if i % k.stride = 0 ∧ i / k.stride < k.lead b then (b[i]?).map (U32.setNibble · 1 g) else b[i]? := by
  unfold setGroup
  rw [onTyped_eq, onHeads_getElem? k.stride_pos]; rfl

theorem field_setGroup (w : BitVec 32) (g : BitVec 4) :
    field (U32.setNibble w 1 g) 0 4 = field w 0 4 ∧ field (U32.setNibble w 1 g) 4 4 = g.toNat ∧
    field (U32.setNibble w 1 g) 8 4 = field w 8 4 ∧ field (U32.setNibble w 1 g) 12 4 = field w 12 4 ∧
    field (U32.setNibble w 1 g) 16 8 = field w 16 8 := by
  have n0 := nibble_field (U32.setNibble w 1 g) (i := 0) (by omega)
  have n1 := nibble_field (U32.setNibble w 1 g) (i := 1) (by omega)
  have n2 := nibble_field (U32.setNibble w 1 g) (i := 2) (by omega)
  have n3 := nibble_field (U32.setNibble w 1 g) (i := 3) (by omega)
  have m0 := nibble_field w (i := 0) (by omega)
  have m2 := nibble_field w (i := 2) (by omega)
  have m3 := nibble_field w (i := 3) (by omega)
  have o2 := octet_field (U32.setNibble w 1 g) (i := 2) (by omega)
  have p2 := octet_field w (i := 2) (by omega)
  rw [U32.nibble_setNibble _ _ _ (by omega) (by omega)] at n0 n1 n2 n3
  rw [octet_setNibble1 _ _ _ (by omega), if_neg (by omega)] at o2
  simp only [Nat.mul_zero, Nat.mul_one] at *
  refine ⟨?_, ?_, ?_, ?_, ?_⟩
  · rw [← n0, ← m0]; rfl
  · rw [← n1]; rfl
  · rw [← n2, ← m2]; rfl
  · rw [← n3, ← m3]; rfl
  · rw [← o2, ← p2]

theorem fieldAt_setGroup (k : Sx) (b : Buf .ump) (g : BitVec 4) (i o n : Nat)
    (h : (o, n) = (0, 4) ∨ (o, n) = (8, 4) ∨ (o, n) = (12, 4) ∨ (o, n) = (16, 8)) :
    fieldAt (k.setGroup b g) i o n = fieldAt b i o n := by
  unfold fieldAt
  rw [setGroup_word]
  split
  · cases b[i]? with
    | none => rfl
    | some w =>
      obtain ⟨h1, h2, h3, h4, h5⟩ := field_setGroup w g
      simp only [Option.map_some]
      rcases h with h | h | h | h <;> cases h
      · rw [h1]
      · rw [h3]
      · rw [h4]
      · rw [h5]
  · rfl

theorem run_setGroup (k : Sx) (b : Buf .ump) (g : BitVec 4) :
    (k.layout.run (k.setGroup b g)).map (fun w => field w 8 4) =
      (k.layout.run b).map fun w => field w 8 4 := by
  have hs := k.stride_pos
  unfold SysexLayout.run
  rw [words_eq]
  apply map_takeWhile_congr
  · unfold packetHeads
    simp only [List.length_map, List.length_range]
    rw [setGroup_length]
  · intro j x y hx hy
    rw [packetHeads_getElem? _ _ hs] at hx hy
    rw [setGroup_word, hy] at hx
    obtain ⟨h1, h2, h3, h4, h5⟩ := field_setGroup y g
    split at hx
    · simp only [Option.map_some, Option.some.injEq] at hx
      subst hx
      rw [h1, h3]
      exact ⟨rfl, rfl⟩
    · cases hx; exact ⟨rfl, rfl⟩

theorem length_run_setGroup (k : Sx) (b : Buf .ump) (g : BitVec 4) :
    (k.layout.run (k.setGroup b g)).length = (k.layout.run b).length := by
  have := congrArg List.length (run_setGroup k b g)
  simpa using this

/-- Whole packets of the run are reached. -/
theorem run_lt_lead (k : Sx) (b : Buf .ump) {j : Nat} (h1 : j < (k.layout.run b).length)
    (h2 : k.stride * (j + 1) ≤ b.length) : j < k.lead b := by
  have := le_leading k.stride_pos (fun w => U32.nibble w 0 == k.typ) b (j + 1) h2 (by
    intro i hi
    obtain ⟨w, e1, _, e3⟩ := run_getElem k b (j := i) (by omega)
    exact ⟨w, e1, by simp [e3]⟩)
  exact this

theorem accepts_setGroup (k : Sx) {b : Buf .ump} (A : k.layout.Accepts b) (g : BitVec 4) :
    k.layout.Accepts (k.setGroup b g) := by
  have hs := k.stride_pos
  have hlen := A.len
  have hrun := length_run_setGroup k b g
  refine ⟨by rw [setGroup_length]; exact A.len, by rw [run_setGroup]; exact A.statuses, ?_, ?_, ?_⟩
  · intro j hj
    rw [setGroup_length] at hj
    rw [fieldAt_setGroup k b g _ _ _ (by simp)]
    exact A.sizes j hj
  · have key : ∀ j, j < (k.layout.run b).length → k.layout.words * (j + 1) ≤ b.length →
        fieldAt (k.setGroup b g) (k.layout.words * j) 4 4 = some g.toNat := by
      intro j h1 h2
      rw [words_eq] at h2 ⊢
      have hl := run_lt_lead k b h1 h2
      unfold fieldAt
      rw [setGroup_word, if_pos ⟨by simp, by rw [Nat.mul_div_cancel_left _ hs]; exact hl⟩]
      obtain ⟨w, e1, _⟩ := run_getElem k b h1
      rw [e1]
      simp only [Option.map_some]
      rw [(field_setGroup w g).2.1]
    intro j h1 h2
    rw [hrun] at h1
    rw [setGroup_length] at h2
    have k0 := key 0 (by omega) (by rw [words_eq] at *; omega)
    rw [Nat.mul_zero] at k0
    rw [key j h1 h2, k0]
  · intro he j h1 h2
    rw [hrun] at h1
    rw [setGroup_length] at h2
    rw [fieldAt_setGroup k b g _ _ _ (by simp), fieldAt_setGroup k b g _ _ _ (by simp)]
    exact A.streams he j h1 h2

end Sx

end Midi2
