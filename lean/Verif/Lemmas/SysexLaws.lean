import Verif.Lemmas.SysexResize

/-! The laws the splice needs hold for system exclusive messages over UMP buffers. -/

namespace Midi2

namespace Sx

/-- All unused payload octets of the last of several packets are zero. -/
def ZeroPad (k : Sx) (b : Buf .ump) (n : Nat) : Prop :=
  2 ≤ k.count n → ∀ i, n ≤ i → i < k.cap * k.count n → octetAt b (k.addr i) = some 0

/-- What the debug assertions rely on: on resizable buffers that the check succeeds now, on
those of fixed size that it will when the message has grown. -/
def Steady (k : Sx) : Option Nat → Buf .ump → Prop
  | none, b => k.isCompact b = true
  | some _, b => Tidy k b

/-- The same of what is behind the first `q` words. -/
def SteadyFrom (k : Sx) : Option Nat → Nat → Buf .ump → Prop
  | none, q, b => RunTidyFrom k q b
  | some _, q, b => TidyFrom k q b

theorem Steady.isCompact {k : Sx} {N : Option Nat} {b : Buf .ump} (h : Steady k N b) :
    k.isCompact b = true := by
  cases N with
  | none => exact h
  | some => exact isCompact_of_tidy h

theorem Tidy.steady {k : Sx} {b : Buf .ump} (h : Tidy k b) (N : Option Nat) : Steady k N b := by
  cases N with
  | none => exact isCompact_of_tidy h
  | some => exact h

theorem SameHeads.steady {k : Sx} {N : Option Nat} {b b' : Buf .ump} (h : SameHeads k b b')
    (t : Steady k N b) : Steady k N b' := by
  cases N with
  | none => exact h.isCompact t
  | some => exact h.tidy t

/-- Properties of the whole buffer, beyond the packets of the message. -/
structure Whole (k : Sx) (dbg : Bool) (I : Buf .ump → Prop) (N : Option Nat) (b : Buf .ump) : Prop where
  steady : dbg = true → Steady k N b
  inv : I b
  fixed : ∀ n, N = some n → b.length = n

/-- Representation while splicing. -/
def Loose (k : Sx) (dbg : Bool) (I : Buf .ump → Prop) (g : BitVec 4) (N : Option Nat) (b : Buf .ump)
    (l : List k.Byte) : Prop :=
  (∃ p, Packed k g p b l) ∧ Whole k dbg I N b

/-- Representation after an operation. -/
structure Strict (k : Sx) (dbg : Bool) (I : Buf .ump → Prop) (g : BitVec 4) (N : Option Nat) (b : Buf .ump)
    (l : List k.Byte) : Prop where
  packed : Packed k g (k.count l.length) b l
  whole : Whole k dbg I N b
  pad : ZeroPad k b l.length
  exact : N = none → b.length = k.stride * k.count l.length

/-- Payload capacity. -/
def limit (k : Sx) (N : Option Nat) : Option Nat := N.map fun n => n / k.stride * k.cap

/-- The kind of buffer that belongs to `N`. -/
def memOf : Option Nat → Mem
  | none => .vec
  | some _ => .fixed

theorem Resized.tidy {k : Sx} {g : BitVec 4} {p n : Nat} {b b' : Buf .ump}
    (r : Resized k g p n b b') (h : TidyFrom k (k.stride * p) b) : Tidy k b' := by
  intro i o0 o1 hl h0 h1 ht hs
  have e4 := k.four_stride i
  by_cases hi : 4 / k.stride * i < p
  · have a := r.oct1 _ hi
    rw [← e4, h1] at a
    have a := Option.some.inj a
    subst a
    unfold sizeOctet at *
    rw [append_hi] at hs
    rw [append_lo]
    unfold stat at hs
    unfold fillSize fullNibble
    split at hs
    · exact absurd hs (by decide)
    · split at hs
      · next hp hj => rw [if_neg (by omega)]
      · split at hs
        · exact absurd hs (by decide)
        · next hj => rw [if_neg hj]
  · have hle : k.stride * p ≤ k.stride * (4 / k.stride * i) := Nat.mul_le_mul_left _ (by omega)
    rw [r.beyond _ (by omega)] at h0 h1
    exact h i o0 o1 (by cases k <;> simp only [stride] at * <;> omega) (by rw [← r.len]; exact hl)
      h0 h1 ht hs

/-- Packets of a packed message which begin or continue it are full. -/
theorem Packed.full_head {k : Sx} {g : BitVec 4} {p : Nat} {b : Buf .ump} {l : List k.Byte}
    (P : Packed k g p b l) {j : Nat} (hj : j < p) {o1 : BitVec 8}
    (h1 : octetAt b (4 * (k.stride * j) + 1) = some o1)
    (hs : o1.extractLsb' 4 4 = 0x1 ∨ o1.extractLsb' 4 4 = 0x2) : o1.extractLsb' 0 4 = k.fullNibble := by
  have a := P.oct1 j hj
  rw [h1] at a
  have a := Option.some.inj a
  subst a
  unfold sizeOctet at *
  rw [append_hi] at hs
  rw [append_lo]
  unfold stat at hs
  unfold fillSize fullNibble
  split at hs
  · exact absurd hs (by decide)
  · split at hs
    · next hp hj => rw [if_neg (by omega)]
    · split at hs
      · exact absurd hs (by decide)
      · next hj => rw [if_neg hj]

/-- A buffer which holds a packed message, with nothing to object to behind it. -/
theorem Packed.tidy {k : Sx} {g : BitVec 4} {p : Nat} {b : Buf .ump} {l : List k.Byte}
    (P : Packed k g p b l) (h : TidyFrom k (k.stride * p) b) : Tidy k b := by
  intro i o0 o1 hl h0 h1 ht hs
  by_cases hi : 4 / k.stride * i < p
  · exact P.full_head hi (by rw [← k.four_stride i]; exact h1) hs
  · refine h i o0 o1 ?_ hl h0 h1 ht hs
    have := Nat.mul_le_mul_left k.stride (show p ≤ 4 / k.stride * i by omega)
    cases k <;> simp only [stride] at * <;> omega

theorem Tidy.from {k : Sx} {b : Buf .ump} (h : Tidy k b) (q : Nat) : TidyFrom k q b :=
  fun i o0 o1 _ => h i o0 o1

/-- Nothing but the last packet is left. -/
theorem tidyFrom_end {k : Sx} {b : Buf .ump} {q : Nat} (h : b.length < q + 4) : TidyFrom k q b :=
  fun _ _ _ h1 h2 => by omega

theorem tidyFrom_whole {k : Sx} (b : Buf .ump) :
    TidyFrom k (k.stride * (b.length / k.stride)) b := by
  apply tidyFrom_end
  have := Nat.div_add_mod b.length k.stride
  have := Nat.mod_lt b.length k.stride_pos
  cases k <;> simp only [stride] at * <;> omega

theorem Resized.septets {k : Sx} {g : BitVec 4} {p n : Nat} {b b' : Buf .ump}
    (r : Resized k g p n b b') (h : Septets k b) : Septets k b' := by
  intro hk a o ho
  subst hk
  by_cases ha : 4 * (s7.stride * p) ≤ a
  · rw [r.beyond a ha] at ho
    exact h rfl a o ho
  · have hs : s7.stride = 2 := rfl
    have hj : a / 8 < p := by rw [hs] at ha; omega
    have ea : a = 4 * (s7.stride * (a / 8)) + a % 8 := by rw [hs]; omega
    rw [ea] at ho
    by_cases h0 : a % 8 = 0
    · rw [h0, Nat.add_zero, r.oct0 _ hj] at ho
      cases ho
      unfold typOctet
      simp only [typ]
      have key : ∀ g : BitVec 4, ((3 : BitVec 4) ++ g : BitVec 8).toNat < 128 := by decide
      exact key g
    · by_cases h1 : a % 8 = 1
      · rw [h1, r.oct1 _ hj] at ho
        cases ho
        unfold sizeOctet stat
        have key : ∀ x : BitVec 4, ((0 : BitVec 4) ++ x : BitVec 8).toNat < 128 ∧
            ((1 : BitVec 4) ++ x : BitVec 8).toNat < 128 ∧ ((2 : BitVec 4) ++ x : BitVec 8).toNat < 128 ∧
            ((3 : BitVec 4) ++ x : BitVec 8).toNat < 128 := by decide
        have := key (BitVec.ofNat 4 (s7.fillSize p n (a / 8) + s7.bias))
        split
        · exact this.1
        · split
          · exact this.2.1
          · split
            · exact this.2.2.2
            · exact this.2.2.1
      · rw [r.rest _ _ hj (by omega) (by simp only [stride]; omega)] at ho
        split at ho
        · cases ho; decide
        · exact h rfl _ o ho

theorem Resized.zeroId {k : Sx} {g : BitVec 4} {p n : Nat} {b b' : Buf .ump}
    (r : Resized k g p n b b') (h : ZeroId k b) : ZeroId k b' := by
  refine ⟨?_, r.septets h.2⟩
  intro hk j o ho
  subst hk
  by_cases hj : j < p
  · have := r.rest j 2 hj (by omega) (by decide)
    simp only [stride] at this
    rw [if_neg (by intro c; have := c.2.2.2.1; simp only [off] at this; omega), show 4 * (4 * j) + 2 = 16 * j + 2 by omega, ho] at this
    exact h.1 rfl j o this.symm
  · have := r.beyond (16 * j + 2) (by simp only [stride]; omega)
    rw [ho] at this
    exact h.1 rfl j o this.symm

theorem octetAt_vecResize_lt (b : Buf .ump) (n a : Nat) (h1 : a < 4 * b.length) (h2 : a < 4 * n) :
    octetAt (vecResize b n) a = octetAt b a := by
  unfold octetAt vecResize
  rw [List.getElem?_append_left (by simp; omega), List.getElem?_take_of_lt (by omega)]

theorem length_vecResize (b : Buf .ump) (n : Nat) : (vecResize b n).length = n := by
  simp [vecResize]; omega

theorem zeroId_vecResize {k : Sx} {b : Buf .ump} (h : ZeroId k b) (n : Nat) :
    ZeroId k (vecResize b n) := by
  refine ⟨?_, ?_⟩
  · intro hk j o ho
    have hn : 16 * j + 2 < 4 * n := by
      have : (octetAt (vecResize b n) (16 * j + 2)).isSome := by simp [ho]
      rwa [octetAt_isSome, length_vecResize] at this
    by_cases hb : 16 * j + 2 < 4 * b.length
    · rw [octetAt_vecResize_lt _ _ _ hb hn] at ho
      exact h.1 hk j o ho
    · unfold octetAt vecResize at ho
      rw [List.getElem?_append_right (by simp; omega), List.getElem?_replicate] at ho
      split at ho
      · have e : (16 * j + 2) % 4 = 2 := by omega
        rw [e] at ho
        simp only [Option.map_some, Option.some.injEq] at ho
        rw [← ho]; decide
      · simp at ho
  · intro hk a o ho
    have hn : a < 4 * n := by
      have : (octetAt (vecResize b n) a).isSome := by simp [ho]
      rwa [octetAt_isSome, length_vecResize] at this
    by_cases hb : a < 4 * b.length
    · rw [octetAt_vecResize_lt _ _ _ hb hn] at ho
      exact h.2 hk a o ho
    · unfold octetAt vecResize at ho
      rw [List.getElem?_append_right (by simp; omega), List.getElem?_replicate] at ho
      split at ho
      · simp only [Option.map_some, Option.some.injEq] at ho
        have key : ∀ r, r < 4 → (U32.octet 0 r).toNat < 128 := by decide
        rw [← ho]
        exact key _ (Nat.mod_lt _ (by decide))
      · simp at ho

/-- The bytes of a message after a resize. -/
theorem Resized.packed {k : Sx} {g : BitVec 4} {n : Nat} {b b' : Buf .ump}
    (r : Resized k g (k.count n) n b b') (hl : k.stride * k.count n ≤ b.length) :
    ∃ l' : List k.Byte, l'.length = n ∧ Packed k g (k.count n) b' l' ∧
      (∀ i, i < n → octetAt b' (k.addr i) = octetAt b (k.addr i)) ∧ ZeroPad k b' n := by
  have hlt : ∀ i, i < n → k.addr i < 4 * (k.stride * k.count n) := fun i hi =>
    k.addr_lt_iff.mpr (by have := k.le_count n; omega)
  have hq : ∀ i, i < k.cap * k.count n → i / k.cap < k.count n := fun i hi => by
    rw [Nat.div_lt_iff_lt_mul k.cap_pos, Nat.mul_comm]; exact hi
  have hmul : ∀ i, i = k.cap * (i / k.cap) + i % k.cap := fun i => (Nat.div_add_mod i k.cap).symm
  have hlast : 2 ≤ k.count n → n % k.cap ≠ 0 → n = k.cap * (k.count n - 1) + n % k.cap := by
    intro h2 hz
    have := k.fillSize_last h2
    rw [if_neg hz] at this
    unfold fillSize at this
    rw [if_pos (by omega)] at this
    have := k.count_le n
    omega
  have hread : ∀ i, i < k.cap * k.count n → octetAt b' (k.addr i) =
      if k.Padding (k.count n) n (i / k.cap) (k.off + i % k.cap) then some 0
      else octetAt b (k.addr i) := by
    intro i hi
    have hc := k.cap_off
    have := k.two_le_off
    have hm := Nat.mod_lt i k.cap_pos
    have := r.rest (i / k.cap) (k.off + i % k.cap) (hq i hi) (by omega) (by omega)
    rw [addr_eq, Nat.add_assoc]
    exact this
  refine ⟨(List.range n).map fun i => k.byteD b' (k.addr i), by simp, ?_, ?_, ?_⟩
  · refine ⟨k.count_pos n, by rw [r.len]; exact hl, by simp [k.count_le n], by simp [k.le_count n],
      r.oct0, ?_, ?_⟩
    · intro j hj
      rw [List.length_map, List.length_range]
      exact r.oct1 j hj
    · intro i hi
      rw [List.length_map, List.length_range] at hi
      have h1 := hlt i hi
      have h2 := r.len
      have : (octetAt b' (k.addr i)).isSome := by rw [octetAt_isSome]; omega
      rw [List.getElem?_map, List.getElem?_range hi]
      unfold byteD
      cases e : octetAt b' (k.addr i) with
      | none => rw [e] at this; simp at this
      | some o => simp [e]
  · intro i hi
    rw [hread i (by have := k.le_count n; omega), if_neg]
    rintro ⟨h2, hj, hz, ho, _⟩
    have h1 := hlast h2 hz
    have h3 := hmul i
    have : k.count n - 1 = i / k.cap := by omega
    rw [this] at h1
    omega
  · intro h2 i hi1 hi2
    rw [hread i hi2, if_pos]
    have hm := Nat.mod_lt i k.cap_pos
    have hc := k.cap_off
    have h3 := hmul i
    have hqi := hq i hi2
    have hj : i / k.cap + 1 = k.count n := by
      have h4 := k.count_le n
      have : ¬ i < k.cap * (k.count n - 1) := by omega
      have : ¬ i / k.cap < k.count n - 1 := by
        rwa [Nat.div_lt_iff_lt_mul k.cap_pos, Nat.mul_comm]
      omega
    have hz : n % k.cap ≠ 0 := by
      intro hz
      have h4 := k.fillSize_last h2
      rw [if_pos hz] at h4
      unfold fillSize at h4
      rw [if_pos (by omega)] at h4
      have h5 : k.cap * k.count n = k.cap * (k.count n - 1) + k.cap := by
        rw [← Nat.mul_succ]; congr 1; omega
      have := k.count_le n
      omega
    refine ⟨h2, hj, hz, ?_, by omega⟩
    have h1 := hlast h2 hz
    have : k.count n - 1 = i / k.cap := by omega
    rw [this] at h1
    omega

theorem tryResize_fine (k : Sx) {m : Mem} {b b1 : Buf .ump} {n : Nat} {g : BitVec 4}
    (hm : m.resize b (k.stride * k.count n) = (b1, true)) (hl : k.stride * k.count n ≤ b1.length)
    (hg : ∃ w, b1[0]? = some w ∧ U32.nibble w 1 = g) :
    ∃ b', k.tryResize m b n = .ok (b', none) ∧ Resized k g (k.count n) n b1 b' := by
  obtain ⟨cs', e1, e2, e3⟩ := rewrite_spec k n g b1 hl hg
  refine ⟨_, ?_, e3⟩
  unfold tryResize
  rw [k.bufferSize_eq]
  simp only [hm, if_true]
  rw [Nat.mul_div_cancel_left _ k.stride_pos, e1, e2]
  rfl

theorem tryResize_full (k : Sx) {b : Buf .ump} {n : Nat} {g : BitVec 4}
    (hn : b.length < k.stride * k.count n) (hb : k.stride ≤ b.length)
    (hg : ∃ w, b[0]? = some w ∧ U32.nibble w 1 = g) :
    ∃ b', k.tryResize .fixed b n = .ok (b', some (b.length / k.stride * k.cap)) ∧
      Resized k g (b.length / k.stride) (b.length / k.stride * k.cap) b b' := by
  have hpos : 0 < b.length / k.stride := Nat.div_pos hb k.stride_pos
  have hcm := k.count_mul (b.length / k.stride) hpos
  obtain ⟨cs', e1, e2, e3⟩ := rewrite_spec k (b.length / k.stride * k.cap) g b
    (by rw [hcm]; exact Nat.mul_div_le _ _) hg
  rw [hcm] at e1 e2 e3
  refine ⟨_, ?_, e3⟩
  unfold tryResize
  rw [k.bufferSize_eq]
  simp only [Mem.resize, show ¬ k.stride * k.count n ≤ b.length by omega, decide_false,
    Bool.false_eq_true, if_false]
  rw [e1, e2]
  rfl

theorem Packed.group_eq {k : Sx} {g : BitVec 4} {p : Nat} {b : Buf .ump} {l : List k.Byte}
    (P : Packed k g p b l) : ∃ w, b[0]? = some w ∧ U32.nibble w 1 = g := by
  have := P.oct0 0 P.pos
  obtain ⟨w, e1, e2⟩ := octetAt_word (i := 0) (r := 0) (by omega) this
  refine ⟨w, e1, ?_⟩
  rw [show 1 = 2 * 0 + 1 from rfl, U32.nibble_octet_lo w 0 (by omega), e2]
  exact append_lo _ _

/-- Bytes surviving a resize. -/
theorem keep_bytes {k : Sx} {g g' : BitVec 4} {p p' : Nat} {b b' : Buf .ump} {l l' : List k.Byte}
    (P : Packed k g p b l) (P' : Packed k g' p' b' l')
    (h : ∀ i, i < l'.length → i < l.length → octetAt b' (k.addr i) = octetAt b (k.addr i)) :
    l'.take l.length = l.take l'.length := by
  apply List.ext_getElem?
  intro i
  rw [List.getElem?_take, List.getElem?_take]
  by_cases h1 : i < l.length
  · by_cases h2 : i < l'.length
    · rw [if_pos h1, if_pos h2, ← P.bytes i h1, ← P'.bytes i h2, h i h2 h1]
    · rw [if_pos h1, if_neg h2, List.getElem?_eq_none (by omega)]
  · rw [if_neg h1]
    split
    · rw [List.getElem?_eq_none (by omega)]
    · rfl

theorem limit_iff (k : Sx) {N n : Nat} (hN : k.stride ≤ N) :
    n ≤ N / k.stride * k.cap ↔ k.stride * k.count n ≤ N := by
  have hp : 0 < N / k.stride := Nat.div_pos hN k.stride_pos
  rw [Nat.mul_comm, ← k.count_le_iff n _ hp, Nat.le_div_iff_mul_le k.stride_pos, Nat.mul_comm]

/-- A property of the whole buffer which no operation on the payload destroys.  For arrays and
slices (`fixed`) nothing is asked about resizing. -/
structure Inv (k : Sx) (I : Buf .ump → Prop) (fixed : Bool) : Prop where
  same : ∀ {b b'}, SameHeads k b b' → I b → I b'
  resized : ∀ {g p n b b'}, Resized k g p n b b' → I b → I b'
  vec : fixed = false → ∀ {b} n, 0 < b.length → 0 < n → I b → I (vecResize b n)

theorem inv_true (k : Sx) {fixed : Bool} : Inv k (fun _ => True) fixed :=
  ⟨fun _ _ => trivial, fun _ _ => trivial, fun _ _ _ _ _ _ => trivial⟩

theorem inv_zeroId (k : Sx) {fixed : Bool} : Inv k (ZeroId k) fixed :=
  ⟨fun h => h.zeroId, fun h => h.zeroId, fun _ _ n _ _ h => zeroId_vecResize h n⟩

theorem Inv.and {k : Sx} {I J : Buf .ump → Prop} {fixed : Bool} (h1 : Inv k I fixed)
    (h2 : Inv k J fixed) : Inv k (fun b => I b ∧ J b) fixed :=
  ⟨fun h i => ⟨h1.same h i.1, h2.same h i.2⟩, fun h i => ⟨h1.resized h i.1, h2.resized h i.2⟩,
    fun f _ n a c i => ⟨h1.vec f n a c i.1, h2.vec f n a c i.2⟩⟩

/-- The octet that `stream_id()` reads. -/
theorem inv_streamId (v : Option (BitVec 8)) {fixed : Bool} :
    Inv s8 (fun b => octetAt b 2 = v) fixed := by
  refine ⟨?_, ?_, ?_⟩
  · intro b b' h e
    have := h.head 0 2 (by decide)
    simp only [Nat.mul_zero, Nat.zero_add] at this
    rw [this]; exact e
  · intro g p n b b' r e
    by_cases hp : 0 < p
    · have := r.rest 0 2 hp (by omega) (by decide)
      simp only [Nat.mul_zero, Nat.zero_add] at this
      rw [this, if_neg]
      · exact e
      · intro c
        have := c.2.2.2.1
        simp only [off] at this
        omega
    · rw [r.beyond 2 (by have : p = 0 := by omega
                         subst this; simp), e]
  · intro _ b n h1 h2 e
    rw [octetAt_vecResize_lt _ _ _ (by omega) (by omega), e]

theorem SameHeads.whole {k : Sx} {dbg : Bool} {I : Buf .ump → Prop} {N : Option Nat}
    (hI : Inv k I N.isSome)
    {b b' : Buf .ump} (h : SameHeads k b b') (W : Whole k dbg I N b) : Whole k dbg I N b' :=
  ⟨fun e => h.steady (W.steady e), hI.same h W.inv, fun n e => h.1.trans (W.fixed n e)⟩

theorem laws (k : Sx) (dbg : Bool) {I : Buf .ump → Prop} (g : BitVec 4) (N : Option Nat)
    (hI : Inv k I N.isSome) : SxLawsAll (k.ops dbg (memOf N)) (Loose k dbg I g N) (Strict k dbg I g N) (k.limit N) where
  weaken h := ⟨⟨_, h.packed⟩, h.whole⟩
  bound := by
    rintro b l ⟨⟨p, P⟩, W⟩
    cases N with
    | none => intro c hc; cases hc
    | some n =>
      intro c hc
      cases hc
      have h1 := W.fixed n rfl
      have h2 := P.len
      have h3 := P.hi
      have : p ≤ n / k.stride := by
        rw [Nat.le_div_iff_mul_le k.stride_pos, Nat.mul_comm]; omega
      have : k.cap * p ≤ k.cap * (n / k.stride) := Nat.mul_le_mul_left _ this
      rw [Nat.mul_comm] at this
      rw [Nat.mul_comm] at h3
      have := Nat.mul_comm k.cap (n / k.stride)
      show l.length ≤ n / k.stride * k.cap
      omega
  size := by
    rintro b l ⟨⟨p, P⟩, W⟩
    exact P.payloadSize_eq
  write := by
    rintro b l v i ⟨⟨p, P⟩, W⟩ hi
    obtain ⟨b', e1, e2, e3⟩ := P.write v hi
    exact ⟨b', e1, ⟨p, e3⟩, e2.whole hI W⟩
  same := by
    rintro b l i ⟨⟨p, P⟩, W⟩
    exact ⟨b, P.move_same (fun e => (W.steady e).isCompact) i, ⟨p, P⟩, W⟩
  up := by
    rintro b l tail to ⟨⟨p, P⟩, W⟩ h1 h2
    obtain ⟨b', e1, e2, e3⟩ := P.move_up (fun e => (W.steady e).isCompact) h1 h2
    exact ⟨b', e1, ⟨p, e3⟩, e2.whole hI W⟩
  down := by
    rintro b l tail to ⟨⟨p, P⟩, W⟩ h1 h2
    obtain ⟨b', e1, e2, e3⟩ := P.move_down (fun e => (W.steady e).isCompact) h1 h2
    exact ⟨b', e1, ⟨p, e3⟩, e2.whole hI W⟩
  resize := by
    rintro b l n ⟨⟨p, P⟩, W⟩ hf
    obtain ⟨w, hw, hg⟩ := P.group_eq
    have hb : k.stride ≤ b.length := by
      have := P.frame.le_mul P.pos
      omega
    have hbpos : 0 < b.length := by have := k.stride_pos; omega
    cases N with
    | none =>
      have hs1 := length_vecResize b (k.stride * k.count n)
      have hpos : 0 < k.stride * k.count n := Nat.mul_pos k.stride_pos (k.count_pos n)
      have hw1 : (vecResize b (k.stride * k.count n))[0]? = some w := by
        unfold vecResize
        rw [List.getElem?_append_left (by simp; omega), List.getElem?_take_of_lt hpos, hw]
      obtain ⟨b', e1, r⟩ := k.tryResize_fine (m := .vec) (b := b) (n := n) rfl
        (Nat.le_of_eq hs1.symm) ⟨w, hw1, hg⟩
      obtain ⟨l', f1, f2, f3, f4⟩ := r.packed (Nat.le_of_eq hs1.symm)
      subst f1
      refine ⟨b', l', e1, ⟨f2, ⟨?_, ?_, ?_⟩, f4, ?_⟩, rfl, ?_⟩
      · intro _; exact (r.tidy (tidyFrom_end (by omega))).steady _
      · exact hI.resized r (hI.vec rfl _ hbpos hpos W.inv)
      · intro _ h; cases h
      · intro _; rw [r.len, hs1]
      · apply keep_bytes P f2
        intro i h1 h2
        rw [f3 i h1, octetAt_vecResize_lt _ _ _ (P.addr_lt h2)]
        exact k.addr_lt_iff.mpr (by have := k.le_count l'.length; omega)
    | some m =>
      have hm := W.fixed m rfl
      have hle : k.stride * k.count n ≤ b.length := by
        rw [hm] at hb ⊢
        exact (k.limit_iff hb).mp (hf _ rfl)
      obtain ⟨b', e1, r⟩ := k.tryResize_fine (m := .fixed) (b := b) (n := n) (b1 := b)
        (by simp [Mem.resize, hle]) hle ⟨w, hw, hg⟩
      obtain ⟨l', f1, f2, f3, f4⟩ := r.packed hle
      subst f1
      refine ⟨b', l', e1, ⟨f2, ⟨?_, ?_, ?_⟩, f4, ?_⟩, rfl, ?_⟩
      · intro e; exact r.tidy (Tidy.from (W.steady e) _)
      · exact hI.resized r W.inv
      · intro x h; rw [r.len]; exact W.fixed x h
      · intro h; cases h
      · exact keep_bytes P f2 fun i h1 _ => f3 i h1
  full := by
    rintro b l n c ⟨⟨p, P⟩, W⟩ hlim hc
    obtain ⟨w, hw, hg⟩ := P.group_eq
    have hb : k.stride ≤ b.length := by
      have := P.frame.le_mul P.pos
      omega
    cases N with
    | none => cases hlim
    | some m =>
      have hm := W.fixed m rfl
      subst hm
      have hlim : b.length / k.stride * k.cap = c := Option.some.inj hlim
      subst hlim
      have hlt : b.length < k.stride * k.count n := by
        have := k.limit_iff (n := n) hb
        omega
      have hpos : 0 < b.length / k.stride := Nat.div_pos hb k.stride_pos
      have hcm := k.count_mul (b.length / k.stride) hpos
      obtain ⟨b', e1, r⟩ := k.tryResize_full hlt hb ⟨w, hw, hg⟩
      have hsame : k.count (b.length / k.stride * k.cap) = b.length / k.stride := hcm
      have r' := r
      rw [← hsame] at r
      simp only [hsame] at r
      obtain ⟨l', f1, f2, f3, f4⟩ := Resized.packed (k := k) (g := g)
        (n := b.length / k.stride * k.cap) (b := b) (b' := b') (by rw [hcm]; exact r')
        (by rw [hcm]; exact Nat.mul_div_le _ _)
      refine ⟨b', l', e1, ⟨by rw [f1]; exact f2, ⟨?_, ?_, ?_⟩, by rw [f1]; exact f4, ?_⟩, f1, ?_⟩
      · intro _; exact r'.tidy (tidyFrom_whole b)
      · exact hI.resized r' W.inv
      · intro x h; rw [r'.len]; exact W.fixed x h
      · intro h; cases h
      · rw [keep_bytes P f2 fun i h1 _ => f3 i (by omega)]
        apply List.take_of_length_le
        rw [f1]
        have h2 := P.len
        have h3 := P.hi
        have : p ≤ b.length / k.stride := by
          rw [Nat.le_div_iff_mul_le k.stride_pos, Nat.mul_comm]; omega
        have : k.cap * p ≤ k.cap * (b.length / k.stride) := Nat.mul_le_mul_left _ this
        have := Nat.mul_comm k.cap (b.length / k.stride)
        omega

end Sx

end Midi2
