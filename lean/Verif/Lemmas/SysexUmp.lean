import Verif.Lemmas.SysexFrame

/-! The system exclusive operations over UMP buffers satisfy the laws the splice needs. -/

namespace Midi2

namespace Sx

/-! ### Addresses -/

theorem addr_eq (k : Sx) (i : Nat) : k.addr i = 4 * (k.stride * (i / k.cap)) + k.off + i % k.cap := by
  unfold addr
  cases k <;> simp only [off, cap, stride] <;> omega

theorem addr_mul_add (k : Sx) (q r : Nat) (h : r < k.cap) :
    k.addr (k.cap * q + r) = 4 * (k.stride * q) + k.off + r := by
  rw [addr_eq, Nat.mul_add_div k.cap_pos, Nat.div_eq_of_lt h, Nat.mul_add_mod,
    Nat.mod_eq_of_lt h, Nat.add_zero]

theorem addr_lt_addr (k : Sx) {i j : Nat} (h : i < j) : k.addr i < k.addr j := by
  unfold addr
  have : i / k.cap ≤ j / k.cap := Nat.div_le_div_right (by omega)
  have : k.off * (1 + i / k.cap) ≤ k.off * (1 + j / k.cap) := Nat.mul_le_mul_left _ (by omega)
  omega

theorem addr_inj (k : Sx) {i j : Nat} (h : k.addr i = k.addr j) : i = j := by
  rcases Nat.lt_trichotomy i j with h' | h' | h'
  · have := k.addr_lt_addr h'; omega
  · exact h'
  · have := k.addr_lt_addr h'; omega

theorem addr_lt_iff (k : Sx) {i p : Nat} : k.addr i < 4 * (k.stride * p) ↔ i < k.cap * p := by
  rw [addr_eq]
  cases k <;> simp only [off, cap, stride] <;> omega

/-- Octets in front of the payload of a packet are no payload octets. -/
theorem addr_ne_head (k : Sx) (i j r : Nat) (h : r < k.off) : k.addr i ≠ 4 * (k.stride * j) + r := by
  rw [addr_eq]
  cases k <;> simp only [off, cap, stride] at * <;> omega

/-- An octet of a packet behind its header is a payload octet. -/
theorem exists_addr (k : Sx) (j r : Nat) (h1 : k.off ≤ r) (h2 : r < 4 * k.stride) :
    k.addr (k.cap * j + (r - k.off)) = 4 * (k.stride * j) + r := by
  have := k.cap_off
  rw [addr_mul_add _ _ _ (by omega)]
  omega

/-! ### Number of packets -/

/-- Packets needed for `n` payload bytes. -/
def count (k : Sx) (n : Nat) : Nat := if n = 0 then 1 else (n + k.cap - 1) / k.cap

theorem bufferSize_eq (k : Sx) (n : Nat) : k.bufferSize n = k.stride * k.count n := by
  unfold bufferSize count
  by_cases h : n = 0
  · subst h; cases k <;> rfl
  · cases k <;> simp only [cap, stride, if_neg h] <;> split <;> omega

theorem count_pos (k : Sx) (n : Nat) : 0 < k.count n := by
  unfold count
  cases k <;> simp only [cap] <;> split <;> omega

theorem le_count (k : Sx) (n : Nat) : n ≤ k.cap * k.count n := by
  unfold count
  cases k <;> simp only [cap] <;> split <;> omega

theorem count_le (k : Sx) (n : Nat) : k.cap * (k.count n - 1) ≤ n := by
  unfold count
  cases k <;> simp only [cap] <;> split <;> omega

theorem count_le_iff (k : Sx) (n p : Nat) (hp : 0 < p) : k.count n ≤ p ↔ n ≤ k.cap * p := by
  unfold count
  cases k <;> simp only [cap] <;> split <;> omega

theorem count_mul (k : Sx) (p : Nat) (hp : 0 < p) : k.count (p * k.cap) = p := by
  unfold count
  have hc := k.cap_pos
  rw [if_neg (Nat.mul_ne_zero (by omega) (by omega))]
  cases k <;> simp only [cap] <;> omega

/-! ### Headers -/

/-- Status nibble of packet `j` of `p`. -/
def stat (p j : Nat) : BitVec 4 :=
  if p = 1 then 0 else if j = 0 then 1 else if j + 1 = p then 3 else 2

/-- Payload bytes in packet `j` of `p` packets holding `n` bytes. -/
def fillSize (k : Sx) (p n j : Nat) : Nat := if j + 1 = p then n - k.cap * (p - 1) else k.cap

/-- First octet: message type and group. -/
def typOctet (k : Sx) (g : BitVec 4) : BitVec 8 := k.typ ++ g

/-- Second octet: status and size. -/
def sizeOctet (k : Sx) (p n j : Nat) : BitVec 8 :=
  stat p j ++ BitVec.ofNat 4 (k.fillSize p n j + k.bias)

/-- The buffer starts with `p` packets of group `g` holding the bytes `l`, all but the
last of them full. -/
structure Packed (k : Sx) (g : BitVec 4) (p : Nat) (b : Buf .ump) (l : List k.Byte) : Prop where
  pos : 0 < p
  len : k.stride * p ≤ b.length
  lo : k.cap * (p - 1) ≤ l.length
  hi : l.length ≤ k.cap * p
  oct0 : ∀ j, j < p → octetAt b (4 * (k.stride * j)) = some (k.typOctet g)
  oct1 : ∀ j, j < p → octetAt b (4 * (k.stride * j) + 1) = some (k.sizeOctet p l.length j)
  bytes : ∀ i, i < l.length → (octetAt b (k.addr i)).map k.ofOctet = l[i]?

/-- Every group of four words of the buffer which starts with a begin or continue header
of this message type has a full first packet. -/
def Tidy (k : Sx) (b : Buf .ump) : Prop :=
  ∀ i o0 o1, 4 * i + 4 ≤ b.length → octetAt b (16 * i) = some o0 →
    octetAt b (16 * i + 1) = some o1 → o0.extractLsb' 4 4 = k.typ →
    (o1.extractLsb' 4 4 = 0x1 ∨ o1.extractLsb' 4 4 = 0x2) → o1.extractLsb' 0 4 = k.fullNibble

/-- The same from word `q` on. -/
def TidyFrom (k : Sx) (q : Nat) (b : Buf .ump) : Prop :=
  ∀ i o0 o1, q ≤ 4 * i → 4 * i + 4 ≤ b.length → octetAt b (16 * i) = some o0 →
    octetAt b (16 * i + 1) = some o1 → o0.extractLsb' 4 4 = k.typ →
    (o1.extractLsb' 4 4 = 0x1 ∨ o1.extractLsb' 4 4 = 0x2) → o1.extractLsb' 0 4 = k.fullNibble

/-- The same for those groups only which no header of another type precedes. -/
def RunTidyFrom (k : Sx) (q : Nat) (b : Buf .ump) : Prop :=
  ∀ i o1, q ≤ 4 * i → 4 * i + 4 ≤ b.length →
    (∀ i', i' ≤ i → ∃ o, octetAt b (16 * i') = some o ∧ o.extractLsb' 4 4 = k.typ) →
    octetAt b (16 * i + 1) = some o1 →
    (o1.extractLsb' 4 4 = 0x1 ∨ o1.extractLsb' 4 4 = 0x2) → o1.extractLsb' 0 4 = k.fullNibble

/-- No octet of a sysex7 buffer has its top bit set. -/
def Septets (k : Sx) (b : Buf .ump) : Prop :=
  k = s7 → ∀ a o, octetAt b a = some o → o.toNat < 128

/-- The octet of sysex8 packets that `stream_id()` reads is zero in the whole buffer, and
no octet of a sysex7 buffer has its top bit set. -/
def ZeroId (k : Sx) (b : Buf .ump) : Prop :=
  (k = s8 → ∀ j o, octetAt b (16 * j + 2) = some o → o = 0) ∧ Septets k b

/-- The buffers differ in payload octets only. -/
def SameHeads (k : Sx) (b b' : Buf .ump) : Prop :=
  b'.length = b.length ∧ (∀ x, (∀ i, x ≠ k.addr i) → octetAt b' x = octetAt b x) ∧
    (Septets k b → Septets k b')

theorem septets_copy {k : Sx} {b b' : Buf .ump}
    (h : ∀ x, ∃ y, octetAt b' x = octetAt b y) (hb : Septets k b) : Septets k b' := by
  intro hk a o ho
  obtain ⟨y, hy⟩ := h a
  exact hb hk y o (hy ▸ ho)

theorem SameHeads.refl {k : Sx} (b : Buf .ump) : SameHeads k b b := ⟨rfl, fun _ _ => rfl, id⟩

theorem SameHeads.trans {k : Sx} {a b c : Buf .ump} (h1 : SameHeads k a b) (h2 : SameHeads k b c) :
    SameHeads k a c :=
  ⟨h2.1.trans h1.1, fun x hx => (h2.2.1 x hx).trans (h1.2.1 x hx), fun h => h2.2.2 (h1.2.2 h)⟩

theorem SameHeads.head {k : Sx} {b b' : Buf .ump} (h : SameHeads k b b') (j r : Nat)
    (hr : r < k.off) : octetAt b' (4 * (k.stride * j) + r) = octetAt b (4 * (k.stride * j) + r) :=
  h.2.1 _ fun i => Ne.symm (k.addr_ne_head i j r hr)

/-- The packet that starts at word `4 * i`. -/
theorem four_stride (k : Sx) (i : Nat) : 16 * i = 4 * (k.stride * (4 / k.stride * i)) := by
  cases k <;> simp only [stride] <;> omega

theorem SameHeads.tidy {k : Sx} {b b' : Buf .ump} (h : SameHeads k b b') (t : Tidy k b) :
    Tidy k b' := by
  intro i o0 o1 hl h0 h1
  have ho := k.two_le_off
  rw [k.four_stride i] at h0 h1
  have e0 := h.head (4 / k.stride * i) 0 (by omega)
  have e1 := h.head (4 / k.stride * i) 1 (by omega)
  rw [Nat.add_zero] at e0
  rw [e0, ← k.four_stride i] at h0
  rw [e1, ← k.four_stride i] at h1
  exact t i o0 o1 (by rw [← h.1]; exact hl) h0 h1

theorem SameHeads.zeroId {k : Sx} {b b' : Buf .ump} (h : SameHeads k b b') (t : ZeroId k b) :
    ZeroId k b' := by
  refine ⟨?_, h.2.2 t.2⟩
  intro hk j o ho
  subst hk
  have e := h.head (k := s8) j 2 (by decide)
  simp only [stride, ← Nat.mul_assoc] at e
  rw [e] at ho
  exact t.1 rfl j o ho

theorem SameHeads.packed {k : Sx} {g : BitVec 4} {p : Nat} {b b' : Buf .ump} {l l' : List k.Byte}
    (h : SameHeads k b b') (P : Packed k g p b l) (hl : l'.length = l.length)
    (hb : ∀ i, i < l'.length → (octetAt b' (k.addr i)).map k.ofOctet = l'[i]?) :
    Packed k g p b' l' := by
  have ho := k.two_le_off
  refine ⟨P.pos, by rw [h.1]; exact P.len, by rw [hl]; exact P.lo, by rw [hl]; exact P.hi, ?_, ?_, hb⟩
  · intro j hj
    rw [← P.oct0 j hj]
    exact h.head j 0 (by omega)
  · intro j hj
    rw [hl, ← P.oct1 j hj]
    exact h.head j 1 (by omega)

/-! ### Words from octets -/

theorem octetAt_word {b : Buf .ump} {i : Nat} {o : BitVec 8} {r : Nat} (hr : r < 4)
    (h : octetAt b (4 * i + r) = some o) : ∃ w, b[i]? = some w ∧ U32.octet w r = o := by
  unfold octetAt at h
  rw [show (4 * i + r) / 4 = i by omega, show (4 * i + r) % 4 = r by omega] at h
  cases e : b[i]? with
  | none => rw [e] at h; simp at h
  | some w =>
    rw [e] at h
    exact ⟨w, rfl, by simpa using h⟩

theorem append_hi (x y : BitVec 4) : (x ++ y : BitVec 8).extractLsb' 4 4 = x := by
  revert x y; decide +kernel

theorem append_lo (x y : BitVec 4) : (x ++ y : BitVec 8).extractLsb' 0 4 = y := by
  revert x y; decide +kernel

theorem isLast_stat {p j : Nat} (h : j < p) :
    (stat p j == 0x0 || stat p j == 0x3) = decide (j + 1 = p) := by
  unfold stat
  split
  · next hp => subst hp; simp; omega
  · split
    · next hj => subst hj; simp; omega
    · split
      · next e => simp [e]
      · next e => simp [e]

section
variable {k : Sx} {g : BitVec 4} {p : Nat} {b : Buf .ump} {l : List k.Byte}

theorem fillSize_le (P : Packed k g p b l) (j : Nat) : k.fillSize p l.length j ≤ k.cap := by
  unfold fillSize
  split
  · have h1 := P.hi
    have h2 := P.lo
    have h3 := P.pos
    have : k.cap * p = k.cap * (p - 1) + k.cap := by
      rw [← Nat.mul_succ]; congr 1; omega
    omega
  · exact Nat.le_refl _

theorem cap_bias (k : Sx) : k.cap + k.bias < 15 := by cases k <;> decide

theorem packetSize_octet (k : Sx) {w : BitVec 32} {s : BitVec 4} {n : Nat} (hn : n ≤ k.cap)
    (h : U32.octet w 1 = s ++ BitVec.ofNat 4 (n + k.bias)) : k.packetSize w = .ok n := by
  unfold packetSize
  have hb := k.cap_bias
  have : U32.nibble w 3 = BitVec.ofNat 4 (n + k.bias) := by
    rw [show 3 = 2 * 1 + 1 from rfl, U32.nibble_octet_lo w 1 (by omega), h, append_lo]
  rw [this, BitVec.toNat_ofNat, Nat.mod_eq_of_lt (by omega)]
  unfold usub
  rw [if_pos (by omega)]
  congr 1; omega

theorem isLast_octet {w : BitVec 32} {s t : BitVec 4} (h : U32.octet w 1 = s ++ t) :
    isLast w = (s == 0x0 || s == 0x3) := by
  unfold isLast
  rw [show 2 = 2 * 1 from rfl, U32.nibble_octet_hi w 1 (by omega), h, append_hi]

theorem Packed.frame (P : Packed k g p b l) : Frame k b p (k.fillSize p l.length) := by
  refine ⟨P.pos, P.len, ?_, fun j _ => fillSize_le P j⟩
  intro j hj
  obtain ⟨w, e1, e2⟩ := octetAt_word (by omega) (P.oct1 j hj)
  refine ⟨w, e1, ?_, ?_⟩
  · rw [isLast_octet e2, isLast_stat hj]
  · exact packetSize_octet k (fillSize_le P j) e2

theorem Packed.byteD_eq (P : Packed k g p b l) {i : Nat} (h : i < l.length) :
    k.byteD b (k.addr i) = l[i] := by
  have := P.bytes i h
  rw [List.getElem?_eq_getElem h] at this
  unfold byteD
  cases e : octetAt b (k.addr i) with
  | none => rw [e] at this; simp at this
  | some o => rw [e] at this; simpa using this

theorem Packed.restFrom_eq (P : Packed k g p b l) : ∀ (m j : Nat), p - j = m → j ≤ p →
    k.restFrom b p (k.fillSize p l.length) j = l.drop (k.cap * j) := by
  intro m
  induction m with
  | zero =>
    intro j hm hj
    have : j = p := by omega
    subst this
    rw [restFrom_ge _ _ _ (Nat.le_refl _), List.drop_of_length_le P.hi]
  | succ m ih =>
    intro j hm hj
    have hjp : j < p := by omega
    have hlo := P.lo
    have hhi := P.hi
    have hsz : k.fillSize p l.length j = min k.cap (l.length - k.cap * j) := by
      unfold fillSize
      split
      · next e =>
        have e : p - 1 = j := by omega
        have : k.cap * p = k.cap * (p - 1) + k.cap := by
          rw [← Nat.mul_succ]; congr 1; omega
        rw [e] at *
        omega
      · next e =>
        have : k.cap * (j + 1) ≤ k.cap * (p - 1) := Nat.mul_le_mul_left _ (by omega)
        rw [Nat.mul_succ] at this
        omega
    rw [restFrom_lt _ _ _ hjp, ih (j + 1) (by omega) (by omega)]
    have : k.packetBytes b (k.fillSize p l.length) j = (l.drop (k.cap * j)).take k.cap := by
      apply List.ext_getElem
      · rw [length_packetBytes, hsz, List.length_take, List.length_drop]
      · intro i h1 h2
        rw [length_packetBytes, hsz] at h1
        simp only [packetBytes, List.getElem_map, List.getElem_range, List.getElem_take,
          List.getElem_drop]
        rw [← addr_mul_add _ _ _ (by omega), P.byteD_eq (by omega)]
    rw [this, Nat.mul_succ, ← List.drop_drop, List.take_append_drop]

/-- `payload()` of a packed message yields its bytes. -/
theorem Packed.payloadList_eq (P : Packed k g p b l) : k.payloadList b = .ok l := by
  rw [P.frame.payloadList_eq, P.restFrom_eq p 0 (by omega) (by omega)]; simp

theorem Packed.payloadSize_eq (P : Packed k g p b l) : k.payloadSize b = .ok l.length := by
  rw [P.frame.payloadSize_eq, P.restFrom_eq p 0 (by omega) (by omega)]; simp

end

/-! ### Compactness check -/

theorem mem_takeWhile_true {α : Type} (q : α → Bool) :
    ∀ (l : List α) {x : α}, x ∈ l.takeWhile q → q x = true
  | [], _, h => by simp at h
  | y :: ys, x, h => by
    rw [List.takeWhile_cons] at h
    split at h
    · next hy =>
      rcases List.mem_cons.mp h with rfl | h
      · exact hy
      · exact mem_takeWhile_true q ys h
    · simp at h

theorem all_takeWhile {α : Type} (q r : α → Bool) : ∀ l : List α,
    (l.takeWhile q).all r = true ↔
      ∀ (i : Nat) x, l[i]? = some x → (∀ i' : Nat, i' ≤ i → ∃ y, l[i']? = some y ∧ q y = true) → r x = true
  | [] => by simp
  | y :: ys => by
    rw [List.takeWhile_cons]
    have ih := all_takeWhile q r ys
    split
    · next hy =>
      rw [List.all_cons, Bool.and_eq_true, ih]
      constructor
      · rintro ⟨h1, h2⟩ i x hx hq
        cases i with
        | zero => cases hx; exact h1
        | succ i =>
          exact h2 i x hx fun i' hi' => hq (i' + 1) (by omega)
      · intro h
        refine ⟨h 0 y rfl fun i' hi' => ⟨y, ?_, hy⟩, fun i x hx hq => h (i + 1) x hx fun i' hi' => ?_⟩
        · rw [show i' = 0 by omega]; rfl
        · cases i' with
          | zero => exact ⟨y, rfl, hy⟩
          | succ i' => exact hq i' (by omega)
    · next hy =>
      refine ⟨fun _ i x hx hq => ?_, fun _ => rfl⟩
      obtain ⟨z, hz, hqz⟩ := hq 0 (by omega)
      cases hz
      exact absurd hqz hy

/-- What the compactness check looks at. -/
theorem isCompact_iff {k : Sx} {b : Buf .ump} : k.isCompact b = true ↔ RunTidyFrom k 0 b := by
  have hchunk : ∀ i c, (chunksExact 4 b)[i]? = some c ↔
      4 * i + 4 ≤ b.length ∧ c = (b.drop (4 * i)).take 4 := by
    intro i c
    rw [chunksExact_eq_map (by omega), List.getElem?_map]
    by_cases hi : i < b.length / 4
    · rw [List.getElem?_range hi]
      simp only [Option.map_some, Option.some.injEq]
      exact ⟨fun h => ⟨by omega, h.symm⟩, fun h => h.2.symm⟩
    · rw [List.getElem?_eq_none (by simp; omega)]
      exact ⟨nofun, fun h => by omega⟩
  have hword : ∀ i, 4 * i + 4 ≤ b.length → ∃ w, head0 ((b.drop (4 * i)).take 4) = w ∧
      octetAt b (16 * i) = some (U32.octet w 0) ∧ octetAt b (16 * i + 1) = some (U32.octet w 1) ∧
      (U32.octet w 0).extractLsb' 4 4 = U32.nibble w 0 ∧
      (U32.octet w 1).extractLsb' 4 4 = U32.nibble w 2 ∧
      (U32.octet w 1).extractLsb' 0 4 = U32.nibble w 3 := by
    intro i hi
    have hw : b[4 * i]? = some (b[4 * i]'(by omega)) := List.getElem?_eq_getElem _
    refine ⟨_, head0_drop_take (by omega) hw, ?_, ?_, (U32.nibble_octet_hi _ 0 (by omega)).symm,
      (U32.nibble_octet_hi _ 1 (by omega)).symm, (U32.nibble_octet_lo _ 1 (by omega)).symm⟩
    · unfold octetAt
      rw [show 16 * i / 4 = 4 * i by omega, show 16 * i % 4 = 0 by omega, hw]; rfl
    · unfold octetAt
      rw [show (16 * i + 1) / 4 = 4 * i by omega, show (16 * i + 1) % 4 = 1 by omega, hw]; rfl
  unfold isCompact
  rw [all_takeWhile]
  constructor
  · intro h i o1 _ hl ht h1 hs
    obtain ⟨w, w0, w1, w2, w3, w4, w5⟩ := hword i hl
    rw [w2] at h1
    cases h1
    have := h i _ ((hchunk i _).mpr ⟨hl, rfl⟩) fun i' hi' => by
      obtain ⟨u, u0, u1, -, u3, -⟩ := hword i' (by omega)
      obtain ⟨o, ho, hto⟩ := ht i' hi'
      rw [u1] at ho
      cases ho
      refine ⟨_, (hchunk i' _).mpr ⟨by omega, rfl⟩, ?_⟩
      rw [u0, ← u3, hto]
      exact beq_self_eq_true _
    rw [w0, ← w4, ← w5] at this
    rcases hs with hs | hs <;> rw [hs] at this <;> simpa using this
  · intro h i c hc hq
    obtain ⟨hl, rfl⟩ := (hchunk i c).mp hc
    obtain ⟨w, w0, w1, w2, w3, w4, w5⟩ := hword i hl
    have := h i _ (by omega) hl (fun i' hi' => by
      obtain ⟨y, hy, hqy⟩ := hq i' hi'
      obtain ⟨hl', rfl⟩ := (hchunk i' y).mp hy
      obtain ⟨u, u0, u1, -, u3, -⟩ := hword i' hl'
      refine ⟨_, u1, ?_⟩
      rw [u0] at hqy
      rw [u3]
      exact eq_of_beq hqy) w2
    rw [w0, ← w4, ← w5]
    by_cases hs : (U32.octet w 1).extractLsb' 4 4 = 0x1 ∨ (U32.octet w 1).extractLsb' 4 4 = 0x2
    · rw [this hs]; simp
    · rw [not_or] at hs
      simp
      exact .inl hs

theorem isCompact_of_tidy {k : Sx} {b : Buf .ump} (t : Tidy k b) : k.isCompact b = true := by
  rw [isCompact_iff]
  intro i o1 _ hl ht h1 hs
  obtain ⟨o0, h0, ht0⟩ := ht i (Nat.le_refl _)
  exact t i o0 o1 hl h0 h1 ht0 hs

theorem SameHeads.isCompact {k : Sx} {b b' : Buf .ump} (h : SameHeads k b b')
    (t : k.isCompact b = true) : k.isCompact b' = true := by
  rw [isCompact_iff] at t ⊢
  have ho := k.two_le_off
  have e : ∀ i r, r < 2 → octetAt b' (16 * i + r) = octetAt b (16 * i + r) := by
    intro i r hr
    rw [k.four_stride i]
    exact h.head _ r (by omega)
  intro i o1 hq hl ht h1
  rw [e i 1 (by omega)] at h1
  refine t i o1 hq (by rw [← h.1]; exact hl) (fun i' hi' => ?_) h1
  obtain ⟨o, h2, h3⟩ := ht i' hi'
  have := e i' 0 (by omega)
  rw [Nat.add_zero] at this
  exact ⟨o, by rw [← this]; exact h2, h3⟩

/-! ### Moving octets -/

theorem copyUp (k : Sx) (tail d : Nat) : ∀ (m : Nat) (b : Buf .ump), 0 < d →
    (∀ i, i < tail + m → k.addr (i + d) < 4 * b.length) →
    ∃ b', (List.range' tail m).reverse.foldlM
        (fun b i => copyOctet b (k.addr i) (k.addr (i + d))) b = .ok b' ∧
      b'.length = b.length ∧
      (∀ i, tail ≤ i → i < tail + m → octetAt b' (k.addr (i + d)) = octetAt b (k.addr i)) ∧
      ∀ x, (∀ i, tail ≤ i → i < tail + m → x ≠ k.addr (i + d)) → octetAt b' x = octetAt b x := by
  intro m
  induction m with
  | zero =>
    intro b _ _
    exact ⟨b, rfl, rfl, fun i _ _ => by omega, fun _ _ => rfl⟩
  | succ m ih =>
    intro b hd hb
    have hlast := hb (tail + m) (by omega)
    have hlt := k.addr_lt_addr (show tail + m < tail + m + d by omega)
    obtain ⟨b1, e1, e2, e3⟩ := copyOctet_ok (b := b) (s := k.addr (tail + m))
      (d := k.addr (tail + m + d)) (by omega) hlast
    obtain ⟨b', i1, i2, i3, i4⟩ := ih b1 hd (by intro i hi; rw [e2]; exact hb i (by omega))
    refine ⟨b', ?_, by rw [i2, e2], ?_, ?_⟩
    · rw [List.range'_concat, List.reverse_append]
      simp only [List.reverse_cons, List.reverse_nil, List.nil_append, List.cons_append,
        List.foldlM_cons, Nat.one_mul]
      rw [e1]; exact i1
    · intro i h1 h2
      by_cases h : i = tail + m
      · subst h
        rw [i4 _ (by intro j _ hj e; have := k.addr_inj e; omega), e3, if_pos rfl]
      · rw [i3 i h1 (by omega), e3, if_neg (by intro e; have := k.addr_inj e; omega)]
    · intro x hx
      rw [i4 x (fun i h1 h2 => hx i h1 (by omega)), e3,
        if_neg (hx (tail + m) (by omega) (by omega))]

theorem copyDown (k : Sx) (d : Nat) : ∀ (m tail : Nat) (b : Buf .ump), 0 < d → d ≤ tail →
    (∀ i, i < tail + m → k.addr i < 4 * b.length) →
    ∃ b', (List.range' tail m).foldlM
        (fun b i => copyOctet b (k.addr i) (k.addr (i - d))) b = .ok b' ∧
      b'.length = b.length ∧
      (∀ i, tail ≤ i → i < tail + m → octetAt b' (k.addr (i - d)) = octetAt b (k.addr i)) ∧
      ∀ x, (∀ i, tail ≤ i → i < tail + m → x ≠ k.addr (i - d)) → octetAt b' x = octetAt b x := by
  intro m
  induction m with
  | zero =>
    intro tail b _ _ _
    exact ⟨b, rfl, rfl, fun i _ _ => by omega, fun _ _ => rfl⟩
  | succ m ih =>
    intro tail b hd hdt hb
    have hsrc := hb tail (by omega)
    have hlt := k.addr_lt_addr (show tail - d < tail by omega)
    obtain ⟨b1, e1, e2, e3⟩ := copyOctet_ok (b := b) (s := k.addr tail)
      (d := k.addr (tail - d)) hsrc (by omega)
    obtain ⟨b', i1, i2, i3, i4⟩ := ih (tail + 1) b1 hd (by omega)
      (by intro i hi; rw [e2]; exact hb i (by omega))
    refine ⟨b', ?_, by rw [i2, e2], ?_, ?_⟩
    · rw [List.range'_succ, List.foldlM_cons, e1]; exact i1
    · intro i h1 h2
      by_cases h : i = tail
      · subst h
        rw [i4 _ (by intro j _ hj e; have := k.addr_inj e; omega), e3, if_pos rfl]
      · rw [i3 i (by omega) (by omega), e3, if_neg (by intro e; have := k.addr_inj e; omega)]
    · intro x hx
      rw [i4 x (fun i h1 h2 => hx i (by omega) (by omega)), e3,
        if_neg (hx tail (by omega) (by omega))]

theorem Packed.addr_lt {k : Sx} {g : BitVec 4} {p : Nat} {b : Buf .ump} {l : List k.Byte}
    (P : Packed k g p b l) {i : Nat} (h : i < l.length) : k.addr i < 4 * b.length := by
  have h1 := P.hi
  have h2 := P.len
  have : k.addr i < 4 * (k.stride * p) := k.addr_lt_iff.mpr (by omega)
  omega

theorem Packed.move_up {k : Sx} {g : BitVec 4} {p : Nat} {b : Buf .ump} {l : List k.Byte}
    {dbg : Bool} (P : Packed k g p b l) (t : dbg = true → k.isCompact b = true) {tail to : Nat}
    (h1 : tail < to) (h2 : to ≤ l.length) :
    ∃ b', k.moveTail dbg b tail to = .ok b' ∧ SameHeads k b b' ∧
      Packed k g p b' (l.take to ++ (l.drop tail).take (l.length - to)) := by
  obtain ⟨b', e1, e2, e3, e4⟩ := copyUp k tail (to - tail) (l.length - (to - tail) - tail) b
    (by omega) (fun i hi => P.addr_lt (by omega))
  have hs : SameHeads k b b' := by
    refine ⟨e2, fun x hx => e4 x (fun i _ _ => hx _), septets_copy fun x => ?_⟩
    by_cases hx : ∃ i, tail ≤ i ∧ i < tail + (l.length - (to - tail) - tail) ∧ x = k.addr (i + (to - tail))
    · obtain ⟨i, h1, h2, rfl⟩ := hx
      exact ⟨_, e3 i h1 h2⟩
    · exact ⟨x, e4 x fun i h1 h2 e => hx ⟨i, h1, h2, e⟩⟩
  refine ⟨b', ?_, hs, ?_⟩
  · unfold moveTail
    have : Res.assert (!dbg || k.isCompact b) = .ok () := by
      cases dbg with
      | false => rfl
      | true => rw [t rfl]; rfl
    rw [this, P.payloadSize_eq]
    simp only [Res.ok_bind]
    rw [if_pos h1, usub_ok (by omega)]
    exact e1
  · apply hs.packed P
    · simp only [List.length_append, List.length_take, List.length_drop]; omega
    · intro i hi
      simp only [List.length_append, List.length_take, List.length_drop] at hi
      by_cases h : i < to
      · rw [e4 _ (by intro j hj _ e; have := k.addr_inj e; omega), P.bytes i (by omega),
          List.getElem?_append_left (by simp; omega), List.getElem?_take_of_lt h]
      · have := e3 (i - (to - tail)) (by omega) (by omega)
        rw [show i - (to - tail) + (to - tail) = i by omega] at this
        rw [this, P.bytes _ (by omega), List.getElem?_append_right (by simp; omega),
          List.length_take, Nat.min_eq_left h2, List.getElem?_take_of_lt (by omega),
          List.getElem?_drop]
        congr 1; omega

theorem Packed.move_down {k : Sx} {g : BitVec 4} {p : Nat} {b : Buf .ump} {l : List k.Byte}
    {dbg : Bool} (P : Packed k g p b l) (t : dbg = true → k.isCompact b = true) {tail to : Nat}
    (h1 : to < tail) (h2 : tail ≤ l.length) :
    ∃ b', k.moveTail dbg b tail to = .ok b' ∧ SameHeads k b b' ∧
      Packed k g p b' (l.take to ++ l.drop tail ++ l.drop (to + (l.length - tail))) := by
  obtain ⟨b', e1, e2, e3, e4⟩ := copyDown k (tail - to) (l.length - tail) tail b
    (by omega) (by omega) (fun i hi => P.addr_lt (by omega))
  have hs : SameHeads k b b' := by
    refine ⟨e2, fun x hx => e4 x (fun i _ _ => hx _), septets_copy fun x => ?_⟩
    by_cases hx : ∃ i, tail ≤ i ∧ i < tail + (l.length - tail) ∧ x = k.addr (i - (tail - to))
    · obtain ⟨i, h1, h2, rfl⟩ := hx
      exact ⟨_, e3 i h1 h2⟩
    · exact ⟨x, e4 x fun i h1 h2 e => hx ⟨i, h1, h2, e⟩⟩
  refine ⟨b', ?_, hs, ?_⟩
  · unfold moveTail
    have : Res.assert (!dbg || k.isCompact b) = .ok () := by
      cases dbg with
      | false => rfl
      | true => rw [t rfl]; rfl
    rw [this, P.payloadSize_eq]
    simp only [Res.ok_bind]
    rw [if_neg (by omega), if_pos h1]
    exact e1
  · apply hs.packed P
    · simp only [List.length_append, List.length_take, List.length_drop]; omega
    · intro i hi
      simp only [List.length_append, List.length_take, List.length_drop] at hi
      by_cases h : i < to
      · rw [e4 _ (by intro j hj _ e; have := k.addr_inj e; omega), P.bytes i (by omega),
          List.append_assoc, List.getElem?_append_left (by simp; omega),
          List.getElem?_take_of_lt h]
      · by_cases h' : i < to + (l.length - tail)
        · have := e3 (i + (tail - to)) (by omega) (by omega)
          rw [show i + (tail - to) - (tail - to) = i by omega] at this
          rw [this, P.bytes _ (by omega), List.getElem?_append_left (by simp; omega),
            List.getElem?_append_right (by simp; omega), List.getElem?_drop, List.length_take,
            Nat.min_eq_left (by omega)]
          congr 1; omega
        · rw [e4 _ (by intro j hj _ e; have := k.addr_inj e; omega), P.bytes i (by omega),
            List.getElem?_append_right (by simp; omega), List.getElem?_drop]
          congr 1
          simp only [List.length_append, List.length_take, List.length_drop]
          omega

theorem Packed.move_same {k : Sx} {g : BitVec 4} {p : Nat} {b : Buf .ump} {l : List k.Byte}
    {dbg : Bool} (P : Packed k g p b l) (t : dbg = true → k.isCompact b = true) (i : Nat) :
    k.moveTail dbg b i i = .ok b := by
  unfold moveTail
  have : Res.assert (!dbg || k.isCompact b) = .ok () := by
    cases dbg with
    | false => rfl
    | true => rw [t rfl]; rfl
  rw [this, P.payloadSize_eq]
  simp

theorem Packed.write {k : Sx} {g : BitVec 4} {p : Nat} {b : Buf .ump} {l : List k.Byte}
    (P : Packed k g p b l) (v : k.Byte) {i : Nat} (h : i < l.length) :
    ∃ b', k.writeDatum b v i = .ok b' ∧ SameHeads k b b' ∧ Packed k g p b' (l.set i v) := by
  obtain ⟨b', e1, e2, e3, o, e4, e5, e6⟩ := k.modify_byte (P.addr_lt h) v
  have hs : SameHeads k b b' := by
    refine ⟨e2, fun x hx => e3 x (hx i), fun hb hk a o' ho => ?_⟩
    by_cases ha : a = k.addr i
    · subst ha
      rw [e4] at ho
      cases ho
      have := octetAt_lt (P.addr_lt h)
      exact e6 hk _ this (hb hk _ _ this)
    · rw [e3 a ha] at ho
      exact hb hk a o' ho
  refine ⟨b', ?_, hs, ?_⟩
  · unfold writeDatum
    have d1 : k.stride * (i / k.cap) + (i % k.cap + k.off) / 4 = k.addr i / 4 := by
      rw [addr_eq]; omega
    have d2 : (i % k.cap + k.off) % 4 = k.addr i % 4 := by rw [addr_eq]; omega
    rw [d1, d2]
    exact e1
  · apply hs.packed P (by simp)
    intro j hj
    rw [List.length_set] at hj
    rw [List.getElem?_set]
    by_cases hji : i = j
    · subst hji
      rw [if_pos rfl, if_pos hj, e4]
      simp [e5]
    · rw [if_neg hji, e3 _ (by intro e; exact hji (k.addr_inj e).symm), P.bytes j hj]

end Sx

end Midi2
