import Verif.Lemmas.BitOps
import Verif.Spec.Bits

/-!
# C41, C42: bit accessors and 7-bit encodings
-/

namespace Midi2

/-! ## C42 -/

theorem isFieldAt_ins {n m pos : Nat} (h : pos + m ≤ n) :
    IsFieldAt (n := n) (m := m) pos (fun w => w.extractLsb' (n - m - pos) m)
      (fun w v => ins w (n - m - pos) v) := by
  constructor
  · intro w k hk
    simp only [BitVec.getMsbD_eq_getLsbD, getLsbD_ext]
    have h1 : m - 1 - k < m := by omega
    have h2 : pos + k < n := by omega
    have h3 : n - m - pos + (m - 1 - k) = n - 1 - (pos + k) := by omega
    simp [hk, h1, h2, h3]
  · intro w v k hk
    simp only [BitVec.getMsbD_eq_getLsbD, getLsbD_ins]
    have h1 : n - 1 - k < n := by omega
    by_cases hp : pos ≤ k ∧ k < pos + m
    · have h2 : n - m - pos ≤ n - 1 - k ∧ n - 1 - k < n - m - pos + m := by omega
      have h3 : n - 1 - k - (n - m - pos) = m - 1 - (k - pos) := by omega
      have h4 : k - pos < m := by omega
      simp [hk, h1, h2, h3, h4, hp]
    · have h2 : ¬ (n - m - pos ≤ n - 1 - k ∧ n - 1 - k < n - m - pos + m) := by omega
      rw [if_neg h2, if_neg hp]; simp [hk, h1]

theorem isFieldAt_congr {n m pos : Nat} {get get' : BitVec n → BitVec m}
    {set set' : BitVec n → BitVec m → BitVec n} (h : IsFieldAt pos get set)
    (hg : ∀ w, get' w = get w) (hs : ∀ w v, set' w v = set w v) : IsFieldAt pos get' set' := by
  constructor
  · intro w k hk; rw [hg]; exact h.1 w k hk
  · intro w v k hk; rw [hs]; exact h.2 w v k hk

theorem isFieldAt_of {n m pos s : Nat} (h : pos + m ≤ n) (e : s = n - m - pos)
    {get : BitVec n → BitVec m} {set : BitVec n → BitVec m → BitVec n}
    (hg : ∀ w, get w = w.extractLsb' s m) (hs : ∀ w v, set w v = ins w s v) :
    IsFieldAt pos get set := by
  subst e
  exact isFieldAt_congr (isFieldAt_ins h) hg hs

theorem ofBool_getLsbD {n : Nat} (w : BitVec n) (s : Nat) :
    BitVec.ofBool (w.getLsbD s) = w.extractLsb' s 1 := by
  apply BitVec.eq_of_getLsbD_eq
  intro k hk
  have : k = 0 := by omega
  subst this
  simp [getLsbD_ext]

/-- C42: the accessors of a 32-bit word are fields at the positions `i`, `2i`, `4i`,
`8i` (+1 for septets, which skip the top bit of the octet) and `16i` counted from the
most significant bit. -/
theorem C42_u32_positions :
    (∀ i, i < 32 → IsFieldAt i (fun w => BitVec.ofBool (U32.bit w i))
      (fun w v => U32.setBit w i (v.getLsbD 0))) ∧
    (∀ i, i < 16 → IsFieldAt (2 * i) (U32.crumb · i) (U32.setCrumb · i)) ∧
    (∀ i, i < 8 → IsFieldAt (4 * i) (U32.nibble · i) (U32.setNibble · i)) ∧
    (∀ i, i < 4 → IsFieldAt (8 * i + 1) (U32.septet · i) (U32.setSeptet · i)) ∧
    (∀ i, i < 4 → IsFieldAt (8 * i) (U32.octet · i) (U32.setOctet · i)) ∧
    (∀ i, i < 2 → IsFieldAt (16 * i) (U32.word · i) (U32.setWord · i)) := by
  refine ⟨?_, ?_, ?_, ?_, ?_, ?_⟩
  · intro i hi
    refine isFieldAt_of (s := 31 - i) (by omega) (by omega) (fun w => ?_) (fun w v => ?_)
    · rw [U32.bit_eq, ofBool_getLsbD]
    · rw [U32.setBit_eq, ofBool_getLsbD]; congr 1; exact BitVec.extractLsb'_eq_self
  · intro i hi
    exact isFieldAt_of (s := 30 - i * 2) (by omega) (by omega) (fun w => U32.crumb_eq w i)
      (fun w v => U32.setCrumb_eq w i v)
  · intro i hi
    exact isFieldAt_of (s := 28 - i * 4) (by omega) (by omega) (fun w => U32.nibble_eq w i)
      (fun w v => U32.setNibble_eq w i v)
  · intro i hi
    exact isFieldAt_of (s := 24 - i * 8) (by omega) (by omega) (fun w => U32.septet_eq w i)
      (fun w v => U32.setSeptet_eq w i v)
  · intro i hi
    exact isFieldAt_of (s := 24 - i * 8) (by omega) (by omega) (fun w => U32.octet_eq w i)
      (fun w v => U32.setOctet_eq w i v)
  · intro i hi
    exact isFieldAt_of (s := 16 - i * 16) (by omega) (by omega) (fun w => U32.word_eq w i)
      (fun w v => U32.setWord_eq w i v)

/-- C42: the accessors of bytes and septets. -/
theorem C42_u8_u7_positions :
    (∀ i, i < 8 → IsFieldAt i (fun w => BitVec.ofBool (U8.bit w i))
      (fun w v => U8.setBit w i (v.getLsbD 0))) ∧
    (∀ i, i < 2 → IsFieldAt (4 * i) (U8.nibble · i) (U8.setNibble · i)) ∧
    IsFieldAt 1 U8.septet U8.setSeptet ∧
    (∀ i, i < 7 → IsFieldAt i (fun w => BitVec.ofBool (U7.bit w i))
      (fun w v => U7.setBit w i (v.getLsbD 0))) := by
  refine ⟨?_, ?_, ?_, ?_⟩
  · intro i hi
    refine isFieldAt_of (s := 7 - i) (by omega) (by omega) (fun w => ?_) (fun w v => ?_)
    · rw [U8.bit_eq, ofBool_getLsbD]
    · rw [U8.setBit_eq, ofBool_getLsbD]; congr 1; exact BitVec.extractLsb'_eq_self
  · intro i hi
    exact isFieldAt_of (s := 4 - i * 4) (by omega) (by omega) (fun w => U8.nibble_eq w i)
      (fun w v => U8.setNibble_eq w i v)
  · exact isFieldAt_of (s := 0) (by omega) (by omega) U8.septet_eq U8.setSeptet_eq
  · intro i hi
    refine isFieldAt_of (s := 6 - i) (by omega) (by omega) (fun w => ?_) (fun w v => ?_)
    · rw [U7.bit_eq, ofBool_getLsbD]
    · rw [U7.setBit_eq, ofBool_getLsbD]; congr 1; exact BitVec.extractLsb'_eq_self

example : U8.nibble 0xA5 1 = 5 ∧ U8.setNibble 0xA5 0 3 = 0x35 ∧ U7.bit 0x40 0 = true := by decide

/-- C42: every field obeys the get/set laws. -/
theorem C42_get_set_laws {n m pos : Nat} {get : BitVec n → BitVec m}
    {set : BitVec n → BitVec m → BitVec n} (h : IsFieldAt pos get set) (hn : pos + m ≤ n) :
    (∀ w v, get (set w v) = v) ∧ (∀ w, set w (get w) = w) ∧
    (∀ w v v', set (set w v) v' = set w v') := by
  refine ⟨fun w v => ?_, fun w => ?_, fun w v v' => ?_⟩
  · apply BitVec.eq_of_getMsbD_eq
    intro k hk
    rw [h.1 _ _ hk, h.2 _ _ _ (by omega), if_pos (by omega), Nat.add_sub_cancel_left]
  · apply BitVec.eq_of_getMsbD_eq
    intro k hk
    rw [h.2 _ _ _ hk]
    split
    · next hp => rw [h.1 _ _ (by omega), Nat.add_sub_cancel' hp.1]
    · rfl
  · apply BitVec.eq_of_getMsbD_eq
    intro k hk
    rw [h.2 _ _ _ hk, h.2 _ _ _ hk, h.2 _ _ _ hk]
    split <;> rfl

/-- C42: fields at disjoint positions do not see each other and their setters commute. -/
theorem C42_disjoint {n m m' pos pos' : Nat} {get : BitVec n → BitVec m}
    {set : BitVec n → BitVec m → BitVec n} {get' : BitVec n → BitVec m'}
    {set' : BitVec n → BitVec m' → BitVec n} (h : IsFieldAt pos get set)
    (h' : IsFieldAt pos' get' set') (hn : pos' + m' ≤ n)
    (hd : pos + m ≤ pos' ∨ pos' + m' ≤ pos) :
    (∀ w v, get' (set w v) = get' w) ∧ (∀ w v v', set (set' w v') v = set' (set w v) v') := by
  refine ⟨fun w v => ?_, fun w v v' => ?_⟩
  · apply BitVec.eq_of_getMsbD_eq
    intro k hk
    rw [h'.1 _ _ hk, h'.1 _ _ hk, h.2 _ _ _ (by omega), if_neg (by omega)]
  · apply BitVec.eq_of_getMsbD_eq
    intro k hk
    rw [h.2 _ _ _ hk, h'.2 _ _ _ hk, h'.2 _ _ _ hk, h.2 _ _ _ hk]
    split
    · rw [if_neg (by omega)]
    · rfl

/-- The laws apply to concrete accessors: nibble 3 of a word full of ones. -/
example : U32.nibble (U32.setNibble 0xFFFFFFFF 3 0x5) 3 = 0x5 :=
  (C42_get_set_laws (C42_u32_positions.2.2.1 3 (by omega)) (by omega)).1 _ _

example : U32.octet (U32.setNibble 0xFFFFFFFF 3 0x5) 2 = 0xFF :=
  (C42_disjoint (C42_u32_positions.2.2.1 3 (by omega)) (C42_u32_positions.2.2.2.2.1 2 (by omega))
    (by omega) (by omega)).1 _ _

/-! ## C41 -/

/-- The two byte types: decoding looks at the low seven bits of what was stored. -/
class LawfulByte (T : Type) [Byte T] : Prop where
  to_from : ∀ x : BitVec 8, (Byte.toU8 (Byte.fromU8 x : T)) &&& 0x7F#8 = x &&& 0x7F#8

theorem and7F_idem (x : BitVec 8) : x &&& 0x7F#8 &&& 0x7F#8 = x &&& 0x7F#8 := by
  rw [BitVec.and_assoc]; rfl

theorem mask7_setWidth (x : BitVec 8) : ((x &&& 0x7F#8).setWidth 7).setWidth 8 = x &&& 0x7F#8 := by
  apply BitVec.eq_of_getLsbD_eq
  intro k hk
  simp only [BitVec.getLsbD_setWidth, BitVec.getLsbD_and, hk, decide_true, Bool.true_and]
  by_cases h7 : k < 7
  · simp [h7]
  · have : k = 7 := by omega
    subst this; simp

instance : LawfulByte (BitVec 7) where
  to_from x := by
    show ((x &&& 0x7F#8).setWidth 7).setWidth 8 &&& 0x7F#8 = _
    rw [mask7_setWidth, and7F_idem]

instance : LawfulByte (BitVec 8) where
  to_from x := by
    show x &&& 0x7F#8 &&& 0x7F#8 &&& 0x7F#8 = _
    rw [and7F_idem, and7F_idem]

/-- Low seven bits of a byte, as a number. -/
def low7 {T : Type} [Byte T] (x : T) : Nat := (Byte.toU8 x).toNat % 128

theorem and7F_toNat (x : BitVec 8) : (x &&& 0x7F#8).toNat = x.toNat % 128 := by
  rw [BitVec.toNat_and]
  exact Nat.and_two_pow_sub_one_eq_mod x.toNat 7

theorem low7_fromU8 {T : Type} [Byte T] [LawfulByte T] (x : BitVec 8) :
    low7 (Byte.fromU8 x : T) = x.toNat % 128 := by
  unfold low7
  rw [← and7F_toNat, LawfulByte.to_from, and7F_toNat]

theorem or_shift_toNat {w n : Nat} (a : BitVec w) (b : BitVec 8) (s : Nat) (hs : s + 7 ≤ w)
    (ha : a.toNat < 2 ^ s) (hb : b.toNat < 128) (hn : s = n) :
    (a ||| (b.setWidth w <<< s)).toNat = a.toNat + 2 ^ n * b.toNat := by
  subst hn
  have h7 : 2 ^ s * 128 ≤ 2 ^ w := by
    have : 2 ^ s * 128 = 2 ^ (s + 7) := by rw [Nat.pow_add]
    rw [this]; exact Nat.pow_le_pow_right (by omega) hs
  have h1 : 2 ^ s ≥ 1 := Nat.one_le_two_pow
  have hb' : b.toNat < 2 ^ w := by
    have : 128 ≤ 2 ^ s * 128 := by omega
    omega
  have hlt : 2 ^ s * b.toNat < 2 ^ w := by
    have : 2 ^ s * b.toNat < 2 ^ s * 128 := Nat.mul_lt_mul_of_pos_left hb (by omega)
    omega
  rw [BitVec.toNat_or, BitVec.toNat_shiftLeft, BitVec.toNat_setWidth, Nat.mod_eq_of_lt hb',
    Nat.shiftLeft_eq, Nat.mul_comm, Nat.mod_eq_of_lt hlt, Nat.or_comm,
    ← Nat.two_pow_add_eq_or_of_lt ha, Nat.add_comm]

/-- C41: the 14-bit decoder is little-endian base 128 of the low seven bits. -/
theorem C41_u14_value {T : Type} [Byte T] (a b : T) :
    (u14FromU7s a b).toNat = low7 a + 128 * low7 b := by
  unfold u14FromU7s low7
  rw [← and7F_toNat, ← and7F_toNat]
  have hx := and7F_toNat (Byte.toU8 a)
  have hy := and7F_toNat (Byte.toU8 b)
  generalize Byte.toU8 a &&& 0x7F#8 = x at *
  generalize Byte.toU8 b &&& 0x7F#8 = y at *
  have e : (0#14 ||| x.setWidth 14).toNat = x.toNat := by simp; omega
  rw [or_shift_toNat (n := 7) _ _ _ (by omega) (by rw [e]; omega) (by omega) rfl, e]

example : u14FromU7s (0x82 : BitVec 8) 3 = 2 + 128 * 3 := by decide

theorem C41_u21_value {T : Type} [Byte T] (a b c : T) :
    (u21FromU7s a b c).toNat = low7 a + 128 * low7 b + 128 ^ 2 * low7 c := by
  unfold u21FromU7s low7
  rw [← and7F_toNat, ← and7F_toNat, ← and7F_toNat]
  have hx := and7F_toNat (Byte.toU8 a)
  have hy := and7F_toNat (Byte.toU8 b)
  have hz := and7F_toNat (Byte.toU8 c)
  generalize Byte.toU8 a &&& 0x7F#8 = x at *
  generalize Byte.toU8 b &&& 0x7F#8 = y at *
  generalize Byte.toU8 c &&& 0x7F#8 = z at *
  have e : (0#21 ||| x.setWidth 21).toNat = x.toNat := by simp; omega
  have e1 := or_shift_toNat (n := 7) (0#21 ||| x.setWidth 21) y 7 (by omega) (by rw [e]; omega)
    (by omega) rfl
  rw [or_shift_toNat (n := 14) _ _ _ (by omega) (by rw [e1, e]; omega) (by omega) rfl, e1, e]

example : u21FromU7s (2 : BitVec 7) 3 4 = 2 + 128 * 3 + 16384 * 4 := by decide

theorem C41_u28_value {T : Type} [Byte T] (a b c d : T) :
    (u28FromU7s a b c d).toNat =
      low7 a + 128 * low7 b + 128 ^ 2 * low7 c + 128 ^ 3 * low7 d := by
  unfold u28FromU7s low7
  rw [← and7F_toNat, ← and7F_toNat, ← and7F_toNat, ← and7F_toNat]
  have hx := and7F_toNat (Byte.toU8 a)
  have hy := and7F_toNat (Byte.toU8 b)
  have hz := and7F_toNat (Byte.toU8 c)
  have ht := and7F_toNat (Byte.toU8 d)
  generalize Byte.toU8 a &&& 0x7F#8 = x at *
  generalize Byte.toU8 b &&& 0x7F#8 = y at *
  generalize Byte.toU8 c &&& 0x7F#8 = z at *
  generalize Byte.toU8 d &&& 0x7F#8 = t at *
  have e : (0#28 ||| x.setWidth 28).toNat = x.toNat := by simp; omega
  have e1 := or_shift_toNat (n := 7) (0#28 ||| x.setWidth 28) y 7 (by omega) (by rw [e]; omega)
    (by omega) rfl
  have e2 := or_shift_toNat (n := 14) _ z 14 (by omega)
    (show ((0#28 ||| x.setWidth 28) ||| (y.setWidth 28 <<< 7)).toNat < _ by rw [e1, e]; omega)
    (by omega) rfl
  rw [or_shift_toNat (n := 21) _ _ _ (by omega) (by rw [e2, e1, e]; omega) (by omega) rfl,
    e2, e1, e]

example : u28FromU7s (2 : BitVec 7) 3 4 5 = 2 + 128 * 3 + 16384 * 4 + 2097152 * 5 := by decide

theorem byte_of (v : Nat) {n : Nat} (h : 8 ≤ n) (w : BitVec n) (s : Nat) (hw : w.toNat = v) :
    ((w >>> s).setWidth 8).toNat % 128 = v / 2 ^ s % 128 := by
  subst hw
  simp only [BitVec.toNat_setWidth, BitVec.toNat_ushiftRight, Nat.shiftRight_eq_div_pow]
  omega

/-- C41: encoding, over either byte type, yields the base-128 digits, least significant
first. -/
theorem C41_u14_digits (T : Type) [Byte T] [LawfulByte T] (x : BitVec 14) :
    low7 (u14ToU7s T x).1 = x.toNat % 128 ∧ low7 (u14ToU7s T x).2 = x.toNat / 128 := by
  have hx := x.isLt
  have e : (x.setWidth 16).toNat = x.toNat := by simp; omega
  refine ⟨?_, ?_⟩
  · show low7 (Byte.fromU8 ((x.setWidth 16).setWidth 8) : T) = _
    rw [low7_fromU8, BitVec.toNat_setWidth, e]; omega
  · show low7 (Byte.fromU8 ((x.setWidth 16 >>> 7).setWidth 8) : T) = _
    rw [low7_fromU8, byte_of x.toNat (by omega) _ 7 e]; omega

example : low7 (u14ToU7s (BitVec 8) 0x1234).1 = 0x34 ∧ low7 (u14ToU7s (BitVec 8) 0x1234).2 = 0x24 :=
  C41_u14_digits (BitVec 8) 0x1234

theorem C41_u21_digits (T : Type) [Byte T] [LawfulByte T] (x : BitVec 21) :
    low7 (u21ToU7s T x).1 = x.toNat % 128 ∧ low7 (u21ToU7s T x).2.1 = x.toNat / 128 % 128 ∧
    low7 (u21ToU7s T x).2.2 = x.toNat / 128 ^ 2 := by
  have hx := x.isLt
  have e : (x.setWidth 32).toNat = x.toNat := by simp; omega
  refine ⟨?_, ?_, ?_⟩
  · show low7 (Byte.fromU8 ((x.setWidth 32).setWidth 8) : T) = _
    rw [low7_fromU8, BitVec.toNat_setWidth, e]; omega
  · show low7 (Byte.fromU8 ((x.setWidth 32 >>> 7).setWidth 8) : T) = _
    rw [low7_fromU8, byte_of x.toNat (by omega) _ 7 e]
  · show low7 (Byte.fromU8 ((x.setWidth 32 >>> 14).setWidth 8) : T) = _
    rw [low7_fromU8, byte_of x.toNat (by omega) _ 14 e]; omega

example : low7 (u21ToU7s (BitVec 7) 0x12345).1 = 0x45 ∧ low7 (u21ToU7s (BitVec 7) 0x12345).2.1 = 0x46 ∧
    low7 (u21ToU7s (BitVec 7) 0x12345).2.2 = 4 := C41_u21_digits (BitVec 7) 0x12345

theorem C41_u28_digits (T : Type) [Byte T] [LawfulByte T] (x : BitVec 28) :
    low7 (u28ToU7s T x).1 = x.toNat % 128 ∧ low7 (u28ToU7s T x).2.1 = x.toNat / 128 % 128 ∧
    low7 (u28ToU7s T x).2.2.1 = x.toNat / 128 ^ 2 % 128 ∧
    low7 (u28ToU7s T x).2.2.2 = x.toNat / 128 ^ 3 := by
  have hx := x.isLt
  have e : (x.setWidth 32).toNat = x.toNat := by simp; omega
  refine ⟨?_, ?_, ?_, ?_⟩
  · show low7 (Byte.fromU8 ((x.setWidth 32).setWidth 8) : T) = _
    rw [low7_fromU8, BitVec.toNat_setWidth, e]; omega
  · show low7 (Byte.fromU8 ((x.setWidth 32 >>> 7).setWidth 8) : T) = _
    rw [low7_fromU8, byte_of x.toNat (by omega) _ 7 e]
  · show low7 (Byte.fromU8 ((x.setWidth 32 >>> 14).setWidth 8) : T) = _
    rw [low7_fromU8, byte_of x.toNat (by omega) _ 14 e]
  · show low7 (Byte.fromU8 ((x.setWidth 32 >>> 21).setWidth 8) : T) = _
    rw [low7_fromU8, byte_of x.toNat (by omega) _ 21 e]; omega

example : low7 (u28ToU7s (BitVec 7) 0xABCDEF1).1 = 0x71 ∧
    low7 (u28ToU7s (BitVec 7) 0xABCDEF1).2.1 = 0x3D ∧
    low7 (u28ToU7s (BitVec 7) 0xABCDEF1).2.2.1 = 0x73 ∧
    low7 (u28ToU7s (BitVec 7) 0xABCDEF1).2.2.2 = 0x55 := C41_u28_digits (BitVec 7) 0xABCDEF1

/-- C41: decode after encode is the identity, for both byte types. -/
theorem C41_decode_encode (T : Type) [Byte T] [LawfulByte T] :
    (∀ x : BitVec 14, u14FromU7s (u14ToU7s T x).1 (u14ToU7s T x).2 = x) ∧
    (∀ x : BitVec 21,
      u21FromU7s (u21ToU7s T x).1 (u21ToU7s T x).2.1 (u21ToU7s T x).2.2 = x) ∧
    (∀ x : BitVec 28, u28FromU7s (u28ToU7s T x).1 (u28ToU7s T x).2.1 (u28ToU7s T x).2.2.1
      (u28ToU7s T x).2.2.2 = x) := by
  refine ⟨fun x => ?_, fun x => ?_, fun x => ?_⟩
  · obtain ⟨h1, h2⟩ := C41_u14_digits T x
    apply BitVec.eq_of_toNat_eq
    rw [C41_u14_value, h1, h2]; omega
  · obtain ⟨h1, h2, h3⟩ := C41_u21_digits T x
    apply BitVec.eq_of_toNat_eq
    rw [C41_u21_value, h1, h2, h3]; omega
  · obtain ⟨h1, h2, h3, h4⟩ := C41_u28_digits T x
    apply BitVec.eq_of_toNat_eq
    rw [C41_u28_value, h1, h2, h3, h4]; omega

example : u14FromU7s (u14ToU7s (BitVec 7) 0x1234).1 (u14ToU7s (BitVec 7) 0x1234).2 = 0x1234 :=
  (C41_decode_encode (BitVec 7)).1 0x1234

theorem u7_ext {a b : BitVec 7} (h : low7 a = low7 b) : a = b := by
  apply BitVec.eq_of_toNat_eq
  have ha := a.isLt
  have hb := b.isLt
  have : ∀ x : BitVec 7, low7 x = x.toNat := by
    intro x
    have := x.isLt
    show (x.setWidth 8).toNat % 128 = _
    simp; omega
  rw [this, this] at h; exact h

/-- C41: encode after decode gives the septets back. -/
theorem C41_encode_decode :
    (∀ a b : BitVec 7, u14ToU7s (BitVec 7) (u14FromU7s a b) = (a, b)) ∧
    (∀ a b c : BitVec 7, u21ToU7s (BitVec 7) (u21FromU7s a b c) = (a, b, c)) ∧
    (∀ a b c d : BitVec 7, u28ToU7s (BitVec 7) (u28FromU7s a b c d) = (a, b, c, d)) := by
  have hlt : ∀ x : BitVec 7, low7 x < 128 := fun x => Nat.mod_lt _ (by omega)
  refine ⟨fun a b => ?_, fun a b c => ?_, fun a b c d => ?_⟩
  · obtain ⟨h1, h2⟩ := C41_u14_digits (BitVec 7) (u14FromU7s a b)
    rw [C41_u14_value] at h1 h2
    have := hlt a; have := hlt b
    exact Prod.ext (u7_ext (by dsimp only; omega)) (u7_ext (by dsimp only; omega))
  · obtain ⟨h1, h2, h3⟩ := C41_u21_digits (BitVec 7) (u21FromU7s a b c)
    rw [C41_u21_value] at h1 h2 h3
    have := hlt a; have := hlt b; have := hlt c
    exact Prod.ext (u7_ext (by dsimp only; omega)) (Prod.ext (u7_ext (by dsimp only; omega)) (u7_ext (by dsimp only; omega)))
  · obtain ⟨h1, h2, h3, h4⟩ := C41_u28_digits (BitVec 7) (u28FromU7s a b c d)
    rw [C41_u28_value] at h1 h2 h3 h4
    have := hlt a; have := hlt b; have := hlt c; have := hlt d
    exact Prod.ext (u7_ext (by dsimp only; omega)) (Prod.ext (u7_ext (by dsimp only; omega))
      (Prod.ext (u7_ext (by dsimp only; omega)) (u7_ext (by dsimp only; omega))))

example : u14ToU7s (BitVec 7) 0x1234 = (0x34, 0x24) := by decide

/-- C41: decoding bytes ignores their top bit. -/
theorem C41_top_bit_ignored (a b c d a' b' c' d' : BitVec 8)
    (ha : a.toNat % 128 = a'.toNat % 128) (hb : b.toNat % 128 = b'.toNat % 128)
    (hc : c.toNat % 128 = c'.toNat % 128) (hd : d.toNat % 128 = d'.toNat % 128) :
    u14FromU7s a b = u14FromU7s a' b' ∧ u21FromU7s a b c = u21FromU7s a' b' c' ∧
    u28FromU7s a b c d = u28FromU7s a' b' c' d' := by
  have h : ∀ x y : BitVec 8, x.toNat % 128 = y.toNat % 128 → low7 x = low7 y := by
    intro x y hxy
    show (x &&& 0x7F#8).toNat % 128 = (y &&& 0x7F#8).toNat % 128
    rw [and7F_toNat, and7F_toNat, hxy]
  refine ⟨?_, ?_, ?_⟩ <;> apply BitVec.eq_of_toNat_eq
  · rw [C41_u14_value, C41_u14_value, h _ _ ha, h _ _ hb]
  · rw [C41_u21_value, C41_u21_value, h _ _ ha, h _ _ hb, h _ _ hc]
  · rw [C41_u28_value, C41_u28_value, h _ _ ha, h _ _ hb, h _ _ hc, h _ _ hd]

/-- Concrete values. -/
example : u14ToU7s (BitVec 7) 0x1234 = (0x34, 0x24) ∧ u28FromU7s 0x81#8 0x00#8 0x00#8 0x81#8 = 0x200001 := by
  decide

end Midi2
