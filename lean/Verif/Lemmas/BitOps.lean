import Verif.Model.BitOps

/-! Bit-level characterisation of the accessors of `Verif.Model.BitOps`. -/

namespace Midi2

/-- Generic form of the setters: put `v` at bits `s ..< s+m` of `w`. -/
def ins {n m : Nat} (w : BitVec n) (s : Nat) (v : BitVec m) : BitVec n :=
  (w &&& ~~~((BitVec.allOnes m).setWidth n <<< s)) ||| (v.setWidth n <<< s)

theorem getLsbD_ins {n m : Nat} (w : BitVec n) (s : Nat) (v : BitVec m) (k : Nat) :
    (ins w s v).getLsbD k =
      (decide (k < n) && if s ≤ k ∧ k < s + m then v.getLsbD (k - s) else w.getLsbD k) := by
  unfold ins
  simp only [BitVec.getLsbD_or, BitVec.getLsbD_and, BitVec.getLsbD_not, BitVec.getLsbD_shiftLeft,
    BitVec.getLsbD_setWidth, BitVec.getLsbD_allOnes]
  by_cases hk : k < n
  · by_cases hs : s ≤ k
    · have h1 : k - s < n := by omega
      have h4 : ¬ k < s := by omega
      by_cases hm : k < s + m
      · have h2 : k - s < m := by omega
        simp [hk, hs, hm, h1, h2, h4]
      · have h2 : ¬ k - s < m := by omega
        have h3 : v.getLsbD (k - s) = false := BitVec.getLsbD_of_ge _ _ (by omega)
        simp [hk, hs, hm, h2, h3, h4]
    · have h4 : k < s := by omega
      simp [hk, hs, h4]
  · simp [hk]

/-- Generic form of the getters: bits `s ..< s+m` of `w`. -/
theorem getLsbD_ext {n m : Nat} (w : BitVec n) (s k : Nat) :
    (w.extractLsb' s m).getLsbD k = (decide (k < m) && w.getLsbD (s + k)) := by
  simp [BitVec.getLsbD_extractLsb']

theorem ext_ins_same {n m : Nat} (w : BitVec n) (s : Nat) (v : BitVec m) (h : s + m ≤ n) :
    (ins w s v).extractLsb' s m = v := by
  apply BitVec.eq_of_getLsbD_eq
  intro k hk
  rw [getLsbD_ext, getLsbD_ins]
  have : s + k < n := by omega
  simp [hk, this]

theorem ext_ins_disjoint {n m m' : Nat} (w : BitVec n) (s s' : Nat) (v : BitVec m)
    (h : s + m ≤ s' ∨ s' + m' ≤ s) :
    (ins w s v).extractLsb' s' m' = w.extractLsb' s' m' := by
  apply BitVec.eq_of_getLsbD_eq
  intro k hk
  rw [getLsbD_ext, getLsbD_ext, getLsbD_ins]
  by_cases hn : s' + k < n
  · have : ¬ (s ≤ s' + k ∧ s' + k < s + m) := by omega
    simp [hk, hn, this]
  · have : w.getLsbD (s' + k) = false := BitVec.getLsbD_of_ge _ _ (by omega)
    simp [hn, this]

theorem ins_ext_self {n : Nat} (w : BitVec n) (s m : Nat) : ins w s (w.extractLsb' s m) = w := by
  apply BitVec.eq_of_getLsbD_eq
  intro k hk
  rw [getLsbD_ins, getLsbD_ext]
  by_cases h : s ≤ k ∧ k < s + m
  · have : k - s < m := by omega
    have e : s + (k - s) = k := by omega
    simp [hk, h, this, e]
  · simp [hk, h]

theorem ins_ins_same {n m : Nat} (w : BitVec n) (s : Nat) (v v' : BitVec m) :
    ins (ins w s v) s v' = ins w s v' := by
  apply BitVec.eq_of_getLsbD_eq
  intro k hk
  simp only [getLsbD_ins]
  by_cases h : s ≤ k ∧ k < s + m <;> simp [hk, h]

theorem ins_ins_comm {n m m' : Nat} (w : BitVec n) (s s' : Nat) (v : BitVec m) (v' : BitVec m')
    (h : s + m ≤ s' ∨ s' + m' ≤ s) :
    ins (ins w s v) s' v' = ins (ins w s' v') s v := by
  apply BitVec.eq_of_getLsbD_eq
  intro k hk
  simp only [getLsbD_ins]
  by_cases h1 : s ≤ k ∧ k < s + m <;> by_cases h2 : s' ≤ k ∧ k < s' + m' <;> simp [hk, h1, h2]
  omega

theorem ext_eq {n m : Nat} (w : BitVec n) (s : Nat) (mask : BitVec n)
    (hm : mask = (BitVec.allOnes m).setWidth n) (h : m ≤ n) :
    ((w >>> s) &&& mask).setWidth m = w.extractLsb' s m := by
  subst hm
  apply BitVec.eq_of_getLsbD_eq
  intro k hk
  have : k < n := by omega
  simp [hk, this]

namespace U32

theorem nibble_eq (w : BitVec 32) (i : Nat) : nibble w i = w.extractLsb' (28 - i * 4) 4 :=
  ext_eq w _ _ (by decide) (by omega)
theorem crumb_eq (w : BitVec 32) (i : Nat) : crumb w i = w.extractLsb' (30 - i * 2) 2 :=
  ext_eq w _ _ (by decide) (by omega)
theorem septet_eq (w : BitVec 32) (i : Nat) : septet w i = w.extractLsb' (24 - i * 8) 7 :=
  ext_eq w _ _ (by decide) (by omega)
theorem octet_eq (w : BitVec 32) (i : Nat) : octet w i = w.extractLsb' (24 - i * 8) 8 :=
  ext_eq w _ _ (by decide) (by omega)
theorem word_eq (w : BitVec 32) (i : Nat) : word w i = w.extractLsb' (16 - i * 16) 16 :=
  ext_eq w _ _ (by decide) (by omega)

theorem bit_eq (w : BitVec 32) (i : Nat) : bit w i = w.getLsbD (31 - i) := by
  unfold bit
  have h : ((w >>> (31 - i)) &&& 1#32) = (BitVec.ofBool (w.getLsbD (31 - i))).setWidth 32 := by
    apply BitVec.eq_of_getLsbD_eq
    intro k hk
    simp only [BitVec.getLsbD_and, BitVec.getLsbD_ushiftRight, BitVec.getLsbD_setWidth,
      BitVec.getLsbD_ofBool, BitVec.getLsbD_one]
    by_cases h0 : k = 0 <;> simp [h0, hk]
  rw [h]
  cases w.getLsbD (31 - i) <;> decide

theorem setNibble_eq (w : BitVec 32) (i : Nat) (v : BitVec 4) :
    setNibble w i v = ins w (28 - i * 4) v := rfl
theorem setCrumb_eq (w : BitVec 32) (i : Nat) (v : BitVec 2) :
    setCrumb w i v = ins w (30 - i * 2) v := rfl
theorem setSeptet_eq (w : BitVec 32) (i : Nat) (v : BitVec 7) :
    setSeptet w i v = ins w (24 - i * 8) v := rfl
theorem setOctet_eq (w : BitVec 32) (i : Nat) (v : BitVec 8) :
    setOctet w i v = ins w (24 - i * 8) v := rfl
theorem setWord_eq (w : BitVec 32) (i : Nat) (v : BitVec 16) :
    setWord w i v = ins w (16 - i * 16) v := rfl
theorem setBit_eq (w : BitVec 32) (i : Nat) (v : Bool) :
    setBit w i v = ins w (31 - i) (BitVec.ofBool v) := rfl

end U32

namespace U8

theorem nibble_eq (w : BitVec 8) (i : Nat) : nibble w i = w.extractLsb' (4 - i * 4) 4 :=
  ext_eq w _ _ (by decide) (by omega)

theorem septet_eq (w : BitVec 8) : septet w = w.extractLsb' 0 7 := by
  have := ext_eq (m := 7) w 0 0x7F#8 (by decide) (by omega)
  simpa [septet] using this

theorem bit_eq (w : BitVec 8) (i : Nat) : bit w i = w.getLsbD (7 - i) := by
  unfold bit
  have h : ((w >>> (7 - i)) &&& 1#8) = (BitVec.ofBool (w.getLsbD (7 - i))).setWidth 8 := by
    apply BitVec.eq_of_getLsbD_eq
    intro k hk
    simp only [BitVec.getLsbD_and, BitVec.getLsbD_ushiftRight, BitVec.getLsbD_setWidth,
      BitVec.getLsbD_ofBool, BitVec.getLsbD_one]
    by_cases h0 : k = 0 <;> simp [h0, hk]
  rw [h]
  cases w.getLsbD (7 - i) <;> decide

theorem setNibble_eq (w : BitVec 8) (i : Nat) (v : BitVec 4) :
    setNibble w i v = ins w (4 - i * 4) v := rfl
theorem setSeptet_eq (w : BitVec 8) (v : BitVec 7) : setSeptet w v = ins w 0 v := by
  simp [setSeptet, ins]
theorem setBit_eq (w : BitVec 8) (i : Nat) (v : Bool) :
    setBit w i v = ins w (7 - i) (BitVec.ofBool v) := rfl

end U8

namespace U7

theorem bit_eq (w : BitVec 7) (i : Nat) : bit w i = w.getLsbD (6 - i) := by
  unfold bit
  have h : ((w >>> (6 - i)) &&& 1#7) = (BitVec.ofBool (w.getLsbD (6 - i))).setWidth 7 := by
    apply BitVec.eq_of_getLsbD_eq
    intro k hk
    simp only [BitVec.getLsbD_and, BitVec.getLsbD_ushiftRight, BitVec.getLsbD_setWidth,
      BitVec.getLsbD_ofBool, BitVec.getLsbD_one]
    by_cases h0 : k = 0 <;> simp [h0, hk]
  rw [h]
  cases w.getLsbD (6 - i) <;> decide

theorem setBit_eq (w : BitVec 7) (i : Nat) (v : Bool) :
    setBit w i v = ins w (6 - i) (BitVec.ofBool v) := by
  cases v <;> rfl

end U7

end Midi2
