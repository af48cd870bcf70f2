import Verif.Lemmas.BitOps
import Verif.Lemmas.Chunks
import Verif.Model.Sysex

/-! A buffer of words as a sequence of octets. -/

namespace Midi2

/-- Octet number `a` of a buffer, most significant first. -/
def octetAt (b : Buf .ump) (a : Nat) : Option (BitVec 8) := (b[a / 4]?).map (U32.octet · (a % 4))

namespace U32

theorem octet_setOctet (w : BitVec 32) (i j : Nat) (hi : i < 4) (hj : j < 4) (v : BitVec 8) :
    octet (setOctet w i v) j = if j = i then v else octet w j := by
  rw [octet_eq, setOctet_eq]
  split
  · next h => subst h; exact ext_ins_same _ _ _ (by omega)
  · rw [ext_ins_disjoint, octet_eq]; omega

theorem octet_setSeptet_ne (w : BitVec 32) (i j : Nat) (hi : i < 4) (hj : j < 4) (h : j ≠ i)
    (v : BitVec 7) : octet (setSeptet w i v) j = octet w j := by
  rw [octet_eq, setSeptet_eq, ext_ins_disjoint, octet_eq]; omega

/-- `set_septet` keeps the top bit of the octet. -/
theorem octet_setSeptet_top (w : BitVec 32) (i : Nat) (hi : i < 4) (v : BitVec 7) :
    (octet (setSeptet w i v) i).getLsbD 7 = (octet w i).getLsbD 7 := by
  rw [octet_eq, setSeptet_eq, octet_eq, getLsbD_ext, getLsbD_ext, getLsbD_ins,
    if_neg (by omega)]
  have : decide (24 - i * 8 + 7 < 32) = true := by simp; omega
  simp [this]

theorem lt_128 (o : BitVec 8) : o.toNat < 128 ↔ o.getLsbD 7 = false := by
  revert o; decide +kernel

theorem septet_octet (w : BitVec 32) (i : Nat) : septet w i = (octet w i).setWidth 7 := by
  rw [septet_eq, octet_eq]
  apply BitVec.eq_of_getLsbD_eq
  intro k hk
  simp [BitVec.getLsbD_extractLsb', hk]
  intro _; omega

theorem septet_setSeptet (w : BitVec 32) (i : Nat) (hi : i < 4) (v : BitVec 7) :
    septet (setSeptet w i v) i = v := by
  rw [septet_eq, setSeptet_eq]; exact ext_ins_same _ _ _ (by omega)

/-- A word is determined by its octets. -/
theorem eq_of_octets {w w' : BitVec 32} (h : ∀ i < 4, octet w i = octet w' i) : w = w' := by
  apply BitVec.eq_of_getLsbD_eq
  intro k hk
  have := h (3 - k / 8) (by omega)
  rw [octet_eq, octet_eq] at this
  have := congrArg (fun x => x.getLsbD (k % 8)) this
  simp only [BitVec.getLsbD_extractLsb'] at this
  have e : 24 - (3 - k / 8) * 8 + k % 8 = k := by omega
  rw [e] at this
  simpa [show k % 8 < 8 by omega] using this

theorem nibble_octet_hi (w : BitVec 32) (i : Nat) (hi : i < 4) :
    nibble w (2 * i) = (octet w i).extractLsb' 4 4 := by
  rw [nibble_eq, octet_eq]
  apply BitVec.eq_of_getLsbD_eq
  intro k hk
  simp only [BitVec.getLsbD_extractLsb', hk, show 4 + k < 8 by omega, decide_true, Bool.true_and]
  congr 1; omega

theorem nibble_octet_lo (w : BitVec 32) (i : Nat) (hi : i < 4) :
    nibble w (2 * i + 1) = (octet w i).extractLsb' 0 4 := by
  rw [nibble_eq, octet_eq]
  apply BitVec.eq_of_getLsbD_eq
  intro k hk
  simp only [BitVec.getLsbD_extractLsb', hk, show 0 + k < 8 by omega, decide_true, Bool.true_and]
  congr 1; omega

theorem nibble_setNibble (w : BitVec 32) (i j : Nat) (hi : i < 8) (hj : j < 8) (v : BitVec 4) :
    nibble (setNibble w i v) j = if j = i then v else nibble w j := by
  rw [nibble_eq, setNibble_eq]
  split
  · next h => subst h; exact ext_ins_same _ _ _ (by omega)
  · rw [ext_ins_disjoint, nibble_eq]; omega

/-- An octet is its two nibbles. -/
theorem octet_nibbles (w : BitVec 32) (i : Nat) (hi : i < 4) :
    octet w i = nibble w (2 * i) ++ nibble w (2 * i + 1) := by
  rw [nibble_octet_hi _ _ hi, nibble_octet_lo _ _ hi]
  generalize octet w i = x
  revert x; decide +kernel

theorem octet_setNibble_ne (w : BitVec 32) (i j : Nat) (hi : i < 8) (hj : j < 4) (h : j ≠ i / 2)
    (v : BitVec 4) : octet (setNibble w i v) j = octet w j := by
  rw [octet_nibbles _ _ hj, octet_nibbles _ _ hj, nibble_setNibble _ _ _ hi (by omega),
    nibble_setNibble _ _ _ hi (by omega), if_neg (by omega), if_neg (by omega)]

end U32

theorem octetAt_lt {b : Buf .ump} {a : Nat} (h : a < 4 * b.length) :
    octetAt b a = some (U32.octet (b[a / 4]'(by omega)) (a % 4)) := by
  unfold octetAt
  rw [List.getElem?_eq_getElem (by omega)]; rfl

theorem octetAt_isSome {b : Buf .ump} {a : Nat} : (octetAt b a).isSome ↔ a < 4 * b.length := by
  unfold octetAt
  simp; omega

theorem octetAt_none {b : Buf .ump} {a : Nat} (h : 4 * b.length ≤ a) : octetAt b a = none := by
  cases e : octetAt b a with
  | none => rfl
  | some v =>
    have : (octetAt b a).isSome := by simp [e]
    rw [octetAt_isSome] at this; omega

/-- Octets determine the buffer. -/
theorem eq_of_octetAt {b b' : Buf .ump} (hl : b.length = b'.length)
    (h : ∀ a, a < 4 * b.length → octetAt b a = octetAt b' a) : b = b' := by
  apply List.ext_getElem hl
  intro i h1 h2
  apply U32.eq_of_octets
  intro j hj
  have := h (4 * i + j) (by omega)
  rw [octetAt_lt (by omega), octetAt_lt (by omega)] at this
  simp only [Option.some.injEq] at this
  have e1 : (4 * i + j) / 4 = i := by omega
  have e2 : (4 * i + j) % 4 = j := by omega
  simpa only [e1, e2] using this

theorem modifyAt_lt {α : Type} {b : List α} {i : Nat} (h : i < b.length) (f : α → α) :
    modifyAt b i f = .ok (b.set i (f (b[i]'h))) := by
  unfold modifyAt
  rw [List.getElem?_eq_getElem h]

theorem at'_lt {α : Type} {b : List α} {i : Nat} (h : i < b.length) : at' b i = .ok (b[i]'h) := by
  unfold at'; rw [List.getElem?_eq_getElem h]

theorem octetAt_set {b : Buf .ump} {i : Nat} (h : i < b.length) (w : BitVec 32) (a : Nat) :
    octetAt (b.set i w) a = if a / 4 = i then some (U32.octet w (a % 4)) else octetAt b a := by
  unfold octetAt
  rw [List.getElem?_set]
  split
  · next e => subst e; simp [h]
  · next e => rw [if_neg (Ne.symm e)]

/-- Storing one octet. -/
theorem modify_octet {b : Buf .ump} {a : Nat} (h : a < 4 * b.length) (v : BitVec 8) :
    ∃ b', modifyAt b (a / 4) (fun w => U32.setOctet w (a % 4) v) = .ok b' ∧
      b'.length = b.length ∧ ∀ x, octetAt b' x = if x = a then some v else octetAt b x := by
  refine ⟨_, modifyAt_lt (show a / 4 < b.length by omega) _, by simp, ?_⟩
  intro x
  rw [octetAt_set (by omega)]
  split
  · next e =>
    rw [U32.octet_setOctet _ _ _ (by omega) (by omega)]
    split
    · next e' => rw [if_pos (by omega)]
    · next e' =>
      rw [if_neg (by omega), octetAt]
      rw [List.getElem?_eq_getElem (by omega : x / 4 < b.length)]
      simp only [e, Option.map_some]
  · next e => rw [if_neg (by omega)]

theorem copyOctet_ok {b : Buf .ump} {s d : Nat} (hs : s < 4 * b.length) (hd : d < 4 * b.length) :
    ∃ b', Sx.copyOctet b s d = .ok b' ∧ b'.length = b.length ∧
      ∀ x, octetAt b' x = if x = d then octetAt b s else octetAt b x := by
  obtain ⟨b', e1, e2, e3⟩ := modify_octet hd (U32.octet (b[s / 4]'(by omega)) (s % 4))
  refine ⟨b', ?_, e2, ?_⟩
  · unfold Sx.copyOctet
    rw [at'_lt (by omega)]
    exact e1
  · intro x
    rw [e3, octetAt_lt hs]

namespace Sx

/-- The payload byte stored in an octet. -/
def ofOctet (k : Sx) (v : BitVec 8) : k.Byte := v.setWidth k.bits

theorem get_eq (k : Sx) (w : BitVec 32) (i : Nat) : k.get w i = k.ofOctet (U32.octet w i) := by
  cases k
  · exact U32.septet_octet w i
  · exact (BitVec.setWidth_eq _).symm

/-- Storing one payload byte. -/
theorem modify_byte (k : Sx) {b : Buf .ump} {a : Nat} (h : a < 4 * b.length) (v : k.Byte) :
    ∃ b', modifyAt b (a / 4) (fun w => k.set w (a % 4) v) = .ok b' ∧
      b'.length = b.length ∧ (∀ x, x ≠ a → octetAt b' x = octetAt b x) ∧
      ∃ o, octetAt b' a = some o ∧ k.ofOctet o = v ∧
        (k = s7 → ∀ o', octetAt b a = some o' → o'.toNat < 128 → o.toNat < 128) := by
  cases k with
  | s8 =>
    obtain ⟨b', e1, e2, e3⟩ := modify_octet h v
    refine ⟨b', e1, e2, ?_, v, ?_, ?_⟩
    · intro x hx; rw [e3, if_neg hx]
    · rw [e3, if_pos rfl]
    · exact ⟨BitVec.setWidth_eq v, fun h => by cases h⟩
  | s7 =>
    refine ⟨_, modifyAt_lt (show a / 4 < b.length by omega) _, by simp, ?_, ?_⟩
    · intro x hx
      rw [octetAt_set (by omega)]
      split
      · next e =>
        have := U32.octet_setSeptet_ne (b[a / 4]'(by omega)) (a % 4) (x % 4) (by omega) (by omega)
          (by omega) v
        refine (congrArg some this).trans ?_
        unfold octetAt
        rw [List.getElem?_eq_getElem (by omega : x / 4 < b.length)]
        simp only [e, Option.map_some]
      · rfl
    · refine ⟨_, by rw [octetAt_set (by omega), if_pos rfl], ?_⟩
      refine ⟨?_, ?_⟩
      · rw [← get_eq]
        exact U32.septet_setSeptet _ _ (by omega) v
      · intro _ o' ho' h'
        unfold octetAt at ho'
        rw [List.getElem?_eq_getElem (by omega : a / 4 < b.length)] at ho'
        simp only [Option.map_some, Option.some.injEq] at ho'
        rw [U32.lt_128] at h' ⊢
        rw [← h', ← ho']
        exact U32.octet_setSeptet_top _ _ (by omega) v

end Sx

end Midi2
