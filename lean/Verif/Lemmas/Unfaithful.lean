import Verif.Lemmas.Setters

/-! Setter calls with values that are not stored faithfully. -/

namespace Midi2

theorem controller_index (v : Controller) :
    v.toIndexAndData = .panic ∨ ∃ i d, v.toIndexAndData = .ok (i, d) ∧
      Controller.validateIndex i = .ok () := by
  cases v
  case soundController i d =>
    simp only [Controller.toIndexAndData]
    split <;> first | exact .inl rfl | exact .inr ⟨_, _, rfl, rfl⟩
  case effectDepth i d =>
    simp only [Controller.toIndexAndData]
    split <;> first | exact .inl rfl | exact .inr ⟨_, _, rfl, rfl⟩
  all_goals exact .inr ⟨_, _, rfl, rfl⟩

theorem toNat_lit {i : BitVec 8} {k : Nat} (h : i.toNat = k) : i = BitVec.ofNat 8 k := by
  rw [← h, BitVec.ofNat_toNat, BitVec.setWidth_eq]

theorem controller_unfaithful (v : Controller) (h : v.faithful = false) (i : BitVec 8)
    (d : BitVec 32) (e : v.toIndexAndData = .ok (i, d)) :
    Controller.fromIndexAndData i d ≠ .ok v := by
  cases v
  case soundController j d =>
    simp only [Controller.faithful, decide_eq_false_iff_not] at h
    simp only [Controller.toIndexAndData] at e
    split at e
    all_goals first | (next hj => exact absurd (by omega) h) | cases e
  case effectDepth j d =>
    simp only [Controller.faithful, decide_eq_false_iff_not] at h
    simp only [Controller.toIndexAndData] at e
    split at e
    all_goals first | (next hj => exact absurd (by omega) h) | cases e
  all_goals first
    | (exact absurd (show true = false from h) (by decide))
    | (simp only [Controller.toIndexAndData, Res.ok.injEq, Prod.mk.injEq] at e
       obtain ⟨rfl, rfl⟩ := e
       intro h
       cases h)

theorem Fld.write32_controller_any (b : List (BitVec 32)) (h : 2 ≤ b.length) (v : Controller) :
    Fld.write32 .controller b v = .panic ∨ ∃ b' i d, v.toIndexAndData = .ok (i, d) ∧
      Fld.write32 .controller b v = .ok b' ∧
      SameOff Fld.controller.umpBits.at b b' ∧
      Fld.read32 .controller b' = Controller.fromIndexAndData i d ∧
      Fld.validate32 .controller b' = .ok () := by
  have h0 : 0 < b.length := by omega
  rcases controller_index v with e1 | ⟨i, d, e1, e3⟩
  · left; simp only [write32, e1, Res.panic_bind]
  right
  have l1 : 1 < (b.set 0 (U32.setOctet b[0] 3 i)).length := by simp; omega
  refine ⟨(b.set 0 (U32.setOctet b[0] 3 i)).set 1 d, i, d, e1, ?_, ?_, ?_, ?_⟩
  · simp only [write32, e1, Res.ok_bind, modifyAt_ok _ h0, modifyAt_ok _ l1]
  · refine (SameOff.set b 0 _ fun _ => ?_).trans (SameOff.set _ 1 _ fun _ => ?_)
    · rw [U32.setOctet_eq]; exact ins_off _ _ (by decide)
    · simp [Fld.umpBits, UmpSchema.at]
  · simp only [read32, at'_set_ne _ (show (1 : Nat) ≠ 0 by omega), at'_set_self _ h0,
      Res.ok_bind, U32.octet_eq, U32.setOctet_eq]
    rw [ext_ins_same _ _ _ (by omega), ← U32.setOctet_eq, at'_set_self _ l1]
    rfl
  · simp only [validate32, at'_set_ne _ (show (1 : Nat) ≠ 0 by omega), at'_set_self _ h0,
      Res.ok_bind, U32.octet_eq, U32.setOctet_eq]
    rw [ext_ins_same _ _ _ (by omega), e3]

/-- Either the value is stored (changing only the property's bits and leaving the
property valid) or the setter panics. -/
theorem Fld.write_any {m : Fmt} {f : Fld} {size : Nat} (ha : f.accessible m = true)
    (hf : f.fits m size = true) {b : Buf m} (hb : size ≤ b.length) (v : f.Ty) :
    f.write m b v = .panic ∨
    ∃ b', f.write m b v = .ok b' ∧ SameOff (f.bits m) b b' ∧ f.validate m b' = .ok () := by
  by_cases hv : f.faithful v = true
  · obtain ⟨b', e1, e2, _, e4⟩ := write_law ha hf hb v hv
    exact .inr ⟨b', e1, e2, e4⟩
  cases m with
  | bytes =>
    cases f <;> first
      | exact absurd rfl hv
      | (simp only [fits, Bool.and_eq_true] at hf
         exact absurd (show false = true from hf.1) (by decide))
  | ump =>
    simp only [fits, Bool.and_eq_true, decide_eq_true_eq] at hf
    cases f
    case controller =>
      have hl : 2 ≤ b.length := Nat.le_trans hf.2 hb
      rcases write32_controller_any b hl v with e | ⟨b', _, _, _, e1, e2, _, e3⟩
      · exact .inl e
      · exact .inr ⟨b', e1, e2, e3⟩
    case keySharpsFlats =>
      left
      have hv : KeySharpsFlats.faithful v ≠ true := hv
      have hv : v = .flats 0 := by
        cases v with
        | flats n =>
          have : ¬ (n != 0) = true := hv
          simpa using this
        | sharps n => exact absurd rfl hv
        | nonStandard => exact absurd rfl hv
      subst hv
      rfl
    all_goals exact absurd rfl hv

/-- Values which are not faithful do not survive a set/get round trip. -/
theorem Fld.write_unfaithful {m : Fmt} {f : Fld} {size : Nat}
    (hf : f.fits m size = true) {b : Buf m} (hb : size ≤ b.length) (v : f.Ty)
    (hv : f.faithful v = false) (b' : Buf m) (hw : f.write m b v = .ok b') :
    f.read m b' ≠ .ok v := by
  cases m with
  | bytes =>
    cases f <;> first
      | exact absurd (show true = false from hv) (by decide)
      | (simp only [fits, Bool.and_eq_true] at hf
         exact absurd (show false = true from hf.1) (by decide))
  | ump =>
    simp only [fits, Bool.and_eq_true, decide_eq_true_eq] at hf
    cases f
    case controller =>
      have hl : 2 ≤ b.length := Nat.le_trans hf.2 hb
      have hw : Fld.write32 .controller b v = .ok b' := hw
      show Fld.read32 .controller b' ≠ .ok v
      rcases write32_controller_any b hl v with e | ⟨b1, i, d, e0, e1, _, e2, _⟩
      · rw [e] at hw; cases hw
      · rw [e1] at hw
        cases hw
        rw [e2]
        exact controller_unfaithful v hv i d e0
    case keySharpsFlats =>
      have hv : KeySharpsFlats.faithful v = false := hv
      have hv : v = .flats 0 := by
        cases v with
        | flats n =>
          have : (n != 0) = false := hv
          simpa using this
        | sharps n => exact absurd (show true = false from hv) (by decide)
        | nonStandard => exact absurd (show true = false from hv) (by decide)
      subst hv
      exact absurd (show Res.panic = Res.ok b' from hw) (by intro h; cases h)
    all_goals exact absurd (show true = false from hv) (by decide)

end Midi2
