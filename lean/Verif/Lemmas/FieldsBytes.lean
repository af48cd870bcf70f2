import Verif.Lemmas.FieldsWrite

/-! Read and write laws of the properties over byte buffers. -/

namespace Midi2

/-- The byte instance of the property exists. -/
def Fld.implemented8 : Fld → Bool
  | .umpType _ | .cvStatus _ | .sysStatus _ | .schema _ _ => true
  | .hybrid r s _ => ((bytesImpl r).lookup s).isSome
  | _ => false

/-- Bits used by a byte implementation lie inside the masks. -/
def byteCovers (r : Rep) (i j : Nat) (s : BytesSchema) : Bool :=
  match r with
  | .u4 => covers 4 (4 - j * 4) (s.at i) && decide (j < 2)
  | .u7 => covers 7 0 (s.at i)
  | .u8 => covers 8 0 (s.at i)
  | .u14 => covers 7 0 (s.at i) && covers 7 0 (s.at (i + 1))
  | _ => false

theorem bytesImpl_table (r : Rep) :
    (bytesImpl r).all (fun e => byteCovers r e.2.1 e.2.2 e.1) = true := by
  cases r <;> decide +kernel

theorem bytesImpl_covers {r : Rep} {s : BytesSchema} {i j : Nat}
    (h : (bytesImpl r).lookup s = some (i, j)) : byteCovers r i j s = true := by
  have := List.all_eq_true.mp (bytesImpl_table r) _ (mem_of_lookup h)
  simpa only using this

theorem lt_need8 {s : BytesSchema} {i : Nat} (h : s.at i ≠ 0) : i < s.need := by
  unfold BytesSchema.at at h
  unfold BytesSchema.need
  split at h
  · repeat' split
    all_goals first | omega | contradiction
  · repeat' split
    all_goals first | omega | contradiction
  · rw [if_pos h]; omega
  · exact absurd rfl h

theorem bytesRead_congr {r : Rep} {s : BytesSchema} {b b' : List (BitVec 8)}
    (h : Agree s.at b b') : bytesRead r s b = bytesRead r s b' := by
  cases e : (bytesImpl r).lookup s with
  | none => cases r <;> simp [bytesRead, e]
  | some x =>
    obtain ⟨i, j⟩ := x
    have hc := bytesImpl_covers e
    cases r <;> simp only [byteCovers, Bool.and_eq_true, decide_eq_true_eq] at hc <;>
      simp only [bytesRead, e]
    case u4 =>
      exact at'_congr h i (covers_ne_zero hc.1 (by omega) (by omega)) _ fun w w' e => by
        rw [U8.nibble_eq, U8.nibble_eq, ext_congr e hc.1]
    case u7 =>
      exact at'_congr h i (covers_ne_zero hc (by omega) (by omega)) _ fun w w' e => by
        rw [U8.septet_eq, U8.septet_eq, ext_congr e hc]
    case u8 =>
      have := at'_congr h i (covers_ne_zero hc (by omega) (by omega)) (fun w => Res.ok (w.extractLsb' 0 8)) fun w w' e => by
        rw [ext_congr e hc]
      simp only [BitVec.extractLsb'_eq_self] at this
      have id : ∀ x : Res (BitVec 8), (x >>= fun w => Res.ok w) = x := by intro x; cases x <;> rfl
      rw [id, id] at this
      exact this
    case u14 =>
      have h2 : ∀ x : BitVec 8,
          (at' b (i + 1) >>= fun y => Res.ok (u14FromU7s (U8.septet x) (U8.septet y))) =
          (at' b' (i + 1) >>= fun y => Res.ok (u14FromU7s (U8.septet x) (U8.septet y))) := fun x =>
        at'_congr h (i + 1) (covers_ne_zero hc.2 (by omega) (by omega)) _ fun w w' e => by
          rw [U8.septet_eq w, U8.septet_eq w', ext_congr e hc.2]
      simp only [Res.pure_eq, h2]
      exact at'_congr h i (covers_ne_zero hc.1 (by omega) (by omega)) _ fun w w' e => by
        rw [U8.septet_eq w, U8.septet_eq w', ext_congr e hc.1]
    all_goals cases hc

theorem bytesWrite_law {r : Rep} {s : BytesSchema} (h : ((bytesImpl r).lookup s).isSome = true)
    {b : List (BitVec 8)} (hl : s.need ≤ b.length) (v : r.Ty) :
    ∃ b', bytesWrite r s b v = .ok b' ∧ SameOff s.at b b' ∧ bytesRead r s b' = .ok v := by
  cases e : (bytesImpl r).lookup s with
  | none => simp [e] at h
  | some x =>
    obtain ⟨i, j⟩ := x
    have hc := bytesImpl_covers e
    cases r <;> simp only [byteCovers, Bool.and_eq_true, decide_eq_true_eq] at hc
    case u4 =>
      have hi : i < b.length :=
        Nat.lt_of_lt_of_le (lt_need8 (covers_ne_zero hc.1 (by omega) (by omega))) hl
      obtain ⟨h1, h2, h3⟩ := cell_update v hi hc.1
      refine ⟨_, ?_, h2, ?_⟩
      · simp only [bytesWrite, e]; exact h1
      · simp only [bytesRead, e, h3, Res.ok_bind, U8.nibble_eq]
        rw [ext_ins_same _ _ _ (by omega)]; rfl
    case u7 =>
      have hi : i < b.length :=
        Nat.lt_of_lt_of_le (lt_need8 (covers_ne_zero hc (by omega) (by omega))) hl
      obtain ⟨h1, h2, h3⟩ := cell_update v hi hc
      refine ⟨_, ?_, h2, ?_⟩
      · simp only [bytesWrite, e, U8.setSeptet_eq]; exact h1
      · simp only [bytesRead, e, h3, Res.ok_bind, U8.septet_eq]
        rw [ext_ins_same _ _ _ (by omega)]; rfl
    case u8 =>
      have hi : i < b.length :=
        Nat.lt_of_lt_of_le (lt_need8 (covers_ne_zero hc (by omega) (by omega))) hl
      refine ⟨b.set i v, ?_, SameOff.set _ _ _ fun _ => ?_, ?_⟩
      · simp only [bytesWrite, e]; exact modifyAt_ok _ hi
      · have e : s.at i = BitVec.allOnes 8 := by
          apply BitVec.eq_of_getLsbD_eq
          intro k hk
          rw [covers_bit hc hk (by omega) (by omega)]
          rw [BitVec.getLsbD_allOnes]; simp [hk]
        rw [e]; simp
      · simp only [bytesRead, e]; exact at'_set_self _ hi
    case u14 =>
      have hi : i < b.length :=
        Nat.lt_of_lt_of_le (lt_need8 (covers_ne_zero hc.1 (by omega) (by omega))) hl
      have hi1 : i + 1 < b.length :=
        Nat.lt_of_lt_of_le (lt_need8 (covers_ne_zero hc.2 (by omega) (by omega))) hl
      have hi2 : i + 1 < (b.set i (U8.setSeptet b[i] (u14ToU7s (BitVec 7) v).1)).length := by
        simpa using hi1
      refine ⟨(b.set i (U8.setSeptet b[i] (u14ToU7s (BitVec 7) v).1)).set (i + 1)
        (U8.setSeptet (b.set i (U8.setSeptet b[i] (u14ToU7s (BitVec 7) v).1))[i + 1]
          (u14ToU7s (BitVec 7) v).2), ?_, ?_, ?_⟩
      · simp only [bytesWrite, e, modifyAt_ok _ hi, Res.ok_bind]
        exact modifyAt_ok _ hi2
      · refine (SameOff.set b i _ fun _ => ?_).trans (SameOff.set _ (i + 1) _ fun _ => ?_)
        · rw [U8.setSeptet_eq]; exact ins_off _ _ hc.1
        · generalize (b.set i (U8.setSeptet b[i] (u14ToU7s (BitVec 7) v).1))[i + 1] = w
          rw [U8.setSeptet_eq]; exact ins_off _ _ hc.2
      · simp only [bytesRead, e]
        rw [at'_set_self _ hi2, at'_set_ne _ (by omega), at'_set_self _ hi]
        simp only [Res.ok_bind, U8.septet_eq, U8.setSeptet_eq]
        rw [ext_ins_same _ _ _ (by omega), ext_ins_same _ _ _ (by omega), u14_roundtrip7]; rfl
    all_goals cases hc

theorem Fld.read8_congr (f : Fld) {b b' : List (BitVec 8)} (h : Agree f.byteBits.at b b') :
    f.read8 b = f.read8 b' := by
  cases f <;> first | rfl | exact bytesRead_congr h

theorem Fld.validate8_congr (f : Fld) {b b' : List (BitVec 8)} (h : Agree f.byteBits.at b b') :
    f.validate8 b = f.validate8 b' := by
  cases f
  case cvStatus s =>
    exact at'_congr h 0 (by simp [byteBits, BytesSchema.at]) _ fun w w' e => by
      rw [U8.nibble_eq, U8.nibble_eq, ext_congr e (by simp only [byteBits, BytesSchema.at]; decide)]
  case sysStatus s =>
    exact at'_congr h 0 (by simp [byteBits, BytesSchema.at]) _ fun w w' e => by
      have : w = w' := by
        have := ext_congr (k := 8) (s := 0) e (by simp only [byteBits, BytesSchema.at]; decide)
        simpa using this
      rw [this]
  all_goals rfl

/-- What a setter must do, byte version.  Properties without byte representation
(the group) have no accessors over bytes, and internally a write is a no-op. -/
theorem Fld.write8_law (f : Fld) (him : f.implemented8 = true)
    {b : List (BitVec 8)} (hn : f.byteBits.need ≤ b.length) (v : f.Ty) :
    ∃ b', f.write8 b v = .ok b' ∧ SameOff f.byteBits.at b b' ∧
      (f.byteBits ≠ ⟨0, 0, 0⟩ → f.read8 b' = .ok v) ∧ f.validate8 b' = .ok () := by
  cases f
  case umpType => exact ⟨b, rfl, SameOff.refl _ _, fun _ => rfl, rfl⟩
  case schema => exact ⟨b, rfl, SameOff.refl _ _, fun h => absurd rfl h, rfl⟩
  case cvStatus t =>
    have h0 : 0 < b.length := Nat.lt_of_lt_of_le (by simp [byteBits, BytesSchema.need]) hn
    refine ⟨_, modifyAt_ok _ h0, SameOff.set _ _ _ fun _ => ?_, fun _ => rfl, ?_⟩
    · rw [U8.setNibble_eq]; exact ins_off _ _ (by simp only [byteBits, BytesSchema.at]; decide)
    · simp only [validate8, at'_set_self _ h0, Res.ok_bind, U8.nibble_eq, U8.setNibble_eq]
      rw [ext_ins_same _ _ _ (by omega)]; simp
  case sysStatus t =>
    have h0 : 0 < b.length := Nat.lt_of_lt_of_le (by simp [byteBits, BytesSchema.need]) hn
    refine ⟨_, modifyAt_ok _ h0, SameOff.set _ _ _ fun _ => ?_, fun _ => rfl, ?_⟩
    · simp [byteBits, BytesSchema.at]
    · simp [validate8, at'_set_self _ h0]
  case hybrid r s u =>
    obtain ⟨b', e1, e2, e3⟩ := bytesWrite_law (s := s) him hn v
    exact ⟨b', e1, e2, fun _ => e3, rfl⟩
  all_goals cases him

end Midi2
