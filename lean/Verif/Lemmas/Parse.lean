import Verif.Lemmas.Unfaithful

/-! Reading accepted messages; prefixes of buffers. -/

namespace Midi2

theorem check_ok {c : Bool} (h : Res.check c = .ok ()) : c = true := by
  cases c with
  | true => rfl
  | false => cases h

theorem orPanic_ok {α : Type} {o : Option α} (h : o.isSome = true) : ∃ v, orPanic o = .ok v := by
  cases o with
  | none => cases h
  | some v => exact ⟨v, rfl⟩

theorem controller_read {i : BitVec 8} (h : Controller.validateIndex i = .ok ()) (d : BitVec 32) :
    ∃ v, Controller.fromIndexAndData i d = .ok v := by
  unfold Controller.validateIndex at h
  unfold Controller.fromIndexAndData
  split at h <;> first | exact ⟨_, rfl⟩ | cases h

theorem repRead_ok {r : Rep} {i j : Nat} {b : List (BitVec 32)} (h : i < b.length) :
    ∃ v, repReadAt r i j b = .ok v := by
  cases r <;> simp only [repReadAt, at'_ok h, Res.ok_bind] <;> exact ⟨_, rfl⟩

theorem umpRead_ok {r : Rep} {s : UmpSchema} (h : ((umpImpl r).lookup s).isSome = true)
    {b : List (BitVec 32)} (hl : s.need ≤ b.length) : ∃ v, umpRead r s b = .ok v := by
  unfold umpRead
  cases e : (umpImpl r).lookup s with
  | none => simp [e] at h
  | some x =>
    obtain ⟨i, j⟩ := x
    obtain ⟨hc, hb, _⟩ := umpImpl_covers e
    exact repRead_ok (Nat.lt_of_lt_of_le (repBound_lt hc hb) hl)

/-- A validated property of a long enough buffer can be read. -/
theorem Fld.read32_ok (f : Fld) (him : f.implemented = true) {b : List (BitVec 32)}
    (hn : f.umpBits.need ≤ b.length) (hv : f.validate32 b = .ok ()) :
    ∃ v, f.read32 b = .ok v := by
  cases f
  case umpType | cvStatus | sysStatus | flexStatus | flexBank => exact ⟨(), rfl⟩
  case flexFormat | flexNoChannel | streamStatus | streamFormats => exact ⟨(), rfl⟩
  case hybrid r y u => exact umpRead_ok him hn
  case schema r u => exact umpRead_ok him hn
  case utilData =>
    have h0 : 0 < b.length := Nat.lt_of_lt_of_le (by decide) hn
    simp only [read32, at'_ok h0, Res.ok_bind]; exact ⟨_, rfl⟩
  case u20Data =>
    have h0 : 0 < b.length := Nat.lt_of_lt_of_le (by decide) hn
    simp only [read32, at'_ok h0, Res.ok_bind]; exact ⟨_, rfl⟩
  case noteAttribute =>
    have hl : 2 ≤ b.length := hn
    have h0 : 0 < b.length := by omega
    have h1 : 1 < b.length := by omega
    simp only [validate32, at'_ok h0, Res.ok_bind] at hv
    have := of_decide_eq_true (check_ok hv)
    simp only [read32, at'_ok h0, at'_ok h1, Res.ok_bind]
    generalize (U32.octet b[0] 3).toNat = n at *
    match n, this with
    | 0, _ => exact ⟨_, rfl⟩
    | 1, _ => exact ⟨_, rfl⟩
    | 2, _ => exact ⟨_, rfl⟩
    | 3, _ => exact ⟨_, rfl⟩
    | n + 4, h => omega
  case controller =>
    have hl : 2 ≤ b.length := hn
    have h0 : 0 < b.length := by omega
    have h1 : 1 < b.length := by omega
    simp only [validate32, at'_ok h0, Res.ok_bind] at hv
    simp only [read32, at'_ok h0, at'_ok h1, Res.ok_bind]
    exact controller_read hv _
  case programBank =>
    have hl : 2 ≤ b.length := hn
    have h0 : 0 < b.length := by omega
    have h1 : 1 < b.length := by omega
    simp only [read32, at'_ok h0, at'_ok h1, Res.ok_bind]
    split <;> exact ⟨_, rfl⟩
  case flexOptionalChannel =>
    have h0 : 0 < b.length := Nat.lt_of_lt_of_le (by decide) hn
    simp only [read32, at'_ok h0, Res.ok_bind]
    split <;> exact ⟨_, rfl⟩
  case tonic s =>
    obtain ⟨i, hi⟩ := implOf_ok him
    have h0 : i < b.length := Nat.lt_of_lt_of_le (lt_need (tonic_ne hi)) hn
    simp only [validate32, hi, at'_ok h0, Res.ok_bind] at hv
    simp only [read32, hi, at'_ok h0, Res.ok_bind]
    exact orPanic_ok (check_ok hv)
  case keySharpsFlats =>
    have h1 : 1 < b.length := Nat.lt_of_lt_of_le (by decide) hn
    simp only [read32, at'_ok h1, Res.ok_bind]; exact ⟨_, rfl⟩
  case chordSharpsFlats s =>
    obtain ⟨i, hi⟩ := implOf_ok him
    have h0 : i < b.length := Nat.lt_of_lt_of_le (lt_need (chordSF_ne hi)) hn
    simp only [validate32, hi, at'_ok h0, Res.ok_bind] at hv
    simp only [read32, hi, at'_ok h0, Res.ok_bind]
    exact orPanic_ok (check_ok hv)
  case chordType s =>
    obtain ⟨i, hi⟩ := implOf_ok him
    have h0 : i < b.length := Nat.lt_of_lt_of_le (lt_need (chordType_ne hi)) hn
    simp only [validate32, hi, at'_ok h0, Res.ok_bind] at hv
    simp only [read32, hi, at'_ok h0, Res.ok_bind]
    exact orPanic_ok (check_ok hv)
  case alteration s =>
    obtain ⟨⟨i, j⟩, hi⟩ := implOf_ok him
    have h0 : i < b.length := Nat.lt_of_lt_of_le (lt_need (alteration_ne hi)) hn
    simp only [validate32, hi, at'_ok h0, Res.ok_bind] at hv
    simp only [read32, hi, at'_ok h0, Res.ok_bind]
    exact orPanic_ok (check_ok hv)
  case uiHint =>
    have h0 : 0 < b.length := Nat.lt_of_lt_of_le (by decide) hn
    simp only [read32, at'_ok h0, Res.ok_bind]; exact ⟨_, rfl⟩
  case midi1Port =>
    have h0 : 0 < b.length := Nat.lt_of_lt_of_le (by decide) hn
    simp only [validate32, at'_ok h0, Res.ok_bind] at hv
    simp only [read32, at'_ok h0, Res.ok_bind]
    exact orPanic_ok (check_ok hv)
  case direction =>
    have h0 : 0 < b.length := Nat.lt_of_lt_of_le (by decide) hn
    simp only [validate32, at'_ok h0, Res.ok_bind] at hv
    simp only [read32, at'_ok h0, Res.ok_bind]
    exact orPanic_ok (check_ok hv)

theorem bytesRead_ok {r : Rep} {s : BytesSchema} (h : ((bytesImpl r).lookup s).isSome = true)
    {b : List (BitVec 8)} (hl : s.need ≤ b.length) : ∃ v, bytesRead r s b = .ok v := by
  obtain ⟨b', _, e2, _⟩ := bytesWrite_law h hl r.default
  cases e : (bytesImpl r).lookup s with
  | none => simp [e] at h
  | some x =>
    obtain ⟨i, j⟩ := x
    have hc := bytesImpl_covers e
    cases r <;> simp only [byteCovers, Bool.and_eq_true, decide_eq_true_eq] at hc
    case u4 =>
      have hi : i < b.length :=
        Nat.lt_of_lt_of_le (lt_need8 (covers_ne_zero hc.1 (by omega) (by omega))) hl
      simp only [bytesRead, e, at'_ok hi, Res.ok_bind]; exact ⟨_, rfl⟩
    case u7 =>
      have hi : i < b.length :=
        Nat.lt_of_lt_of_le (lt_need8 (covers_ne_zero hc (by omega) (by omega))) hl
      simp only [bytesRead, e, at'_ok hi, Res.ok_bind]; exact ⟨_, rfl⟩
    case u8 =>
      have hi : i < b.length :=
        Nat.lt_of_lt_of_le (lt_need8 (covers_ne_zero hc (by omega) (by omega))) hl
      simp only [bytesRead, e, at'_ok hi]; exact ⟨_, rfl⟩
    case u14 =>
      have hi : i < b.length :=
        Nat.lt_of_lt_of_le (lt_need8 (covers_ne_zero hc.1 (by omega) (by omega))) hl
      have hi1 : i + 1 < b.length :=
        Nat.lt_of_lt_of_le (lt_need8 (covers_ne_zero hc.2 (by omega) (by omega))) hl
      simp only [bytesRead, e, at'_ok hi, at'_ok hi1, Res.ok_bind]; exact ⟨_, rfl⟩
    all_goals cases hc

theorem Fld.read8_ok (f : Fld) (him : f.implemented8 = true) {b : List (BitVec 8)}
    (hn : f.byteBits.need ≤ b.length) : ∃ v, f.read8 b = .ok v := by
  cases f
  case umpType | cvStatus | sysStatus => exact ⟨(), rfl⟩
  case schema r u => exact ⟨_, rfl⟩
  case hybrid r s u => exact bytesRead_ok (s := s) him hn
  all_goals exact absurd (show false = true from him) (by decide)

theorem Fld.read_ok {m : Fmt} {f : Fld} {size : Nat} (hf : f.fits m size = true) {b : Buf m}
    (hb : size ≤ b.length) (hv : f.validate m b = .ok ()) : ∃ v, f.read m b = .ok v := by
  cases m with
  | ump =>
    simp only [fits, Bool.and_eq_true, decide_eq_true_eq] at hf
    exact read32_ok f hf.1 (Nat.le_trans hf.2 hb) hv
  | bytes =>
    simp only [fits, Bool.and_eq_true, decide_eq_true_eq] at hf
    exact read8_ok f hf.1 (Nat.le_trans hf.2 hb)

/-- Getters look only at the message itself. -/
theorem Fld.read_append {m : Fmt} {f : Fld} {size : Nat} (hf : f.fits m size = true) {b : Buf m}
    (hb : size ≤ b.length) (s : Buf m) : f.read m (b ++ s) = f.read m b := by
  cases m with
  | ump =>
    simp only [fits, Bool.and_eq_true, decide_eq_true_eq] at hf
    exact read32_congr f (Agree.append (fun i hi =>
      Nat.lt_of_lt_of_le (lt_need hi) (Nat.le_trans hf.2 hb)) s)
  | bytes =>
    simp only [fits, Bool.and_eq_true, decide_eq_true_eq] at hf
    exact read8_congr f (Agree.append (fun i hi =>
      Nat.lt_of_lt_of_le (lt_need8 hi) (Nat.le_trans hf.2 hb)) s)

/-- Validation of a non-ranging property looks only at the message itself. -/
theorem Fld.validate_append {m : Fmt} {f : Fld} {size : Nat} (hf : f.fits m size = true)
    (hr : m = .ump → f.ranging = false) {b : Buf m}
    (hb : size ≤ b.length) (s : Buf m) : f.validate m (b ++ s) = f.validate m b := by
  cases m with
  | ump =>
    simp only [fits, Bool.and_eq_true, decide_eq_true_eq] at hf
    exact validate32_congr f (hr rfl) (Agree.append (fun i hi =>
      Nat.lt_of_lt_of_le (lt_need hi) (Nat.le_trans hf.2 hb)) s)
  | bytes =>
    simp only [fits, Bool.and_eq_true, decide_eq_true_eq] at hf
    exact validate8_congr f (Agree.append (fun i hi =>
      Nat.lt_of_lt_of_le (lt_need8 hi) (Nat.le_trans hf.2 hb)) s)

theorem validateProps_append {m : Fmt} {ps : List (String × Fld)} {b : Buf m} (s : Buf m)
    (h : ∀ p ∈ ps, p.2.validate m (b ++ s) = p.2.validate m b) :
    validateProps m ps (b ++ s) = validateProps m ps b := by
  induction ps with
  | nil => rfl
  | cons p ps ih =>
    obtain ⟨n, f⟩ := p
    simp only [validateProps]
    rw [h _ List.mem_cons_self, ih fun p hp => h p (List.mem_cons_of_mem _ hp)]

/-- None of the properties ranges over the following packets. -/
def MsgDesc.local (d : MsgDesc) : Bool := d.props.all fun p => !p.2.ranging

theorem table_local : (Msg.cv1All ++ Msg.cv2All ++ Msg.sysAll ++ Msg.utilAll).all
    (fun d => d.local) = true := by decide +kernel

end Midi2
