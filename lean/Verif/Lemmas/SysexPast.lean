import Verif.Lemmas.SysexHold

/-! # `set_payload_byte` behind the payload -/

namespace Midi2

theorem modifyAt_append {α : Type} (a c : List α) (x : Nat) (f : α → α) :
    modifyAt (a ++ c) (a.length + x) f = modifyAt c x f >>= fun c' => .ok (a ++ c') := by
  unfold modifyAt
  rw [List.getElem?_append_right (by omega), Nat.add_sub_cancel_left]
  cases c[x]? with
  | none => rfl
  | some w =>
    simp only [Res.ok_bind]
    rw [List.set_append_right _ _ (by omega), Nat.add_sub_cancel_left]

theorem setSeptet_toNat (w : BitVec 8) (v : BitVec 7) :
    (U8.setSeptet w v).toNat = w.toNat / 128 * 128 + v.toNat := by
  have e : U8.setSeptet w v = w.extractLsb' 7 1 ++ v := by
    unfold U8.setSeptet
    apply BitVec.eq_of_getLsbD_eq
    intro j hj
    rw [BitVec.getLsbD_append]
    have : j = 0 ∨ j = 1 ∨ j = 2 ∨ j = 3 ∨ j = 4 ∨ j = 5 ∨ j = 6 ∨ j = 7 := by omega
    rcases this with rfl | rfl | rfl | rfl | rfl | rfl | rfl | rfl <;> simp
  rw [e, BitVec.toNat_append, BitVec.extractLsb'_toNat, Nat.shiftLeft_eq, Nat.shiftRight_eq_div_pow]
  have := w.isLt
  have hv := v.isLt
  rw [Nat.mod_eq_of_lt (by omega)]
  rw [Nat.mul_comm, ← Nat.two_pow_add_eq_or_of_lt hv, Nat.mul_comm]

namespace Sx

/-- Packets in front are passed over. -/
theorem setByteLoop_append (k : Sx) (v : k.Byte) (a c : Buf .ump) (p : Nat)
    (ha : a.length = k.stride * p) : ∀ (fuel j i : Nat),
    k.setByteLoop v fuel (a ++ c) (p + j) i = k.setByteLoop v fuel c j i >>= fun c' => .ok (a ++ c') := by
  intro fuel
  induction fuel with
  | zero => intro j i; rfl
  | succ fuel ih =>
    intro j i
    unfold Sx.setByteLoop
    have e1 : (p + j) * k.stride = a.length + j * k.stride := by
      rw [Nat.add_mul, ha, Nat.mul_comm p]
    have e2 : at' (a ++ c) ((p + j) * k.stride) = at' c (j * k.stride) := by
      unfold at'
      rw [e1, List.getElem?_append_right (by omega), Nat.add_sub_cancel_left]
    rw [e2]
    cases at' c (j * k.stride) with
    | ok w =>
      simp only [Res.ok_bind]
      cases k.packetSize w with
      | ok s =>
        simp only [Res.ok_bind]
        split
        · rw [e1, Nat.add_assoc, modifyAt_append]
        · rw [Nat.add_assoc, ih]
      | err e => rfl
      | panic => rfl
    | err e => rfl
    | panic => rfl

/-- More steps than words change nothing. -/
theorem setByteLoop_fuel (k : Sx) (v : k.Byte) (c : Buf .ump) : ∀ (fuel j i : Nat),
    c.length < j + fuel → k.setByteLoop v (fuel + 1) c j i = k.setByteLoop v fuel c j i := by
  have hs := k.stride_pos
  intro fuel
  induction fuel with
  | zero =>
    intro j i h
    unfold Sx.setByteLoop
    have : at' c (j * k.stride) = .panic := by
      unfold at'
      have : j * 1 ≤ j * k.stride := Nat.mul_le_mul_left _ hs
      rw [List.getElem?_eq_none (by omega)]
    rw [this]; rfl
  | succ fuel ih =>
    intro j i h
    rw [Sx.setByteLoop.eq_2]
    conv => rhs; rw [Sx.setByteLoop.eq_2]
    cases at' c (j * k.stride) with
    | ok w =>
      simp only [Res.ok_bind]
      cases k.packetSize w with
      | ok s =>
        simp only [Res.ok_bind]
        split
        · rfl
        · exact ih _ _ (by omega)
      | err e => rfl
      | panic => rfl
    | err e => rfl
    | panic => rfl

theorem setByteLoop_enough (k : Sx) (v : k.Byte) (c : Buf .ump) (i : Nat) : ∀ fuel,
    c.length < fuel → k.setByteLoop v fuel c 0 i = k.setByte c v i := by
  intro fuel
  induction fuel with
  | zero => intro h; omega
  | succ fuel ih =>
    intro h
    by_cases e : fuel = c.length
    · subst e; rfl
    · rw [setByteLoop_fuel k v c fuel 0 i (by omega), ih (by omega)]

section
variable {k : Sx} {g : BitVec 4} {b : Buf .ump} {p : Nat} {sz : Nat → Nat}

theorem Valid.setByteLoop_past (V : Valid k g p sz b) (v : k.Byte) :
    ∀ (m fuel j i : Nat), p - j = m → j ≤ p → m ≤ fuel → (k.restFrom b p sz j).length ≤ i →
      k.setByteLoop v fuel b j i =
        k.setByteLoop v (fuel - m) b p (i - (k.restFrom b p sz j).length) := by
  intro m
  induction m with
  | zero =>
    intro fuel j i hm hj _ _
    have : j = p := by omega
    subst this
    rw [restFrom_ge _ _ _ (Nat.le_refl _), List.length_nil]
    rfl
  | succ m ih =>
    intro fuel j i hm hj' hf hi
    have hj : j < p := by omega
    obtain ⟨fuel, rfl⟩ : ∃ f, fuel = f + 1 := ⟨fuel - 1, by omega⟩
    obtain ⟨w, w1, _, w3⟩ := V.frame.head j hj
    have hl : (k.restFrom b p sz j).length = sz j + (k.restFrom b p sz (j + 1)).length := by
      rw [restFrom_lt k b sz hj, List.length_append, length_packetBytes]
    rw [Sx.setByteLoop.eq_2]
    have hat : at' b (j * k.stride) = .ok w := by unfold at'; rw [Nat.mul_comm, w1]
    rw [hat]
    simp only [Res.ok_bind]
    rw [w3]
    simp only [Res.ok_bind]
    rw [if_neg (by omega), ih fuel (j + 1) (i - sz j) (by omega) (by omega) (by omega) (by omega)]
    congr 1 <;> omega

/-- Behind the payload `set_byte` works on the words behind the message. -/
theorem Valid.setByte_past (V : Valid k g p sz b) (v : k.Byte) {i : Nat}
    (hi : V.payload.length ≤ i) :
    k.setByte b v i = k.setByte (b.drop (k.stride * p)) v (i - V.payload.length) >>= fun c =>
      .ok (b.take (k.stride * p) ++ c) := by
  have hs := k.stride_pos
  have hlen := V.len
  have hp : 1 * p ≤ k.stride * p := Nat.mul_le_mul_right _ hs
  unfold Sx.setByte
  rw [V.setByteLoop_past v p (b.length + 1) 0 i (by omega) (by omega) (by omega) hi]
  have ht : (b.take (k.stride * p)).length = k.stride * p := by rw [List.length_take]; omega
  have := setByteLoop_append k v (b.take (k.stride * p)) (b.drop (k.stride * p)) p ht
    (b.length + 1 - p) 0 (i - (k.restFrom b p sz 0).length)
  rw [List.take_append_drop, show p + 0 = p from rfl] at this
  rw [this, setByteLoop_enough k v _ _ _ (by rw [List.length_drop]; omega)]
  rfl

end
end Sx
end Midi2
