import Verif.Props.BytesExact
import Verif.Lemmas.Effort

/-! A MIDI 1.0 message and its word hold the same bits. -/

namespace Midi2

/-- A word from its type, group and three bytes. -/
def umpWord (t g : BitVec 4) (x y z : BitVec 8) : BitVec 32 := t ++ g ++ x ++ y ++ z

theorem umpWord_bits (w : BitVec 32) : w = umpWord (U32.nibble w 0) (U32.nibble w 1)
    (U32.octet w 1) (U32.octet w 2) (U32.octet w 3) := by
  apply BitVec.eq_of_getLsbD_eq
  intro k hk
  simp only [umpWord, BitVec.getLsbD_append, U32.nibble_eq, U32.octet_eq, getLsbD_ext]
  repeat' split
  all_goals rw [decide_eq_true (by omega), Bool.true_and]
  all_goals congr 1
  all_goals omega

theorem umpWord_parts (t g : BitVec 4) (x y z : BitVec 8) :
    U32.nibble (umpWord t g x y z) 0 = t ∧ U32.nibble (umpWord t g x y z) 1 = g ∧
    U32.octet (umpWord t g x y z) 1 = x ∧ U32.octet (umpWord t g x y z) 2 = y ∧
    U32.octet (umpWord t g x y z) 3 = z := by
  refine ⟨?_, ?_, ?_, ?_, ?_⟩
  all_goals
    apply BitVec.eq_of_getLsbD_eq
    intro k hk
    simp only [umpWord, BitVec.getLsbD_append, U32.nibble_eq, U32.octet_eq, getLsbD_ext]
    rw [decide_eq_true hk, Bool.true_and]
    repeat' split
    all_goals first | omega | (congr 1; omega)

theorem umpWord_nibble3 (t g : BitVec 4) (x y z : BitVec 8) :
    U32.nibble (umpWord t g x y z) 3 = U8.nibble x 1 ∧
    U32.nibble (umpWord t g x y z) 2 = U8.nibble x 0 ∧
    U32.septet (umpWord t g x y z) 2 = U8.septet y ∧
    U32.septet (umpWord t g x y z) 3 = U8.septet z := by
  refine ⟨?_, ?_, ?_, ?_⟩
  all_goals
    apply BitVec.eq_of_getLsbD_eq
    intro k hk
    simp only [umpWord, BitVec.getLsbD_append, U32.nibble_eq, U32.septet_eq, U8.nibble_eq,
      U8.septet_eq, getLsbD_ext]
    rw [decide_eq_true hk, Bool.true_and]
    repeat' split
    all_goals first | omega | (congr 1; omega) | rfl

theorem hybrid_fields {d : MsgDesc} (hd : d ∈ Msg.hybridAll) {p : String × Fld} (hp : p ∈ d.props) :
    p.2 = .umpType 1 ∨ p.2 = .umpType 2 ∨ p.2 = .schema .u4 ⟨0x0F000000, 0, 0, 0⟩ ∨
    (∃ s, p.2 = .cvStatus s) ∨ (∃ s, p.2 = .sysStatus s) ∨
    p.2 = .hybrid .u14 ⟨0, 0x7F, 0x7F⟩ ⟨0x00007F7F, 0, 0, 0⟩ ∨
    p.2 = .hybrid .u4 ⟨0x0F, 0, 0⟩ ⟨0x000F0000, 0, 0, 0⟩ ∨
    p.2 = .hybrid .u7 ⟨0, 0, 0x7F⟩ ⟨0x0000007F, 0, 0, 0⟩ ∨
    p.2 = .hybrid .u7 ⟨0, 0x7F, 0⟩ ⟨0x00007F00, 0, 0, 0⟩ := by
  have : ∀ d ∈ Msg.hybridAll, ∀ p ∈ d.props,
    p.2 = .umpType 1 ∨ p.2 = .umpType 2 ∨ p.2 = .schema .u4 ⟨0x0F000000, 0, 0, 0⟩ ∨
    (∃ s ∈ (List.range 16).map (BitVec.ofNat 4), p.2 = .cvStatus s) ∨
    (∃ s ∈ (List.range 256).map (BitVec.ofNat 8), p.2 = .sysStatus s) ∨
    p.2 = .hybrid .u14 ⟨0, 0x7F, 0x7F⟩ ⟨0x00007F7F, 0, 0, 0⟩ ∨
    p.2 = .hybrid .u4 ⟨0x0F, 0, 0⟩ ⟨0x000F0000, 0, 0, 0⟩ ∨
    p.2 = .hybrid .u7 ⟨0, 0, 0x7F⟩ ⟨0x0000007F, 0, 0, 0⟩ ∨
    p.2 = .hybrid .u7 ⟨0, 0x7F, 0⟩ ⟨0x00007F00, 0, 0, 0⟩ := by decide +kernel
  rcases this d hd p hp with h | h | h | ⟨s, -, h⟩ | ⟨s, -, h⟩ | h
  · exact .inl h
  · exact .inr (.inl h)
  · exact .inr (.inr (.inl h))
  · exact .inr (.inr (.inr (.inl ⟨s, h⟩)))
  · exact .inr (.inr (.inr (.inr (.inl ⟨s, h⟩))))
  · exact .inr (.inr (.inr (.inr (.inr h))))

/-- The bytes of `a`, up to three of them, are these. -/
def Bytes3 (a : List (BitVec 8)) (x y z : BitVec 8) : Prop :=
  (∀ v, a[0]? = some v → v = x) ∧ (∀ v, a[1]? = some v → v = y) ∧ (∀ v, a[2]? = some v → v = z)

/-- Fields that both forms have read the same. -/
theorem read_across {f : Fld} (hf : f = .hybrid .u14 ⟨0, 0x7F, 0x7F⟩ ⟨0x00007F7F, 0, 0, 0⟩ ∨
    f = .hybrid .u4 ⟨0x0F, 0, 0⟩ ⟨0x000F0000, 0, 0, 0⟩ ∨
    f = .hybrid .u7 ⟨0, 0, 0x7F⟩ ⟨0x0000007F, 0, 0, 0⟩ ∨
    f = .hybrid .u7 ⟨0, 0x7F, 0⟩ ⟨0x00007F00, 0, 0, 0⟩) {a : List (BitVec 8)} {x y z : BitVec 8}
    (ha : Bytes3 a x y z) (t g : BitVec 4) (rest : List (BitVec 32)) {v : f.Ty}
    (h : f.read .bytes a = .ok v) : f.read .ump (umpWord t g x y z :: rest) = .ok v := by
  obtain ⟨h3, -, h7, h7'⟩ := umpWord_nibble3 t g x y z
  obtain ⟨a0, a1, a2⟩ := ha
  rcases hf with rfl | rfl | rfl | rfl
  · have h : (do let x ← at' a 1; let y ← at' a 2
                 return u14FromU7s (U8.septet x) (U8.septet y)) = .ok v := h
    obtain ⟨p, hp, h⟩ := Res.of_bind_ok h
    obtain ⟨q, hq, h⟩ := Res.of_bind_ok h
    cases a1 _ (at'_some hp)
    cases a2 _ (at'_some hq)
    rw [← h]
    show Res.ok (u14FromU7s (U32.septet (umpWord t g x y z) 2) (U32.septet (umpWord t g x y z) 3)) = _
    rw [h7, h7']
    rfl
  · have h : (do return U8.nibble (← at' a 0) 1) = .ok v := h
    obtain ⟨p, hp, h⟩ := Res.of_bind_ok h
    cases a0 _ (at'_some hp)
    rw [← h]
    show Res.ok (U32.nibble (umpWord t g x y z) 3) = _
    rw [h3]
    rfl
  · have h : (do return U8.septet (← at' a 2)) = .ok v := h
    obtain ⟨p, hp, h⟩ := Res.of_bind_ok h
    cases a2 _ (at'_some hp)
    rw [← h]
    show Res.ok (U32.septet (umpWord t g x y z) 3) = _
    rw [h7']
    rfl
  · have h : (do return U8.septet (← at' a 1)) = .ok v := h
    obtain ⟨p, hp, h⟩ := Res.of_bind_ok h
    cases a1 _ (at'_some hp)
    rw [← h]
    show Res.ok (U32.septet (umpWord t g x y z) 2) = _
    rw [h7]
    rfl

/-- The first bytes of a message, zero where there are none. -/
def byteOr0 (a : List (BitVec 8)) (i : Nat) : BitVec 8 := (a[i]?).getD 0

theorem bytes3 (a : List (BitVec 8)) : Bytes3 a (byteOr0 a 0) (byteOr0 a 1) (byteOr0 a 2) := by
  refine ⟨fun v h => ?_, fun v h => ?_, fun v h => ?_⟩ <;> rw [byteOr0, h] <;> rfl

theorem field_octet (w : BitVec 32) (rest : List (BitVec 32)) (i : Nat) (hi : i < 4) :
    fieldAt (w :: rest) 0 (8 * i) 8 = some (U32.octet w i).toNat := by
  simp only [fieldAt, field, List.getElem?_cons_zero, Option.map_some, U32.octet_eq,
    BitVec.extractLsb'_toNat, Nat.shiftRight_eq_div_pow]
  rw [show 32 - 8 * i - 8 = 24 - i * 8 by omega]

theorem field_nibble (w : BitVec 32) (rest : List (BitVec 32)) (i : Nat) (hi : i < 8) :
    fieldAt (w :: rest) 0 (4 * i) 4 = some (U32.nibble w i).toNat := by
  simp only [fieldAt, field, List.getElem?_cons_zero, Option.map_some, U32.nibble_eq,
    BitVec.extractLsb'_toNat, Nat.shiftRight_eq_div_pow]
  rw [show 32 - 4 * i - 4 = 28 - i * 4 by omega]

theorem nibble8_toNat (x : BitVec 8) : (U8.nibble x 0).toNat = x.toNat / 16 := by
  rw [U8.nibble_eq, BitVec.extractLsb'_toNat, Nat.shiftRight_eq_div_pow]
  have := x.isLt
  simp only [Nat.zero_mul, Nat.sub_zero, Nat.reducePow]
  omega

/-- The packet type of a message type. -/
def MsgDesc.packetType (d : MsgDesc) : BitVec 4 := if d ∈ Msg.sysAll then 1 else 2

theorem hybrid_type {d : MsgDesc} (hd : d ∈ Msg.hybridAll) :
    ∀ p ∈ d.props, ∀ t, p.2 = .umpType t → t = d.packetType := by
  have : ∀ d ∈ Msg.hybridAll, ∀ p ∈ d.props, (match p.2 with
    | .umpType t => decide (t = d.packetType) | _ => true) = true := by decide +kernel
  intro p hp t ht
  have := this d hd p hp
  rw [ht] at this
  exact of_decide_eq_true this

theorem room_pos {d : MsgDesc} (hd : d ∈ Msg.hybridAll) : 0 < d.bytesSize.getD 0 ∧ d.umpSize = 1 := by
  have : ∀ d ∈ Msg.hybridAll, 0 < d.bytesSize.getD 0 ∧ d.umpSize = 1 := by decide +kernel
  exact this d hd

/-- Bytes and word are of the same type. -/
theorem accepted_across {d : MsgDesc} (hd : d ∈ Msg.hybridAll) {a : List (BitVec 8)}
    (ha : d.bytesSize.getD 0 ≤ a.length) {x y z : BitVec 8} (h0 : a[0]? = some x) (g : BitVec 4)
    (rest : List (BitVec 32)) :
    d.tryFrom .bytes a = .ok a ↔
      d.tryFrom .ump (umpWord d.packetType g x y z :: rest) =
        .ok (umpWord d.packetType g x y z :: rest) := by
  have hall : d ∈ Msg.all := by
    have : ∀ d ∈ Msg.hybridAll, d ∈ Msg.all := by decide +kernel
    exact this d hd
  have wf : d.WellFormed .bytes a ↔
      d.WellFormed .ump (umpWord d.packetType g x y z :: rest) := by
    show (_ ∧ _) ↔ (_ ∧ _)
    have : d.umpSize ≤ (umpWord d.packetType g x y z :: rest).length := by
      rw [(room_pos hd).2]; simp
    simp only [ha, this, true_and]
    refine forall_congr' fun p => forall_congr' fun hp => ?_
    obtain ⟨p1, -, p3, -⟩ := umpWord_parts d.packetType g x y z
    obtain ⟨-, p4, -⟩ := umpWord_nibble3 d.packetType g x y z
    have hty := hybrid_type hd p hp
    rcases hybrid_fields hd hp with h | h | h | ⟨s, h⟩ | ⟨s, h⟩ | h | h | h | h
    all_goals rw [h]
    · refine ⟨fun _ => ?_, fun _ => trivial⟩
      show fieldAt _ 0 (4 * 0) 4 = _
      rw [field_nibble _ _ 0 (by omega), p1, ← hty _ h]
    · refine ⟨fun _ => ?_, fun _ => trivial⟩
      show fieldAt _ 0 (4 * 0) 4 = _
      rw [field_nibble _ _ 0 (by omega), p1, ← hty _ h]
    · exact Iff.rfl
    · show (a[0]?).map _ = _ ↔ fieldAt _ 0 (4 * 2) 4 = _
      rw [field_nibble _ _ 2 (by omega), p4, h0, nibble8_toNat]
      exact Iff.rfl
    · show (a[0]?).map _ = _ ↔ fieldAt _ 0 (8 * 1) 8 = _
      rw [field_octet _ _ 1 (by omega), p3, h0]
      exact Iff.rfl
    all_goals exact Iff.rfl
  constructor
  · intro h
    refine (C07_ump_accepts_exactly hall _).1 (wf.mp ?_)
    refine Classical.byContradiction fun hc => ?_
    rw [(C07_bytes_accepts_exactly hd a).2 hc] at h
    cases h
  · intro h
    refine (C07_bytes_accepts_exactly hd _).1 (wf.mpr ?_)
    refine Classical.byContradiction fun hc => ?_
    rw [(C07_ump_accepts_exactly hall _).2 hc] at h
    cases h

theorem both_forms {d : MsgDesc} (hd : d ∈ Msg.hybridAll) {p : String × Fld} (hp : p ∈ d.props)
    (h : p.2.accessible .bytes = true) :
    p.2 = .hybrid .u14 ⟨0, 0x7F, 0x7F⟩ ⟨0x00007F7F, 0, 0, 0⟩ ∨
    p.2 = .hybrid .u4 ⟨0x0F, 0, 0⟩ ⟨0x000F0000, 0, 0, 0⟩ ∨
    p.2 = .hybrid .u7 ⟨0, 0, 0x7F⟩ ⟨0x0000007F, 0, 0, 0⟩ ∨
    p.2 = .hybrid .u7 ⟨0, 0x7F, 0⟩ ⟨0x00007F00, 0, 0, 0⟩ := by
  rcases hybrid_fields hd hp with e | e | e | ⟨s, e⟩ | ⟨s, e⟩ | e
  · rw [e] at h; cases h
  · rw [e] at h; cases h
  · rw [e] at h; cases h
  · rw [e] at h; cases h
  · rw [e] at h; cases h
  · exact e

end Midi2
