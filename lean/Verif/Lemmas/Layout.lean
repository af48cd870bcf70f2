import Verif.Lemmas.Legal
import Verif.Spec.Layout
import Verif.Props.BitOps
import Verif.Props.Codes

/-! The getters read the bits the layout names. -/

namespace Midi2

theorem septet_field (w : BitVec 32) {i : Nat} (h : i < 4) :
    (U32.septet w i).toNat = field w (8 * i + 1) 7 := by
  rw [U32.septet_eq, toNat_ext, field]; congr 3; omega
theorem word_field (w : BitVec 32) {i : Nat} (h : i < 2) :
    (U32.word w i).toNat = field w (16 * i) 16 := by
  rw [U32.word_eq, toNat_ext, field]; congr 3; omega
theorem bit_field (w : BitVec 32) {i : Nat} (h : i < 32) :
    U32.bit w i = decide (field w i 1 = 1) := by
  have e : field w i 1 = (w.getLsbD (31 - i)).toNat := by
    have : (w.extractLsb' (31 - i) 1).toNat = (w.getLsbD (31 - i)).toNat := by
      rw [show w.extractLsb' (31 - i) 1 = BitVec.ofBool (w.getLsbD (31 - i)) from ?_]
      · simp
      · apply BitVec.eq_of_getLsbD_eq
        intro k hk
        have : k = 0 := by omega
        subst this
        simp [getLsbD_ext]
    rw [← this, toNat_ext, field]
    congr 3; omega
  rw [U32.bit_eq, e]
  cases w.getLsbD (31 - i) <;> rfl

theorem field_lt (w : BitVec 32) (p n : Nat) : field w p n < 2 ^ n :=
  Nat.mod_lt _ (Nat.two_pow_pos n)

theorem low7_septet (x : BitVec 7) : low7 x = x.toNat := by
  have := x.isLt
  show (x.setWidth 8).toNat % 128 = x.toNat
  rw [BitVec.toNat_setWidth]
  omega

theorem low7_byte (x : BitVec 8) : low7 x = x.toNat % 128 := by
  show (x &&& 0x7F#8).toNat % 128 = _
  have e : x &&& 0x7F#8 = (x.extractLsb' 0 7).setWidth 8 := by
    apply BitVec.eq_of_getLsbD_eq
    intro k hk
    have : ∀ k : Fin 8, (0x7F#8).getLsbD k.val = decide (k.val < 7) := by decide
    have := this ⟨k, hk⟩
    simp only at this
    rw [BitVec.getLsbD_and, this, BitVec.getLsbD_setWidth, getLsbD_ext]
    simp [hk, Bool.and_comm]
  rw [e, BitVec.toNat_setWidth]
  simp

/-- Pieces read by a representation at buffer index `i`, element index `j`. -/
def Rep.pieces : Rep → Nat → Nat → List (Nat × Nat × Nat)
  | .bool, i, j => [(i, j, 1)]
  | .u4, i, j => [(i, 4 * j, 4)]
  | .u7, i, j => [(i, 8 * j + 1, 7)]
  | .u8, i, j => [(i, 8 * j, 8)]
  | .u14, i, j => [(i, 16 * j + 9, 7), (i, 16 * j + 1, 7)]
  | .u16, i, j => [(i, 16 * j, 16)]
  | .u32, i, _ => [(i, 0, 32)]
  | .u7x3, i, j => [(i, 8 * j + 1, 7), (i, 8 * j + 9, 7), (i, 8 * j + 17, 7)]
  | .u7x4, i, j => [(i, 8 * j + 1, 7), (i, 8 * j + 9, 7), (i, 8 * j + 17, 7), (i, 8 * j + 25, 7)]

/-- The element index is within the word. -/
def Rep.inWord : Rep → Nat → Bool
  | .bool, j => j < 32
  | .u4, j => j < 8
  | .u7, j => j < 4
  | .u8, j => j < 4
  | .u14, j => j < 2
  | .u16, j => j < 2
  | .u32, _ => true
  | .u7x3, j => j < 2
  | .u7x4, j => j < 1

theorem impl_inWord (r : Rep) : (umpImpl r).all (fun x => r.inWord x.2.2) = true := by
  cases r <;> decide

theorem lookup_mem' {β : Type} [BEq α] [LawfulBEq α] {l : List (α × β)} {a : α} {x : β}
    (h : l.lookup a = some x) : (a, x) ∈ l := by
  induction l with
  | nil => cases h
  | cons y l ih =>
    obtain ⟨k, v⟩ := y
    rw [List.lookup] at h
    split at h
    · next hb => cases h; rw [eq_of_beq hb]; exact List.mem_cons_self
    · exact List.mem_cons_of_mem _ (ih h)

theorem at'_inv {α : Type} {b : List α} {i : Nat} {β : Type} {g : α → Res β} {v : β}
    (h : (at' b i >>= g) = .ok v) : ∃ hi : i < b.length, g b[i] = .ok v := by
  by_cases hi : i < b.length
  · rw [at'_ok hi] at h; exact ⟨hi, h⟩
  · rw [at'_panic (Nat.le_of_not_lt hi)] at h; cases h

theorem valueOf1 {b : List (BitVec 32)} {i : Nat} (h : i < b.length) (p n : Nat) :
    valueOf b [(i, p, n)] 0 = some (field b[i] p n) := by
  simp [valueOf, fieldAt_ok h]

theorem repRead_value {r : Rep} {i j : Nat} (hj : r.inWord j = true) {b : List (BitVec 32)}
    {v : r.Ty} (h : repReadAt r i j b = .ok v) :
    ∃ k, valueOf b (r.pieces i j) 0 = some k ∧ r.Denotes k v := by
  have hj' := hj
  cases r <;> simp only [Rep.inWord, decide_eq_true_eq] at hj'
  case u32 =>
    have : (at' b i >>= fun w => Res.ok w) = .ok v := by
      rw [show repReadAt .u32 i j b = at' b i from rfl] at h
      rw [h]; rfl
    obtain ⟨hi, h⟩ := at'_inv this
    cases h
    refine ⟨_, valueOf1 hi _ _, ?_⟩
    show field b[i] 0 32 = b[i].toNat
    have := b[i].isLt
    simp [field]; omega
  case bool =>
    obtain ⟨hi, h⟩ := at'_inv h
    cases h
    have := field_lt b[i] j 1
    exact ⟨_, valueOf1 hi _ _, bit_field _ hj', by omega⟩
  case u4 =>
    obtain ⟨hi, h⟩ := at'_inv h
    cases h
    exact ⟨_, valueOf1 hi _ _, (nibble_field _ hj').symm⟩
  case u7 =>
    obtain ⟨hi, h⟩ := at'_inv h
    cases h
    exact ⟨_, valueOf1 hi _ _, (septet_field _ hj').symm⟩
  case u8 =>
    obtain ⟨hi, h⟩ := at'_inv h
    cases h
    exact ⟨_, valueOf1 hi _ _, (octet_field _ hj').symm⟩
  case u16 =>
    obtain ⟨hi, h⟩ := at'_inv h
    cases h
    exact ⟨_, valueOf1 hi _ _, (word_field _ hj').symm⟩
  case u14 =>
    obtain ⟨hi, h⟩ := at'_inv h
    cases h
    refine ⟨field b[i] (16 * j + 9) 7 * 2 ^ 7 + field b[i] (16 * j + 1) 7, ?_, ?_⟩
    · simp [Rep.pieces, valueOf, fieldAt_ok hi]
    · show _ = (u14FromU7s (T := BitVec 7) _ _).toNat
      rw [C41_u14_value]
      rw [low7_septet, low7_septet]
      rw [septet_field _ (by omega), septet_field _ (by omega)]
      rw [show 8 * (2 * j) + 1 = 16 * j + 1 by omega,
        show 8 * (2 * j + 1) + 1 = 16 * j + 9 by omega]
      omega
  case u7x3 =>
    obtain ⟨hi, h⟩ := at'_inv h
    cases h
    refine ⟨_, by simp only [Rep.pieces, valueOf, fieldAt_ok hi, Option.bind_eq_bind,
      Option.bind_some]; rfl, ?_⟩
    show _ = ((U32.septet b[i] j).toNat * 128 + (U32.septet b[i] (j + 1)).toNat) * 128 +
      (U32.septet b[i] (j + 2)).toNat
    rw [septet_field _ (by omega), septet_field _ (by omega), septet_field _ (by omega)]
    rw [show 8 * (j + 1) + 1 = 8 * j + 9 by omega, show 8 * (j + 2) + 1 = 8 * j + 17 by omega]
    omega
  case u7x4 =>
    obtain ⟨hi, h⟩ := at'_inv h
    cases h
    refine ⟨_, by simp only [Rep.pieces, valueOf, fieldAt_ok hi, Option.bind_eq_bind,
      Option.bind_some]; rfl, ?_⟩
    show _ = (((U32.septet b[i] j).toNat * 128 + (U32.septet b[i] (j + 1)).toNat) * 128 +
      (U32.septet b[i] (j + 2)).toNat) * 128 + (U32.septet b[i] (j + 3)).toNat
    rw [septet_field _ (by omega), septet_field _ (by omega), septet_field _ (by omega),
      septet_field _ (by omega)]
    rw [show 8 * (j + 1) + 1 = 8 * j + 9 by omega, show 8 * (j + 2) + 1 = 8 * j + 17 by omega,
      show 8 * (j + 3) + 1 = 8 * j + 25 by omega]
    omega

/-- Pieces of a schema. -/
def umpPieces (r : Rep) (s : UmpSchema) : List (Nat × Nat × Nat) :=
  match (umpImpl r).lookup s with
  | some (i, j) => r.pieces i j
  | none => []

/-- Pieces a property reads. -/
def Fld.pieces : Fld → List (Nat × Nat × Nat)
  | .hybrid r _ u => umpPieces r u
  | .schema r u => umpPieces r u
  | .utilData => [(0, 16, 16)]
  | .u20Data => [(0, 12, 20)]
  | .noteAttribute => [(0, 24, 8), (1, 16, 16)]
  | .controller => [(0, 24, 8), (1, 0, 32)]
  | .programBank => [(0, 31, 1), (1, 25, 7), (1, 17, 7)]
  | .flexOptionalChannel => [(0, 10, 2), (0, 12, 4)]
  | .tonic s => match implOf tonicImpl s with | .ok i => [(i, 4, 4)] | _ => []
  | .keySharpsFlats => [(1, 0, 4)]
  | .chordSharpsFlats s => match implOf chordSharpsFlatsImpl s with | .ok i => [(i, 0, 4)] | _ => []
  | .chordType s => match implOf chordTypeImpl s with | .ok i => [(i, 8, 8)] | _ => []
  | .alteration s => match implOf alterationImpl s with | .ok (i, j) => [(i, 8 * j, 8)] | _ => []
  | .uiHint => [(0, 26, 2)]
  | .midi1Port => [(0, 28, 2)]
  | .direction => [(0, 30, 2)]
  | _ => []

theorem umpRead_value {r : Rep} {s : UmpSchema} {b : List (BitVec 32)} {v : r.Ty}
    (h : umpRead r s b = .ok v) : ∃ k, valueOf b (umpPieces r s) 0 = some k ∧ r.Denotes k v := by
  unfold umpRead at h
  unfold umpPieces
  cases e : (umpImpl r).lookup s with
  | none => rw [e] at h; cases h
  | some x =>
    obtain ⟨i, j⟩ := x
    rw [e] at h
    exact repRead_value (List.all_eq_true.mp (impl_inWord r) _ (lookup_mem' e)) h

theorem implOf_inv {β γ : Type} {t : List (UmpSchema × β)} {s : UmpSchema} {g : β → Res γ} {v : γ}
    (h : (implOf t s >>= g) = .ok v) : ∃ x, implOf t s = .ok x ∧ g x = .ok v := by
  cases e : implOf t s with
  | ok x => rw [e] at h; exact ⟨x, rfl, h⟩
  | err _ => rw [e] at h; cases h
  | panic => rw [e] at h; cases h

theorem orPanic_inv {α : Type} {o : Option α} {v : α} (h : orPanic o = .ok v) : o = some v := by
  cases o with
  | none => cases h
  | some x => cases h; rfl

theorem controller_denotes {i : BitVec 8} {d : BitVec 32} {v : Controller}
    (h : Controller.fromIndexAndData i d = .ok v) :
    Codes.controllerIndex v = i.toNat ∧ Codes.controllerData v = d.toNat := by
  unfold Controller.fromIndexAndData at h
  split at h <;> first
    | (next hi => cases h; exact ⟨hi.symm, rfl⟩)
    | cases h

theorem field32 (w : BitVec 32) : field w 0 32 = w.toNat := by
  have := w.isLt
  simp [field]; omega

/-- Every getter reads the pieces of its property. -/
theorem Fld.read32_value (f : Fld) (hc : f.isConst = false) {b : List (BitVec 32)} {v : f.Ty}
    (hn : f.umpBits.need ≤ b.length) (h : f.read32 b = .ok v) : ∃ k, valueOf b f.pieces 0 = some k ∧ f.Denotes k v := by
  cases f
  case umpType | cvStatus | sysStatus | flexStatus | flexBank | flexFormat | flexNoChannel | streamStatus | streamFormats =>
    cases hc
  case hybrid r y u => exact umpRead_value h
  case schema r u => exact umpRead_value h
  case utilData =>
    obtain ⟨hi, h⟩ := at'_inv h
    cases h
    exact ⟨_, valueOf1 hi _ _, (word_field _ (i := 1) (by omega)).symm⟩
  case u20Data =>
    obtain ⟨hi, h⟩ := at'_inv h
    cases h
    refine ⟨_, valueOf1 hi _ _, ?_⟩
    show field b[0] 12 20 = ((b[0] &&& 0x000FFFFF#32).setWidth 20).toNat
    have : (b[0] &&& 0x000FFFFF#32).setWidth 20 = b[0].extractLsb' 0 20 := by
      have := ext_eq (m := 20) b[0] 0 0x000FFFFF#32 (by decide) (by omega)
      simpa using this
    rw [this, toNat_ext, field]
  case noteAttribute =>
    have h1 : 1 < b.length := Nat.lt_of_lt_of_le (by decide) hn
    clear hn
    obtain ⟨hi, h⟩ := at'_inv h
    have hk := octet_field b[0] (i := 3) (by omega)
    revert h
    generalize hn : (U32.octet b[0] 3).toNat = n
    intro h
    rw [hk] at hn
    match n, h with
    | 0, h =>
      cases h
      refine ⟨field b[0] 24 8 * 65536 + field b[1] 16 16, ?_, ?_⟩
      · simp [pieces, valueOf, fieldAt_ok hi, fieldAt_ok h1]
      · show _ / 65536 = 0
        have := field_lt b[1] 16 16
        rw [show field b[0] 24 8 = 0 from hn]
        omega
    | 1, h =>
      obtain ⟨h1, h⟩ := at'_inv h
      cases h
      refine ⟨field b[0] 24 8 * 65536 + field b[1] 16 16, ?_, ?_⟩
      · simp [pieces, valueOf, fieldAt_ok hi, fieldAt_ok h1]
      · show _ = 1 * 65536 + (U32.word b[1] 1).toNat
        rw [word_field _ (by omega), show field b[0] 24 8 = 1 from hn]
    | 2, h =>
      obtain ⟨h1, h⟩ := at'_inv h
      cases h
      refine ⟨field b[0] 24 8 * 65536 + field b[1] 16 16, ?_, ?_⟩
      · simp [pieces, valueOf, fieldAt_ok hi, fieldAt_ok h1]
      · show _ = 2 * 65536 + (U32.word b[1] 1).toNat
        rw [word_field _ (by omega), show field b[0] 24 8 = 2 from hn]
    | 3, h =>
      obtain ⟨h1, h⟩ := at'_inv h
      cases h
      refine ⟨field b[0] 24 8 * 65536 + field b[1] 16 16, ?_, ?_⟩
      · simp [pieces, valueOf, fieldAt_ok hi, fieldAt_ok h1]
      · show _ = 3 * 65536 + (U32.word b[1] 1).toNat
        rw [word_field _ (by omega), show field b[0] 24 8 = 3 from hn]
    | n + 4, h => cases h
  case controller =>
    obtain ⟨hi, h⟩ := at'_inv h
    obtain ⟨h1, h⟩ := at'_inv h
    obtain ⟨e1, e2⟩ := controller_denotes h
    refine ⟨field b[0] 24 8 * 4294967296 + field b[1] 0 32, ?_, ?_⟩
    · simp [pieces, valueOf, fieldAt_ok hi, fieldAt_ok h1]
    · show _ = Codes.controllerIndex v * 4294967296 + Codes.controllerData v
      rw [e1, e2, octet_field _ (by omega), field32]
  case programBank =>
    have h1 : 1 < b.length := Nat.lt_of_lt_of_le (by decide) hn
    obtain ⟨hi, h⟩ := at'_inv h
    have hv : valueOf b (pieces .programBank) 0 =
        some (field b[0] 31 1 * 16384 + (field b[1] 25 7 * 128 + field b[1] 17 7)) := by
      simp [pieces, valueOf, fieldAt_ok hi, fieldAt_ok h1]; omega
    refine ⟨_, hv, ?_⟩
    have f0 := field_lt b[0] 31 1
    have f1 := field_lt b[1] 25 7
    have f2 := field_lt b[1] 17 7
    have hb := bit_field b[0] (i := 31) (by omega)
    split at h
    · next hbit =>
      rw [at'_ok h1] at h
      cases h
      show _ = 16384 + (u14FromU7s (T := BitVec 8) _ _).toNat
      rw [hb] at hbit
      have := of_decide_eq_true hbit
      rw [C41_u14_value, low7_byte, low7_byte, octet_field _ (by omega), octet_field _ (by omega),
        this]
      have e : ∀ p, p + 8 ≤ 32 → field b[1] p 8 % 128 = field b[1] (p + 1) 7 := by
        intro p hp
        unfold field
        rw [show 32 - (p + 1) - 7 = 32 - p - 8 by omega]
        omega
      rw [e _ (by omega), e _ (by omega)]
      simp only [Nat.reduceMul, Nat.reduceAdd]
      omega
    · next hbit =>
      cases h
      show _ / 16384 = 0
      rw [hb] at hbit
      have : field b[0] 31 1 ≠ 1 := by simpa using hbit
      omega
  case flexOptionalChannel =>
    obtain ⟨hi, h⟩ := at'_inv h
    have hv : valueOf b (pieces .flexOptionalChannel) 0 =
        some (field b[0] 10 2 * 16 + field b[0] 12 4) := by
      simp [pieces, valueOf, fieldAt_ok hi]
    refine ⟨_, hv, ?_⟩
    have f1 := field_lt b[0] 12 4
    have hb := crumb_field b[0] (i := 5) (by omega)
    rw [beq_toNat, hb] at h
    split at h
    · next hbit =>
      cases h
      have : field b[0] 10 2 = 0 := of_decide_eq_true hbit
      show _ = (U32.nibble b[0] 3).toNat
      rw [nibble_field _ (by omega), this]
      simp only [Nat.reduceMul]
      omega
    · next hbit =>
      cases h
      have : field b[0] 10 2 ≠ 0 := fun e => hbit (decide_eq_true e)
      show _ / 16 ≠ 0
      omega
  case tonic s =>
    obtain ⟨i, hi, h⟩ := implOf_inv h
    obtain ⟨hl, h⟩ := at'_inv h
    refine ⟨_, by simp only [pieces, hi]; exact valueOf1 hl _ _, ?_⟩
    have := (C50_tonic.1 _ _).mp (orPanic_inv h)
    rw [nibble_field _ (by omega)] at this
    exact this
  case keySharpsFlats =>
    obtain ⟨hl, h⟩ := at'_inv h
    cases h
    refine ⟨_, valueOf1 hl _ _, ?_⟩
    show Codes.keySharpsFlats (KeySharpsFlats.fromNibble _) = _
    rw [C50_key_sharps_flats, BitVec.toInt_eq_toNat_cond, nibble_field _ (by omega)]
    simp only [Nat.mul_zero]
    have := field_lt b[1] 0 4
    split <;> split <;> omega
  case chordSharpsFlats s =>
    obtain ⟨i, hi, h⟩ := implOf_inv h
    obtain ⟨hl, h⟩ := at'_inv h
    refine ⟨_, by simp only [pieces, hi]; exact valueOf1 hl _ _, ?_⟩
    have := (C50_chord_sharps_flats.1 _ _).mp (orPanic_inv h)
    rw [nibble_field _ (by omega)] at this
    exact this
  case chordType s =>
    obtain ⟨i, hi, h⟩ := implOf_inv h
    obtain ⟨hl, h⟩ := at'_inv h
    refine ⟨_, by simp only [pieces, hi]; exact valueOf1 hl _ _, ?_⟩
    have := (C50_chord_type.1 _ _).mp (orPanic_inv h)
    rw [octet_field _ (by omega)] at this
    exact this
  case alteration s =>
    obtain ⟨⟨i, j⟩, hi, h⟩ := implOf_inv h
    obtain ⟨hl, h⟩ := at'_inv h
    obtain ⟨_, _, hj⟩ := alteration_idx hi
    refine ⟨_, by simp only [pieces, hi]; exact valueOf1 hl _ _, ?_⟩
    have h := orPanic_inv h
    rw [← octet_field _ hj]
    cases v with
    | none => exact (C50_alteration.2.1 _).mp h
    | some a => exact (C50_alteration.1 _ _).mp h
  case uiHint =>
    obtain ⟨hl, h⟩ := at'_inv h
    refine ⟨_, valueOf1 hl _ _, ?_⟩
    cases h
    have := (C50_ui_hint.1 (U32.crumb b[0] 13) _).mp rfl
    rw [crumb_field _ (by omega)] at this
    exact this
  case midi1Port =>
    obtain ⟨hl, h⟩ := at'_inv h
    refine ⟨_, valueOf1 hl _ _, ?_⟩
    have := (C50_midi1_port.1 _ _).mp (orPanic_inv h)
    rw [crumb_field _ (by omega)] at this
    exact this
  case direction =>
    obtain ⟨hl, h⟩ := at'_inv h
    refine ⟨_, valueOf1 hl _ _, ?_⟩
    have := (C50_direction.1 _ _).mp (orPanic_inv h)
    rw [crumb_field _ (by omega)] at this
    exact this

/-! ## Bytes -/

theorem fieldAt8_ok {b : List (BitVec 8)} {i : Nat} (h : i < b.length) (p n : Nat) :
    fieldAt8 b i p n = some (b[i].toNat / 2 ^ (8 - p - n) % 2 ^ n) := by
  simp [fieldAt8, List.getElem?_eq_getElem h]

/-- Pieces of a byte schema. -/
def bytePieces (r : Rep) (s : BytesSchema) : List (Nat × Nat × Nat) :=
  match r, (bytesImpl r).lookup s with
  | .u4, some (i, j) => [(i, 4 * j, 4)]
  | .u7, some (i, _) => [(i, 1, 7)]
  | .u8, some (i, _) => [(i, 0, 8)]
  | .u14, some (i, _) => [(i + 1, 1, 7), (i, 1, 7)]
  | _, _ => []

theorem bytesRead_value {r : Rep} {s : BytesSchema} {b : List (BitVec 8)} {v : r.Ty}
    (h : bytesRead r s b = .ok v) :
    ∃ k, valueOf8 b (bytePieces r s) 0 = some k ∧ r.Denotes k v := by
  cases e : (bytesImpl r).lookup s with
  | none => cases r <;> simp [bytesRead, e] at h
  | some x =>
    obtain ⟨i, j⟩ := x
    cases r
    case u4 =>
      simp only [bytesRead, e] at h
      obtain ⟨hi, h⟩ := at'_inv h
      cases h
      refine ⟨_, by simp only [bytePieces, e, valueOf8, fieldAt8_ok hi]; rfl, ?_⟩
      have hj : j < 2 := by
        have : (bytesImpl .u4).all (fun x => decide (x.2.2 < 2)) = true := by decide
        simpa using List.all_eq_true.mp this _ (lookup_mem' e)
      show _ = (U8.nibble b[i] j).toNat
      rw [U8.nibble_eq, BitVec.extractLsb'_toNat, Nat.shiftRight_eq_div_pow,
        show 8 - 4 * j - 4 = 4 - j * 4 by omega]
      omega
    case u7 =>
      simp only [bytesRead, e] at h
      obtain ⟨hi, h⟩ := at'_inv h
      cases h
      refine ⟨_, by simp only [bytePieces, e, valueOf8, fieldAt8_ok hi]; rfl, ?_⟩
      show _ = (U8.septet b[i]).toNat
      rw [U8.septet_eq]
      simp
    case u8 =>
      simp only [bytesRead, e] at h
      have h : (at' b i >>= fun w => Res.ok w) = .ok v := by rw [h]; rfl
      obtain ⟨hi, h⟩ := at'_inv h
      cases h
      refine ⟨_, by simp only [bytePieces, e, valueOf8, fieldAt8_ok hi]; rfl, ?_⟩
      show _ = b[i].toNat
      have := b[i].isLt
      simp; omega
    case u14 =>
      simp only [bytesRead, e] at h
      obtain ⟨hi, h⟩ := at'_inv h
      obtain ⟨hi', h⟩ := at'_inv h
      cases h
      refine ⟨_, by simp only [bytePieces, e, valueOf8, fieldAt8_ok hi, fieldAt8_ok hi']; rfl, ?_⟩
      show _ = (u14FromU7s (T := BitVec 7) _ _).toNat
      rw [C41_u14_value, low7_septet, low7_septet, U8.septet_eq, U8.septet_eq]
      simp only [BitVec.extractLsb'_toNat, Nat.shiftRight_zero]
      omega
    all_goals cases e

/-- Byte pieces a property reads. -/
def Fld.pieces8 : Fld → List (Nat × Nat × Nat)
  | .hybrid r s _ => bytePieces r s
  | _ => []

theorem Fld.read8_value (f : Fld) (hc : f.accessible .bytes = true) {b : List (BitVec 8)}
    {v : f.Ty} (h : f.read8 b = .ok v) : ∃ k, valueOf8 b f.pieces8 0 = some k ∧ f.Denotes k v := by
  cases f
  case hybrid r s u => exact bytesRead_value h
  all_goals first
    | exact absurd (show false = true from hc) (by decide)
    | cases h

end Midi2
