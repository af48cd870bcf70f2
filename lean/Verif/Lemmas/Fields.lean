import Verif.Lemmas.Cells

/-! Laws of the property readers and writers. -/

namespace Midi2

/-- Bits used by an implementation of a representation type lie inside the mask. -/
def repCovers (r : Rep) (j : Nat) (m : BitVec 32) : Bool :=
  match r with
  | .bool => covers 1 (31 - j) m
  | .u4 => covers 4 (28 - j * 4) m
  | .u7 => covers 7 (24 - j * 8) m
  | .u8 => covers 8 (24 - j * 8) m
  | .u14 => covers 7 (24 - 2 * j * 8) m && covers 7 (24 - (2 * j + 1) * 8) m
  | .u16 => covers 16 (16 - j * 16) m
  | .u32 => covers 32 0 m
  | .u7x3 => covers 7 (24 - j * 8) m && covers 7 (24 - (j + 1) * 8) m &&
      covers 7 (24 - (j + 2) * 8) m
  | .u7x4 => covers 7 (24 - j * 8) m && covers 7 (24 - (j + 1) * 8) m &&
      covers 7 (24 - (j + 2) * 8) m && covers 7 (24 - (j + 3) * 8) m

/-- Bounds on the element index of the representation types. -/
def repBound (r : Rep) (j : Nat) : Bool :=
  match r with
  | .bool => j < 32
  | .u4 => j < 8
  | .u7 => j < 4
  | .u8 => j < 4
  | .u14 => j < 2
  | .u16 => j < 2
  | .u32 => true
  | .u7x3 => j < 2
  | .u7x4 => j < 1

theorem mem_of_lookup {α β : Type} [BEq α] [LawfulBEq α] {l : List (α × β)} {a : α} {x : β}
    (h : l.lookup a = some x) : (a, x) ∈ l := by
  induction l with
  | nil => simp at h
  | cons p t ih =>
    obtain ⟨k, y⟩ := p
    rw [List.lookup_cons] at h
    split at h
    · next e => cases h; rw [eq_of_beq e]; exact List.mem_cons_self
    · exact List.mem_cons_of_mem _ (ih h)

theorem umpImpl_table (r : Rep) :
    (umpImpl r).all (fun e => repCovers r e.2.2 (e.1.at e.2.1) && repBound r e.2.2 &&
      decide (e.2.1 < 4)) = true := by
  cases r <;> decide +kernel

theorem umpImpl_covers {r : Rep} {s : UmpSchema} {i j : Nat}
    (h : (umpImpl r).lookup s = some (i, j)) :
    repCovers r j (s.at i) = true ∧ repBound r j = true ∧ i < 4 := by
  have := List.all_eq_true.mp (umpImpl_table r) _ (mem_of_lookup h)
  simpa [Bool.and_eq_true, and_assoc] using this

theorem u14_roundtrip7 (v : BitVec 14) :
    u14FromU7s (u14ToU7s (BitVec 7) v).1 (u14ToU7s (BitVec 7) v).2 = v := by
  apply BitVec.eq_of_getLsbD_eq
  intro k hk
  unfold u14FromU7s u14ToU7s
  simp only [Byte.toU8, Byte.fromU8]
  have h7 : ∀ k, (0x7F#8).getLsbD k = decide (k < 7) := by
    intro k
    have : (0x7F#8) = (BitVec.allOnes 7).setWidth 8 := by decide
    rw [this]
    simp only [BitVec.getLsbD_setWidth, BitVec.getLsbD_allOnes]
    by_cases h : k < 7 <;> simp [h]
    omega
  simp only [BitVec.getLsbD_or, BitVec.getLsbD_and, BitVec.getLsbD_setWidth,
    BitVec.getLsbD_shiftLeft, BitVec.getLsbD_ushiftRight, h7]
  by_cases h : k < 7
  · have h1 : k < 8 := by omega
    have h2 : k < 16 := by omega
    simp [h, h1, h2, hk]
  · have h1 : k - 7 < 7 := by omega
    have h2 : k - 7 < 8 := by omega
    have h4 : k - 7 < 14 := by omega
    have h5 : 7 + (k - 7) = k := by omega
    have h6 : k < 16 := by omega
    simp [h, h1, h2, h4, h5, h6, hk]

theorem u14_roundtrip_octets (v : BitVec 14) :
    u14FromU7s ((u14ToU7s (BitVec 7) v).1.setWidth 8) ((u14ToU7s (BitVec 7) v).2.setWidth 8)
      = v := by
  have e := u14_roundtrip7 v
  unfold u14FromU7s at *
  simp only [Byte.toU8] at *
  have h : ∀ x : BitVec 7, x.setWidth 8 &&& 0x7F#8 &&& 0x7F#8 = x.setWidth 8 &&& 0x7F#8 := by
    intro x
    apply BitVec.eq_of_getLsbD_eq
    intro k hk
    simp
  rw [h, h]; exact e

theorem covers_ne_zero {n k s : Nat} {m : BitVec n} (h : covers k s m = true) (hk : 0 < k)
    (hs : s + k ≤ n) : m ≠ 0 := by
  intro e
  have := covers_bit h (j := s) (by omega) (by omega) (by omega)
  rw [e] at this
  simp at this

theorem rep_ne {r : Rep} {i : Nat} {s : UmpSchema} {j : Nat}
    (h : repCovers r j (s.at i) = true) (hb : repBound r j = true) : s.at i ≠ 0 := by
  cases r <;> simp only [repCovers, repBound, Bool.and_eq_true, decide_eq_true_eq] at h hb
  case bool => exact covers_ne_zero h (by omega) (by omega)
  case u4 => exact covers_ne_zero h (by omega) (by omega)
  case u7 => exact covers_ne_zero h (by omega) (by omega)
  case u8 => exact covers_ne_zero h (by omega) (by omega)
  case u14 => exact covers_ne_zero h.1 (by omega) (by omega)
  case u16 => exact covers_ne_zero h (by omega) (by omega)
  case u32 => exact covers_ne_zero h (by omega) (by omega)
  case u7x3 => exact covers_ne_zero h.2 (by omega) (by omega)
  case u7x4 => exact covers_ne_zero h.2 (by omega) (by omega)

section read

theorem repReadAt_congr {r : Rep} {i j : Nat} {m : Nat → BitVec 32} {b b' : List (BitVec 32)}
    (h : Agree m b b') (hm : m i ≠ 0) (hc : repCovers r j (m i) = true) :
    repReadAt r i j b = repReadAt r i j b' := by
  cases r <;> simp only [repReadAt, repCovers, Bool.and_eq_true] at *
  case bool =>
    exact at'_congr h i hm _ fun w w' e => by
      rw [U32.bit_eq, U32.bit_eq, bit_congr e hc]
  case u4 =>
    exact at'_congr h i hm _ fun w w' e => by
      rw [U32.nibble_eq, U32.nibble_eq, ext_congr e hc]
  case u7 =>
    exact at'_congr h i hm _ fun w w' e => by
      rw [U32.septet_eq, U32.septet_eq, ext_congr e hc]
  case u8 =>
    exact at'_congr h i hm _ fun w w' e => by
      rw [U32.octet_eq, U32.octet_eq, ext_congr e hc]
  case u14 =>
    exact at'_congr h i hm _ fun w w' e => by
      simp only [U32.septet_eq]
      rw [ext_congr e hc.1, ext_congr e hc.2]
  case u16 =>
    exact at'_congr h i hm _ fun w w' e => by
      rw [U32.word_eq, U32.word_eq, ext_congr e hc]
  case u32 =>
    have := at'_congr h i hm (fun w => Res.ok (w.extractLsb' 0 32)) fun w w' e => by
      rw [ext_congr e hc]
    simp only [BitVec.extractLsb'_eq_self] at this
    have id : ∀ x : Res (BitVec 32), (x >>= fun w => Res.ok w) = x := by intro x; cases x <;> rfl
    rw [id, id] at this
    exact this
  case u7x3 =>
    exact at'_congr h i hm _ fun w w' e => by
      simp only [U32.septet_eq]
      rw [ext_congr e hc.1.1, ext_congr e hc.1.2, ext_congr e hc.2]
  case u7x4 =>
    exact at'_congr h i hm _ fun w w' e => by
      simp only [U32.septet_eq]
      rw [ext_congr e hc.1.1.1, ext_congr e hc.1.1.2, ext_congr e hc.1.2, ext_congr e hc.2]

theorem umpRead_congr {r : Rep} {s : UmpSchema} {b b' : List (BitVec 32)}
    (h : Agree s.at b b') : umpRead r s b = umpRead r s b' := by
  unfold umpRead
  split
  · next i j e =>
    obtain ⟨hc, hb, _⟩ := umpImpl_covers e
    exact repReadAt_congr h (rep_ne hc hb) hc
  · rfl

theorem implOf_covers {β : Type} {t : List (UmpSchema × β)} {P : UmpSchema → β → Bool}
    (ht : t.all (fun e => P e.1 e.2) = true) {s : UmpSchema} {x : β}
    (h : implOf t s = .ok x) : P s x = true := by
  unfold implOf at h
  split at h
  · next y e =>
    cases h
    exact List.all_eq_true.mp ht _ (mem_of_lookup e)
  · cases h

theorem tonic_covers {s : UmpSchema} {i : Nat} (h : implOf tonicImpl s = .ok i) :
    covers 4 24 (s.at i) = true ∧ i < 4 := by
  have := implOf_covers (P := fun s i => covers 4 24 (s.at i) && decide (i < 4)) (by decide) h
  simpa using this

theorem chordSF_covers {s : UmpSchema} {i : Nat} (h : implOf chordSharpsFlatsImpl s = .ok i) :
    covers 4 28 (s.at i) = true ∧ i < 4 := by
  have := implOf_covers (P := fun s i => covers 4 28 (s.at i) && decide (i < 4)) (by decide) h
  simpa using this

theorem chordType_covers {s : UmpSchema} {i : Nat} (h : implOf chordTypeImpl s = .ok i) :
    covers 8 16 (s.at i) = true ∧ i < 4 := by
  have := implOf_covers (P := fun s i => covers 8 16 (s.at i) && decide (i < 4)) (by decide) h
  simpa using this

theorem alteration_covers {s : UmpSchema} {i j : Nat} (h : implOf alterationImpl s = .ok (i, j)) :
    covers 8 (24 - j * 8) (s.at i) = true ∧ i < 4 ∧ j < 4 := by
  have := implOf_covers (P := fun s (e : Nat × Nat) =>
    covers 8 (24 - e.2 * 8) (s.at e.1) && decide (e.1 < 4) && decide (e.2 < 4)) (by decide) h
  simpa [and_assoc] using this

theorem tonic_ne {s : UmpSchema} {i : Nat} (h : implOf tonicImpl s = .ok i) : s.at i ≠ 0 :=
  covers_ne_zero (tonic_covers h).1 (by omega) (by omega)
theorem chordSF_ne {s : UmpSchema} {i : Nat} (h : implOf chordSharpsFlatsImpl s = .ok i) :
    s.at i ≠ 0 := covers_ne_zero (chordSF_covers h).1 (by omega) (by omega)
theorem chordType_ne {s : UmpSchema} {i : Nat} (h : implOf chordTypeImpl s = .ok i) :
    s.at i ≠ 0 := covers_ne_zero (chordType_covers h).1 (by omega) (by omega)
theorem alteration_ne {s : UmpSchema} {i : Nat × Nat} (h : implOf alterationImpl s = .ok i) :
    s.at i.1 ≠ 0 := by
  obtain ⟨hc, _, hj⟩ := alteration_covers (i := i.1) (j := i.2) h
  exact covers_ne_zero hc (by omega) (by omega)

theorem bind_implOf_congr {β γ : Type} {t : List (UmpSchema × β)} {s : UmpSchema}
    {f g : β → Res γ} (h : ∀ x, implOf t s = .ok x → f x = g x) :
    (implOf t s >>= f) = (implOf t s >>= g) := by
  cases e : implOf t s with
  | ok x => simpa using h x e
  | err _ => rfl
  | panic => rfl

/-- A getter depends only on the bits of its property. -/
theorem Fld.read32_congr (f : Fld) {b b' : List (BitVec 32)} (h : Agree f.umpBits.at b b') :
    f.read32 b = f.read32 b' := by
  cases f
  case umpType | cvStatus | sysStatus | flexStatus | flexBank => rfl
  case flexFormat | flexNoChannel | streamStatus | streamFormats => rfl
  case hybrid r y u => exact umpRead_congr h
  case schema r u => exact umpRead_congr h
  case utilData =>
    exact at'_congr h 0 (by simp [umpBits, UmpSchema.at]) _ fun w w' e => by
      rw [U32.word_eq, U32.word_eq, ext_congr e (by decide)]
  case u20Data =>
    exact at'_congr h 0 (by simp [umpBits, UmpSchema.at]) _ fun w w' e => by
      have e : w &&& 0x000FFFFF#32 = w' &&& 0x000FFFFF#32 := e
      rw [e]
  case noteAttribute =>
    have h1 : ∀ g : BitVec 16 → Option Attribute,
        (at' b 1 >>= fun d => Res.ok (g (U32.word d 1))) =
        (at' b' 1 >>= fun d => Res.ok (g (U32.word d 1))) := fun g =>
      at'_congr h 1 (by simp [umpBits, UmpSchema.at]) _ fun w w' e => by
        rw [U32.word_eq, U32.word_eq, ext_congr e (by decide)]
    have h2 := h1 (fun d => some (.manufacturerSpecific d))
    have h3 := h1 (fun d => some (.profileSpecific d))
    have h4 := h1 (fun d => some (.pitch7_9 d))
    simp only [read32, Res.pure_eq]
    rw [h2, h3, h4]
    exact at'_congr h 0 (by simp [umpBits, UmpSchema.at]) _ fun w w' e => by
      have e : U32.octet w 3 = U32.octet w' 3 := by
        rw [U32.octet_eq, U32.octet_eq, ext_congr e (by decide)]
      rw [e]
  case controller =>
    simp only [read32]
    have h1 : ∀ (w w' : BitVec 32), w &&& 0xFFFFFFFF#32 = w' &&& 0xFFFFFFFF#32 → w = w' := by
      intro w w' e
      have := ext_congr (k := 32) (s := 0) e (by decide)
      simpa using this
    have h2 : ∀ o : BitVec 8, (at' b 1 >>= fun d => Controller.fromIndexAndData o d) =
        (at' b' 1 >>= fun d => Controller.fromIndexAndData o d) := fun o =>
      at'_congr h 1 (by simp [umpBits, UmpSchema.at]) _ fun w w' e => by rw [h1 w w' e]
    simp only [h2]
    exact at'_congr h 0 (by simp [umpBits, UmpSchema.at]) _ fun w w' e => by
      have e : U32.octet w 3 = U32.octet w' 3 := by
        rw [U32.octet_eq, U32.octet_eq, ext_congr e (by decide)]
      rw [e]
  case programBank =>
    simp only [read32, Res.pure_eq]
    have h2 : (at' b 1 >>= fun d => Res.ok (some (u14FromU7s (U32.octet d 2) (U32.octet d 3)))) =
        (at' b' 1 >>= fun d => Res.ok (some (u14FromU7s (U32.octet d 2) (U32.octet d 3)))) :=
      at'_congr h 1 (by simp [umpBits, UmpSchema.at]) _ fun w w' e => by
        simp only [U32.octet_eq]
        rw [ext_congr (k := 8) (s := 24 - 2 * 8) e (by decide),
          ext_congr (k := 8) (s := 24 - 3 * 8) e (by decide)]
    rw [h2]
    exact at'_congr h 0 (by simp [umpBits, UmpSchema.at]) _ fun w w' e => by
      rw [U32.bit_eq, U32.bit_eq, bit_congr e (by decide)]
  case flexOptionalChannel =>
    exact at'_congr h 0 (by simp [umpBits, UmpSchema.at]) _ fun w w' e => by
      have e1 : U32.crumb w 5 = U32.crumb w' 5 := by
        rw [U32.crumb_eq, U32.crumb_eq, ext_congr e (by decide)]
      have e2 : U32.nibble w 3 = U32.nibble w' 3 := by
        rw [U32.nibble_eq, U32.nibble_eq, ext_congr e (by decide)]
      rw [e1, e2]
  case tonic s =>
    exact bind_implOf_congr fun i hi => at'_congr h i (tonic_ne hi) _ fun w w' e => by
      rw [U32.nibble_eq, U32.nibble_eq, ext_congr e (tonic_covers hi).1]
  case keySharpsFlats =>
    exact at'_congr h 1 (by simp [umpBits, UmpSchema.at]) _ fun w w' e => by
      rw [U32.nibble_eq, U32.nibble_eq, ext_congr e (by decide)]
  case chordSharpsFlats s =>
    exact bind_implOf_congr fun i hi => at'_congr h i (chordSF_ne hi) _ fun w w' e => by
      rw [U32.nibble_eq, U32.nibble_eq, ext_congr e (chordSF_covers hi).1]
  case chordType s =>
    exact bind_implOf_congr fun i hi => at'_congr h i (chordType_ne hi) _ fun w w' e => by
      rw [U32.octet_eq, U32.octet_eq, ext_congr e (chordType_covers hi).1]
  case alteration s =>
    exact bind_implOf_congr fun i hi => at'_congr h i.1 (alteration_ne hi) _ fun w w' e => by
      rw [U32.octet_eq, U32.octet_eq, ext_congr e (alteration_covers hi).1]
  case uiHint =>
    exact at'_congr h 0 (by simp [umpBits, UmpSchema.at]) _ fun w w' e => by
      rw [U32.crumb_eq, U32.crumb_eq, ext_congr e (by decide)]
  case midi1Port =>
    exact at'_congr h 0 (by simp [umpBits, UmpSchema.at]) _ fun w w' e => by
      rw [U32.crumb_eq, U32.crumb_eq, ext_congr e (by decide)]
  case direction =>
    exact at'_congr h 0 (by simp [umpBits, UmpSchema.at]) _ fun w w' e => by
      rw [U32.crumb_eq, U32.crumb_eq, ext_congr e (by decide)]

/-- Properties whose validation ranges over further packets of the buffer. -/
def Fld.ranging : Fld → Bool
  | .flexStatus _ | .flexBank _ | .streamStatus _ | .streamFormats => true
  | _ => false

/-- Validation of a (non-ranging) property depends only on its bits. -/
theorem Fld.validate32_congr (f : Fld) (hr : f.ranging = false) {b b' : List (BitVec 32)}
    (h : Agree f.umpBits.at b b') : f.validate32 b = f.validate32 b' := by
  cases f
  case flexStatus | flexBank | streamStatus | streamFormats =>
    exact absurd (show true = false from hr) (by decide)
  case hybrid | schema | utilData | u20Data => simp only [validate32]
  case programBank | keySharpsFlats | uiHint | flexOptionalChannel => simp only [validate32]
  case umpType =>
    exact at'_congr h 0 (by simp [umpBits, UmpSchema.at]) _ fun w w' e => by
      rw [U32.nibble_eq, U32.nibble_eq, ext_congr e (by simp only [umpBits, UmpSchema.at]; decide)]
  case cvStatus =>
    exact at'_congr h 0 (by simp [umpBits, UmpSchema.at]) _ fun w w' e => by
      rw [U32.nibble_eq, U32.nibble_eq, ext_congr e (by simp only [umpBits, UmpSchema.at]; decide)]
  case sysStatus =>
    exact at'_congr h 0 (by simp [umpBits, UmpSchema.at]) _ fun w w' e => by
      rw [U32.octet_eq, U32.octet_eq, ext_congr e (by simp only [umpBits, UmpSchema.at]; decide)]
  case noteAttribute =>
    exact at'_congr h 0 (by simp [umpBits, UmpSchema.at]) _ fun w w' e => by
      rw [U32.octet_eq, U32.octet_eq, ext_congr e (by simp only [umpBits, UmpSchema.at]; decide)]
  case controller =>
    exact at'_congr h 0 (by simp [umpBits, UmpSchema.at]) _ fun w w' e => by
      rw [U32.octet_eq, U32.octet_eq, ext_congr e (by simp only [umpBits, UmpSchema.at]; decide)]
  case flexFormat =>
    exact at'_congr h 0 (by simp [umpBits, UmpSchema.at]) _ fun w w' e => by
      rw [U32.crumb_eq, U32.crumb_eq, ext_congr e (by simp only [umpBits, UmpSchema.at]; decide)]
  case flexNoChannel =>
    exact at'_congr h 0 (by simp [umpBits, UmpSchema.at]) _ fun w w' e => by
      rw [U32.crumb_eq, U32.crumb_eq, ext_congr e (by simp only [umpBits, UmpSchema.at]; decide)]
  case tonic s =>
    exact bind_implOf_congr fun i hi => at'_congr h i (tonic_ne hi) _ fun w w' e => by
      rw [U32.nibble_eq, U32.nibble_eq, ext_congr e (tonic_covers hi).1]
  case chordSharpsFlats s =>
    exact bind_implOf_congr fun i hi => at'_congr h i (chordSF_ne hi) _ fun w w' e => by
      rw [U32.nibble_eq, U32.nibble_eq, ext_congr e (chordSF_covers hi).1]
  case chordType s =>
    exact bind_implOf_congr fun i hi => at'_congr h i (chordType_ne hi) _ fun w w' e => by
      rw [U32.octet_eq, U32.octet_eq, ext_congr e (chordType_covers hi).1]
  case alteration s =>
    exact bind_implOf_congr fun i hi => at'_congr h i.1 (alteration_ne hi) _ fun w w' e => by
      rw [U32.octet_eq, U32.octet_eq, ext_congr e (alteration_covers hi).1]
  case midi1Port =>
    exact at'_congr h 0 (by simp [umpBits, UmpSchema.at]) _ fun w w' e => by
      rw [U32.crumb_eq, U32.crumb_eq, ext_congr e (by simp only [umpBits, UmpSchema.at]; decide)]
  case direction =>
    exact at'_congr h 0 (by simp [umpBits, UmpSchema.at]) _ fun w w' e => by
      rw [U32.crumb_eq, U32.crumb_eq, ext_congr e (by simp only [umpBits, UmpSchema.at]; decide)]

end read

end Midi2
