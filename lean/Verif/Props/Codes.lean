import Verif.Props.Setters
import Verif.Spec.Codes

/-!
# C35–C40, C44, C50: enumerated properties and their codes
-/

namespace Midi2

/-! ## C50: codes -/

/-- A decoder and an encoder implement a code table: decoding yields `v` exactly for
the code of `v`, encoding yields that code, codes and values determine each other and
every value has a code. -/
def ImplementsCodes {α : Type} {n : Nat} (table : List (α × Nat)) (dec : BitVec n → Option α)
    (enc : α → BitVec n) : Prop :=
  (∀ c v, dec c = some v ↔ (v, c.toNat) ∈ table) ∧
  (∀ v, (v, (enc v).toNat) ∈ table) ∧
  (∀ v, dec (enc v) = some v) ∧
  (∀ c v, dec c = some v → enc v = c)

theorem bv4_cases {P : BitVec 4 → Prop} (h : ∀ i : Fin 16, P (BitVec.ofFin i)) (x : BitVec 4) :
    P x := h x.toFin

theorem bv8_cases {P : BitVec 8 → Prop} (h : ∀ i : Fin 256, P (BitVec.ofFin i)) (x : BitVec 8) :
    P x := h x.toFin

theorem bv2_cases {P : BitVec 2 → Prop} (h : ∀ i : Fin 4, P (BitVec.ofFin i)) (x : BitVec 2) :
    P x := h x.toFin

/-- C50, tonic. -/
theorem C50_tonic : ImplementsCodes Codes.tonic Tonic.fromNibble Tonic.intoNibble := by
  refine ⟨fun c v => ?_, fun v => ?_, fun v => ?_, fun c v => ?_⟩
  · revert c; cases v <;> exact bv4_cases (by decide +kernel)
  · cases v <;> decide
  · cases v <;> decide
  · revert c; cases v <;> exact bv4_cases (by decide +kernel)

example : Tonic.fromNibble 3 = some .C ∧ Tonic.fromNibble 9 = none := by decide +kernel

/-- C50, chord sharps and flats. -/
theorem C50_chord_sharps_flats :
    ImplementsCodes Codes.chordSharpsFlats ChordSharpsFlats.fromNibble
      ChordSharpsFlats.intoNibble := by
  refine ⟨fun c v => ?_, fun v => ?_, fun v => ?_, fun c v => ?_⟩
  · revert c; cases v <;> exact bv4_cases (by decide +kernel)
  · cases v <;> decide
  · cases v <;> decide
  · revert c; cases v <;> exact bv4_cases (by decide +kernel)

example : ChordSharpsFlats.fromNibble 15 = some .flat ∧ ChordSharpsFlats.fromNibble 7 = none := by
  decide +kernel

/-- C50, chord type. -/
theorem C50_chord_type :
    ImplementsCodes Codes.chordType ChordType.fromOctet ChordType.intoOctet := by
  refine ⟨fun c v => ?_, fun v => ?_, fun v => ?_, fun c v => ?_⟩
  · revert c; cases v <;> exact bv8_cases (by decide +kernel)
  · cases v <;> decide
  · cases v <;> decide
  · revert c; cases v <;> exact bv8_cases (by decide +kernel)

/-- C50, UI hint (every code is legal). -/
theorem C50_ui_hint :
    ImplementsCodes Codes.uiHint (fun c => some (UiHint.fromCrumb c)) UiHint.intoCrumb := by
  refine ⟨fun c v => ?_, fun v => ?_, fun v => ?_, fun c v => ?_⟩
  · revert c; cases v <;> exact bv2_cases (by decide +kernel)
  · cases v <;> decide
  · cases v <;> decide
  · revert c; cases v <;> exact bv2_cases (by decide +kernel)

/-- C50, MIDI 1 port. -/
theorem C50_midi1_port :
    ImplementsCodes Codes.midi1Port Midi1Port.fromCrumb Midi1Port.intoCrumb := by
  refine ⟨fun c v => ?_, fun v => ?_, fun v => ?_, fun c v => ?_⟩
  · revert c
    rcases v with _ | v
    · exact bv2_cases (by decide +kernel)
    · cases v <;> exact bv2_cases (by decide +kernel)
  · rcases v with _ | v
    · decide
    · cases v <;> decide
  · rcases v with _ | v
    · decide
    · cases v <;> decide
  · revert c
    rcases v with _ | v
    · exact bv2_cases (by decide +kernel)
    · cases v <;> exact bv2_cases (by decide +kernel)

/-- C50, direction. -/
theorem C50_direction :
    ImplementsCodes Codes.direction Direction.fromCrumb Direction.intoCrumb := by
  refine ⟨fun c v => ?_, fun v => ?_, fun v => ?_, fun c v => ?_⟩
  · revert c; cases v <;> exact bv2_cases (by decide +kernel)
  · cases v <;> decide
  · cases v <;> decide
  · revert c; cases v <;> exact bv2_cases (by decide +kernel)

/-- C50, chord alteration: a value has exactly one code; all sixteen codes with upper
nibble zero mean "no alteration" (which is written as code zero); upper nibbles above
four are illegal. -/
theorem C50_alteration :
    (∀ c a, Alteration.fromOctet c = some (some a) ↔ c.toNat = Codes.alteration a) ∧
    (∀ c, Alteration.fromOctet c = some none ↔ c.toNat < 0x10) ∧
    (∀ c, Alteration.fromOctet c = none ↔ 0x50 ≤ c.toNat) ∧
    (∀ a, (Alteration.intoOctet (some a)).toNat = Codes.alteration a) ∧
    Alteration.intoOctet none = 0 := by
  refine ⟨fun c a => ?_, bv8_cases (by decide +kernel), bv8_cases (by decide +kernel), ?_, rfl⟩
  · cases a <;> next d => (revert c d; exact bv8_cases fun i => bv4_cases (by revert i; decide +kernel))
  · intro a
    cases a <;> next d => (revert d; exact bv4_cases (by decide +kernel))

example : Alteration.fromOctet 0x3B = some (some (.raise 0xB)) := (C50_alteration.1 _ _).mpr (by decide)

/-- C50, key signature: every nibble is legal and means its two's complement value. -/
theorem C50_key_sharps_flats (n : BitVec 4) :
    Codes.keySharpsFlats (KeySharpsFlats.fromNibble n) = n.toInt := by
  revert n; exact bv4_cases (by decide +kernel)

example : Codes.keySharpsFlats (KeySharpsFlats.fromNibble 0xD) = -3 := by decide +kernel

/-- C50, note attribute: the decoder looks at octet 3 of word 0 and the low half of
word 1. Codes 0 to 3 are legal. -/
theorem C50_attribute (w0 w1 : BitVec 32) (rest : Buf .ump) (v : Option Attribute) :
    (Fld.noteAttribute.read .ump (w0 :: w1 :: rest) = .ok v ↔
      (w0.toNat % 256 = 0 ∧ v = none) ∨
      (w0.toNat % 256 = 1 ∧ v = some (.manufacturerSpecific (w1.setWidth 16))) ∨
      (w0.toNat % 256 = 2 ∧ v = some (.profileSpecific (w1.setWidth 16))) ∨
      (w0.toNat % 256 = 3 ∧ v = some (.pitch7_9 (w1.setWidth 16)))) ∧
    (Fld.noteAttribute.validate .ump (w0 :: w1 :: rest) = .ok () ↔ w0.toNat % 256 ≤ 3) := by
  have e : (U32.octet w0 3).toNat = w0.toNat % 256 := by
    rw [U32.octet_eq]; simp
  have e2 : U32.word w1 1 = w1.setWidth 16 := by
    rw [U32.word_eq]
    apply BitVec.eq_of_toNat_eq
    simp
  have r : Fld.noteAttribute.read .ump (w0 :: w1 :: rest) =
      (match (U32.octet w0 3).toNat with
      | 0x0 => Res.ok none
      | 0x1 => Res.ok (some (.manufacturerSpecific (U32.word w1 1)))
      | 0x2 => Res.ok (some (.profileSpecific (U32.word w1 1)))
      | 0x3 => Res.ok (some (.pitch7_9 (U32.word w1 1)))
      | _ => .panic : Res (Option Attribute)) := by
    show (at' (w0 :: w1 :: rest) 0 >>= fun w => _) = _
    have h0 : at' (w0 :: w1 :: rest) 0 = .ok w0 := rfl
    have h1 : at' (w0 :: w1 :: rest) 1 = .ok w1 := rfl
    simp only [h0, h1, Res.ok_bind]
    generalize (U32.octet w0 3).toNat = n
    match n with
    | 0 => rfl
    | 1 => rfl
    | 2 => rfl
    | 3 => rfl
    | n + 4 => rfl
  have q : Fld.noteAttribute.validate .ump (w0 :: w1 :: rest) =
      Res.check ((U32.octet w0 3).toNat ≤ 3) := rfl
  rw [r, q, e, e2]
  constructor
  · generalize w0.toNat % 256 = n
    match n with
    | 0 => simp [eq_comm]
    | 1 => simp [eq_comm]
    | 2 => simp [eq_comm]
    | 3 => simp [eq_comm]
    | n + 4 =>
      constructor
      · intro h; cases h
      · rintro (h | h | h | h) <;> exact absurd h.1 (by omega)
  · generalize w0.toNat % 256 = n
    constructor
    · intro h
      by_cases hn : n ≤ 3
      · exact hn
      · simp [Res.check, hn] at h
    · intro h; simp [Res.check, h]

example : Fld.noteAttribute.read .ump [0x40903C03, 0x80001234] = .ok (some (.pitch7_9 0x1234)) ∧
    Fld.noteAttribute.validate .ump [0x40903C04, 0x80001234] = .err .invalidData := by decide +kernel

end Midi2
