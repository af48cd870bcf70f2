import Verif.Model.Ci

/-!
# Specification of the discovery query

The layout is that of the MIDI-CI specification (M2-101-UM, Discovery message): the number of
a field in its bytes, seven bits each, the least significant first.
-/

namespace Midi2

/-- The documented sizes of the two versions. -/
def ciSize : BitVec 8 → Option Nat
  | 1 => some 31
  | 2 => some 32
  | _ => none

/-- Digit `k` of a number in base 128. -/
def septetOf (n k : Nat) : Nat := n / 128 ^ k % 128

/-- `n` with the binary digit of weight `w` replaced. -/
def withDigit (n w : Nat) (x : Bool) : Nat := n - n / w % 2 * w + x.toNat * w

/-- What byte `i`, until now `old`, becomes when field `f` is set to `x`. -/
def CiField.byteAfter : (f : CiField) → f.Val → (i old : Nat) → Nat
  | .source, (x : BitVec 28), i, old => if 6 ≤ i ∧ i < 10 then septetOf x.toNat (i - 6) else old
  | .deviceManufacturer, (x : BitVec 7 × BitVec 7 × BitVec 7), i, old =>
    if i = 14 then x.1.toNat else if i = 15 then x.2.1.toNat
    else if i = 16 then x.2.2.toNat else old
  | .deviceFamily, (x : BitVec 14), i, old =>
    if 17 ≤ i ∧ i < 19 then septetOf x.toNat (i - 17) else old
  | .modelNumber, (x : BitVec 14), i, old =>
    if 19 ≤ i ∧ i < 21 then septetOf x.toNat (i - 19) else old
  | .softwareVersion, (x : BitVec 7 × BitVec 7 × BitVec 7 × BitVec 7), i, old =>
    if i = 21 then x.1.toNat else if i = 22 then x.2.1.toNat
    else if i = 23 then x.2.2.1.toNat else if i = 24 then x.2.2.2.toNat else old
  | .processInquirySupported, (x : Bool), i, old => if i = 25 then withDigit old 16 x else old
  | .propertyExchangeSupported, (x : Bool), i, old => if i = 25 then withDigit old 8 x else old
  | .profileConfigurationSupported, (x : Bool), i, old => if i = 25 then withDigit old 4 x else old
  | .protocolNegotiationSupported, (x : Bool), i, old => if i = 25 then withDigit old 2 x else old
  | .maxSysexSize, (x : BitVec 28), i, old =>
    if 26 ≤ i ∧ i < 30 then septetOf x.toNat (i - 26) else old
  | .outputPathId, (x : BitVec 7), i, old => if i = 30 then x.toNat else old

/-- The bytes, as numbers, hold the value `x` of field `f`: setting it would change none. -/
def CiField.HeldIn (f : CiField) (x : f.Val) (b : List Nat) : Prop :=
  ∀ i n, b[i]? = some n → f.byteAfter x i n = n

/-- The positions of the bytes which are read with a check that they have seven bits. -/
def CiField.checked : CiField → List Nat
  | .deviceManufacturer => [14, 15, 16]
  | .softwareVersion => [21, 22, 23, 24]
  | .outputPathId => [30]
  | _ => []

/-- A discovery query of version `v` and nothing else in front: a system exclusive message at
least as long as the version demands, with seven-bit bytes between `F0` and `F7`, and the header
of a MIDI-CI discovery query sent to everybody. -/
structure IsDiscoveryQuery (v : BitVec 8) (b : List (BitVec 8)) : Prop where
  sysex : ∃ (l : List (BitVec 7)) (rest : List (BitVec 8)) (n : Nat), ciSize v = some n ∧
    n ≤ l.length + 2 ∧ b = (0xF0 : BitVec 8) :: l.map (·.setWidth 8) ++ 0xF7 :: rest
  header : (b.take 6).drop 1 = [0x7E, 0x7F, 0x0D, 0x70, v]
  destination : (b.take 14).drop 10 = [0x7F, 0x7F, 0x7F, 0x7F]

/-- A call of a setter with its value. -/
abbrev CiCall := (f : CiField) × f.Val

/-- The effect of a setter call on the field values. -/
def CiCall.onValues (c : CiCall) (s : (f : CiField) → f.Val) : (f : CiField) → f.Val :=
  fun g => if h : c.1 = g then h ▸ c.2 else s g

/-- Setter calls, one after the other, on the message. -/
def CiCall.run : List CiCall → Buf .bytes → Res (Buf .bytes)
  | [], b => .ok b
  | c :: cs, b => do run cs (← Ci.set c.1 b c.2)

/-- Setter calls, one after the other, on the field values. -/
def CiCall.values : List CiCall → ((f : CiField) → f.Val) → (f : CiField) → f.Val
  | [], s => s
  | c :: cs, s => values cs (c.onValues s)

end Midi2
