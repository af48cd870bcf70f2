import Verif.Model.SysexBytes
import Verif.Model.Enums
import Verif.Spec.ConvertWords
import Verif.Spec.Dispatch
import Verif.Spec.SysexOps
import Verif.Spec.SysexBytes

/-!
# A gateway between MIDI 1.0 bytes and UMP

A program that reads messages off a stream of bytes with `BytesMessage::try_from` and passes each
on with `into_ump`, and one that turns messages from UMP into a stream of bytes with
`into_bytes`.
-/

namespace Midi2.Gateway

/-- `f` on every element in turn, the first failure ends it. -/
def each {α β : Type} (f : α → Res β) : List α → Res (List β)
  | [] => .ok []
  | a :: as => do
    let b ← f a
    let bs ← each f as
    return b :: bs

/-- The lists are of the same length and their elements related one by one. -/
inductive Pairs {α β : Type} (R : α → β → Prop) : List α → List β → Prop
  | nil : Pairs R [] []
  | cons {a : α} {b : β} {as : List α} {bs : List β} : R a b → Pairs R as bs →
      Pairs R (a :: as) (b :: bs)

/-- `into_ump` on the message inside a `BytesMessage`, into a growable buffer. -/
def toUmp (dbg : Bool) : BytesKind × List (BitVec 8) → Res (UmpKind × List (BitVec 32))
  | (.fixed d, m) => do
    let x ← HybridEnum.convertVec .bytes .ump (d, m)
    return (.fixed x.1, x.2)
  | (.sysex7, m) => do
    let u ← Sxb.fromBytes dbg m
    return (.sysex .s7, u)

/-- `into_bytes` on the message inside a `UmpMessage`; `none` for the types that only exist in
UMP. -/
def toBytes : UmpKind × List (BitVec 32) → Res (Option (BytesKind × List (BitVec 8)))
  | (.fixed d, m) =>
    if d ∈ Msg.hybridAll then do
      let x ← HybridEnum.convertVec .ump .bytes (d, m)
      return some (.fixed x.1, x.2)
    else .ok none
  | (.sysex .s7, m) => do
    let u ← Sxb.fromUmp m
    return some (.sysex7, u)
  | _ => .ok none

/-- Reads a stream of bytes and translates it. -/
def passOn (dbg : Bool) (b : List (BitVec 8)) : Res (List (UmpKind × List (BitVec 32))) := do
  let ms ← readBytes b.length b
  each (toUmp dbg) ms

/-- Translates messages and writes them to a stream of bytes. -/
def passBack (us : List (UmpKind × List (BitVec 32))) : Res (List (BitVec 8)) := do
  let ms ← each toBytes us
  return (ms.filterMap id |>.map Prod.snd).flatten

/-- A message of the MIDI 1.0 specification: a status byte and the data bytes it calls for, or
`F0`, any number of data bytes and `F7`. -/
inductive Midi1 : List (BitVec 8) → Prop
  | short (x : BitVec 8) (data : List (BitVec 8)) (lo hi n : Nat) :
      (lo, hi, n) ∈ midi1Length → lo ≤ x.toNat → x.toNat < hi → data.length + 1 = n →
      (∀ y ∈ data, y.toNat < 0x80) → Midi1 (x :: data)
  | sysex (data : List (BitVec 8)) : (∀ y ∈ data, y.toNat < 0x80) → Midi1 (0xF0 :: data ++ [0xF7])

/-- The same message in both forms: the same type, the word the standard has for it, group 0 and
the same value of every property; or packets of group 0 with the same payload. -/
def Same (m : BytesKind × List (BitVec 8)) (u : UmpKind × List (BitVec 32)) : Prop :=
  match m.1, u.1 with
  | .fixed d, .fixed d' => d = d' ∧
      u.2.map BitVec.toNat = [Convert.word (Convert.cleared d.name m.2)] ∧
      FixedEnum.group (d, u.2) = .ok 0 ∧
      ∀ n f, (n, f) ∈ d.props → f.accessible .bytes = true → f.read .ump u.2 = f.read .bytes m.2
  | .sysex7, .sysex .s7 => ∃ l, Sxb.payloadList m.2 = .ok l ∧ Sx.s7.Holds u.2 0 l
  | _, _ => False

/-- The packets of a message of the MIDI 1.0 specification in group 0: a word with its status and
data bytes, or system exclusive packets with its data bytes. -/
def Stands (m : List (BitVec 8)) (u : UmpKind × List (BitVec 32)) : Prop :=
  if m.head? = some 0xF0 then
    u.1 = .sysex .s7 ∧ ∃ l, m = sysexBytes l ∧ Sx.s7.Holds u.2 0 l ∧ Sx.s7.data u.2 = .ok u.2
  else u.2.map BitVec.toNat = [Convert.word m]

/-- A message `into_ump` panics on: `SongPositionPointer` as `data()` has it, and system exclusive
with a byte between `F0` and `F7` that is not a data byte. -/
def Blocked (m : BytesKind × List (BitVec 8)) : Prop :=
  match m.1 with
  | .fixed d => d = Msg.sysSongPositionPointer
  | .sysex7 => ∃ x ∈ m.2.dropLast.drop 1, 0x80 ≤ x.toNat

/-- A byte message with the bits cleared that have no meaning. -/
def cleared (m : BytesKind × List (BitVec 8)) : List (BitVec 8) :=
  match m.1 with
  | .fixed d => Convert.cleared d.name m.2
  | .sysex7 => m.2

/-- The types of `UmpMessage` that MIDI 1.0 has too. -/
def hasBytes : UmpKind → Bool
  | .fixed d => decide (d ∈ Msg.hybridAll)
  | .sysex .s7 => true
  | _ => false

/-- The bytes of a message in UMP: octets 1 to 3 of its word without the bits that have no meaning,
as many as the crate takes the byte form to have; or `F0`, the payload and `F7`. -/
def BytesOf (u : UmpKind × List (BitVec 32)) (m : BytesKind × List (BitVec 8)) : Prop :=
  match u.1, m.1 with
  | .fixed d, .fixed d' => d = d' ∧ m.2.length = d.minSize .bytes ∧ ∀ i, i < m.2.length →
      m.2[i]? = some (BitVec.ofNat 8 (octetVal u.2 (i + 1)) &&& Convert.byteMask d.name i)
  | .sysex .s7, .sysex7 => ∃ l, Sx.s7.payloadList u.2 = .ok l ∧ m.2 = sysexBytes l
  | _, _ => False

/-- A message in UMP as it is after it has been bytes: group and bits without a meaning cleared,
system exclusive in as few packets as possible. -/
def Again (u u' : UmpKind × List (BitVec 32)) : Prop :=
  match u.1 with
  | .fixed d => u' = (.fixed d, u.2.map (· &&& Convert.umpMask d.name))
  | .sysex .s7 => u'.1 = .sysex .s7 ∧ ∃ l, Sx.s7.payloadList u.2 = .ok l ∧ Sx.s7.Holds u'.2 0 l ∧
      Sx.s7.data u'.2 = .ok u'.2
  | _ => False

end Midi2.Gateway
