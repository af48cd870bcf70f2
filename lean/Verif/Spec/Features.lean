import Verif.Model.Features
import Verif.Spec.Packet

/-!
# What Cargo features bring
-/

namespace Midi2

/-- All groups of messages, with or without `std`. -/
def Features.all (std : Bool) : Features := ⟨fun _ => true, std⟩

/-- The features for groups of messages in `F` are also in `G`; `std` is the same. -/
def Features.Within (F G : Features) : Prop := (∀ f, F.on f = true → G.on f = true) ∧ F.std = G.std

/-- The feature for the messages over bytes with a status byte. -/
def bytesFeature (s : Nat) : Option PacketKind :=
  if s < 0x80 then none
  else if s < 0xF0 then some .channelVoice1
  else if s = 0xF0 then some .sysex7
  else some .systemCommon

/-- The slices the parser of a flex data text message accepts when it does not look at the
text. -/
structure FlexText.AcceptsBytes (t : FlexText) (b : List (BitVec 32)) : Prop where
  len : 4 ≤ b.length
  formats : SeqOk ((FlexText.run b).map fun w => field w 8 2)
  groups : ∀ j, j < (FlexText.run b).length → 4 * (j + 1) ≤ b.length →
    fieldAt b (4 * j) 4 4 = fieldAt b 0 4 4
  banks : ∀ j, 4 * (j + 1) ≤ b.length → fieldAt b (4 * j) 16 8 = some t.bank.toNat
  statuses : ∀ j, 4 * (j + 1) ≤ b.length → fieldAt b (4 * j) 24 8 = some t.status.toNat

/-- The same of a stream text message. -/
structure StreamText.AcceptsBytes (t : StreamText) (b : List (BitVec 32)) : Prop where
  len : 4 ≤ b.length
  formats : SeqOk ((StreamText.run b).map fun w => field w 4 2)
  statuses : ∀ j, 4 * (j + 1) ≤ b.length → fieldAt b (4 * j) 6 10 = some t.status.toNat
  blocks : t.offset = 1 → ∀ j, 4 * (j + 1) ≤ b.length →
    fieldAt b (4 * j) 16 8 = fieldAt b 0 16 8

/-- The text of a text message is UTF-8. -/
def UmpKind.TextReadable : UmpKind → List (BitVec 32) → Prop
  | .flexText _, b => ∃ s : String, utf8 s = (FlexText.slots b).dropLast.filter (· ≠ 0)
  | .streamText t, b => ∃ s : String, utf8 s = (t.slots b).filter (· ≠ 0)
  | _, _ => True

end Midi2
