import Verif.Model.Refusal
import Verif.Spec.Packet

/-!
# Which refusal a slice deserves

For every message type the rules a slice has to meet, in order, each with the text of the refusal
which blames it.  The rules are arithmetic on words and bytes.
-/

namespace Midi2

/-- A text and what must hold for it not to be given. -/
abbrev Rule := String × Prop

open Classical in
/-- The first broken rule is blamed; a slice which breaks none is accepted. -/
noncomputable def verdict {α : Type} (a : α) : List Rule → Told α
  | [] => .ok a
  | (text, rule) :: rs => if rule then verdict a rs else .refused text

/-- The formats of the packets of a message: one complete packet, or begin, continue, end. -/
def formatRules (fs : List Nat) : List Rule := [
  ("The message buffer is empty", fs ≠ []),
  ("Expected Complete packet", fs.length = 1 → fs = [0]),
  ("Expected Begin packet", 1 < fs.length → fs.head? = some 1),
  ("Expected Continue packet", ∀ i, 0 < i → i + 1 < fs.length → fs[i]? = some 2),
  ("Expected End packet", 1 < fs.length → fs.getLast? = some 3)]

/-- The rules about one property of a fixed-size message. -/
def Fld.rules (f : Fld) (b : List (BitVec 32)) : List Rule :=
  match f with
  | umpType _ => [("Incorrect ump message type", f.Legal b)]
  | cvStatus _ | flexStatus _ | streamStatus _ => [("Incorrect message status", f.Legal b)]
  | sysStatus _ => [("Incorrect status field", f.Legal b)]
  | noteAttribute => [("Couldn't interpret note attribute", f.Legal b)]
  | controller => [("Couldn't interpret controller index", f.Legal b)]
  | flexBank _ => [("Incorrect message bank", f.Legal b)]
  | flexFormat _ => [("Incorrect message format", f.Legal b)]
  | flexNoChannel => [("Address field should be non zero.", f.Legal b)]
  | tonic _ => [("Couldn't interpret Tonic field", f.Legal b)]
  | chordSharpsFlats _ => [("Couldn't interpret Sharps / Flats field", f.Legal b)]
  | chordType _ => [("Couldn't interpret Chord field", f.Legal b)]
  | alteration _ => [("Couldn't interpret alteration field", f.Legal b)]
  | midi1Port => [("Couldn't interpret midi1 port field", f.Legal b)]
  | direction => [("Couldn't interpret direction field", f.Legal b)]
  | streamFormats => formatRules ((StreamText.run b).map fun w => field w 4 2)
  | hybrid _ _ _ | schema _ _ | utilData | u20Data | programBank | flexOptionalChannel
  | keySharpsFlats | uiHint => []

/-- The same over bytes. -/
def Fld.rules8 (f : Fld) (b : List (BitVec 8)) : List Rule :=
  match f with
  | cvStatus _ => [("Incorrect message status", f.Legal8 b)]
  | sysStatus _ => [("Incorrect status field", f.Legal8 b)]
  | _ => []

/-- Fixed-size messages: long enough, then every property. -/
def MsgDesc.rules (d : MsgDesc) : (m : Fmt) → Buf m → List Rule
  | .ump, b => ("Slice is too short", d.umpSize ≤ b.length) :: d.props.flatMap fun p => p.2.rules b
  | .bytes, b =>
    ("Slice is too short", d.bytesSize.getD 0 ≤ b.length) :: d.props.flatMap fun p => p.2.rules8 b

/-- Every packet of the slice's message has the group of the first. -/
def sameGroups (words : Nat) (run : List (BitVec 32)) (b : List (BitVec 32)) : Prop :=
  ∀ j, j < run.length → words * (j + 1) ≤ b.length → fieldAt b (words * j) 4 4 = fieldAt b 0 4 4

/-- System exclusive messages over UMP. -/
def Sx.rules (k : Sx) (b : List (BitVec 32)) : List Rule :=
  [("Slice is too short", k.layout.words ≤ b.length),
   ("Incorrect ump message type", fieldAt b 0 0 4 = some k.layout.type)] ++
  formatRules ((k.layout.run b).map fun w => field w 8 4) ++
  [(match k with
      | .s7 => "Size field can not exceed 6"
      | .s8 => "Invalid number of payload bytes in packet",
    ∀ j, k.layout.words * (j + 1) ≤ b.length → ∃ s, fieldAt b (k.layout.words * j) 12 4 = some s ∧
      k.layout.extra ≤ s ∧ s ≤ k.layout.capacity + k.layout.extra),
   ("Inconsistent groups across packets", sameGroups k.layout.words (k.layout.run b) b),
   ("Inconsistent stream id fields across packets", k = .s8 → ∀ j, j < (k.layout.run b).length →
      4 * (j + 1) ≤ b.length → fieldAt b (4 * j) 16 8 = fieldAt b 0 16 8)]

/-- System exclusive messages over bytes. -/
def Sxb.rules (b : List (BitVec 8)) : List Rule := [
  ("Slice is too short", 2 ≤ b.length),
  ("Sysex messages should begin 0xF0", b.head? = some 0xF0),
  ("Sysex messages should end 0xF7", (0xF7 : BitVec 8) ∈ b)]

/-- Flex data text messages. -/
def FlexText.rules (t : FlexText) (b : List (BitVec 32)) : List Rule :=
  [("Slice is too short", 4 ≤ b.length),
   ("Incorrect ump message type", fieldAt b 0 0 4 = some 13),
   ("Inconsistent groups across packets", sameGroups 4 (FlexText.run b) b),
   ("Incorrect message bank",
      ∀ j, 4 * (j + 1) ≤ b.length → fieldAt b (4 * j) 16 8 = some t.bank.toNat),
   ("Incorrect message status",
      ∀ j, 4 * (j + 1) ≤ b.length → fieldAt b (4 * j) 24 8 = some t.status.toNat)] ++
  formatRules ((FlexText.run b).map fun w => field w 8 2) ++
  [("Payload bytes do not represent a valid utf string",
      ∃ s : String, utf8 s = (FlexText.slots b).dropLast.filter (· ≠ 0))]

/-- Stream text messages. -/
def StreamText.rules (t : StreamText) (b : List (BitVec 32)) : List Rule :=
  [("Slice is too short", 4 ≤ b.length),
   ("Incorrect ump message type", fieldAt b 0 0 4 = some 15),
   ("Incorrect message status",
      ∀ j, 4 * (j + 1) ≤ b.length → fieldAt b (4 * j) 6 10 = some t.status.toNat)] ++
  formatRules ((StreamText.run b).map fun w => field w 4 2) ++
  [("Inconsistent function block fields", t.offset = 1 → ∀ j, 4 * (j + 1) ≤ b.length →
      fieldAt b (4 * j) 16 8 = fieldAt b 0 16 8),
   ("Payload bytes do not represent a valid utf string",
      ∃ s : String, utf8 s = (t.slots b).filter (· ≠ 0))]

/-- Every type of message over UMP. -/
def UmpKind.rules : UmpKind → List (BitVec 32) → List Rule
  | .fixed d, b => d.rules .ump b
  | .sysex k, b => k.rules b
  | .flexText t, b => t.rules b
  | .streamText t, b => t.rules b

/-- Every type of message over bytes. -/
def BytesKind.rules : BytesKind → List (BitVec 8) → List Rule
  | .fixed d, b => d.rules .bytes b
  | .sysex7, b => Sxb.rules b

/-- Packets. -/
def PacketKind.rules (k : PacketKind) (b : List (BitVec 32)) : List Rule :=
  [("Slice is too short", k.least ≤ b.length),
   ("Incorrect UMP message type", fieldAt b 0 0 4 = some k.code)] ++
  match k with
  | .sysex7 => [
    ("Size field can not exceed 6", ∃ s, fieldAt b 0 12 4 = some s ∧ s ≤ 6),
    ("Invalid SysEx7 status byte", ∃ s, fieldAt b 0 8 4 = some s ∧ s ≤ 3)]
  | .sysex8 => [("Invalid SysEx8 status byte", ∃ s, fieldAt b 0 8 4 = some s ∧ s ≤ 3)]
  | _ => []

/-- Discovery queries of version `v`, of `n` bytes at least. -/
def ciRules (v : BitVec 8) (n : Nat) (b : List (BitVec 8)) : List Rule := [
  ("Slice is too short", n ≤ b.length),
  ("Incorrect CI version", b[5]? = some v),
  ("Sysex messages should begin 0xF0", b.head? = some 0xF0),
  ("Sysex messages should end 0xF7", (0xF7 : BitVec 8) ∈ b),
  ("Expected Universal Sysex Byte: 0x7E", b[1]? = some 0x7E),
  ("Expected DeviceID: To Function Block (0x7F)", b[2]? = some 0x7F),
  ("Expected Universal Sysex Sub Id #1: Midi CI (0x0D)", b[3]? = some 0x0D),
  ("Incorrect Universal Sysex Sub Id #2 field", b[4]? = some 0x70),
  ("Expected broadcast destination MUID", ∀ x ∈ (b.take 14).drop 10, x.toNat % 128 = 127)]

/-- The parsers of the enums over one message type. -/
def groupParsers : List (Nat × (Buf .ump → Told (UmpKind × Buf .ump))) := [
  (0, fun b => do return asUmp (← Utility.told b)),
  (1, fun b => do return asUmp (← SystemCommon.told .ump b)),
  (2, fun b => do return asUmp (← ChannelVoice1.told .ump b)),
  (4, fun b => do return asUmp (← ChannelVoice2.told b)),
  (13, FlexData.told),
  (15, UmpStream.told)]

/-- The codes under which `FlexData` looks for the misfiled types. -/
def misfiledCodes : List Nat := [0x0110, 0x0111, 0x0112]

/-- What the parsers of groups of messages say when the message is of the group, but of none of
its types: the message type of the group, and the text. -/
def strangerTexts : List (Nat × String) := [
  (0, "Unknown utility message status"),
  (1, "Unknown midi1 channel voice status"),
  (2, "Unknown midi1 channel voice status"),
  (4, "Unknown midi2 channel voice status"),
  (13, "Couldn't interpret flex data status / bank fields"),
  (15, "Couldn't interpret flex data status / bank fields")]

/-- The groups such a text speaks of, by their message type. -/
def speaksOf : String → List Nat
  | "Unknown utility message status" => [0]
  | "Unknown midi1 channel voice status" => [2]
  | "Unknown midi2 channel voice status" => [4]
  | "Couldn't interpret flex data status / bank fields" => [13]
  | _ => []

end Midi2
