import Verif.Spec.Sysex
import Verif.Model.Text

/-!
# Text messages: packets on the wire

Numbers and lists only; none of the model's loops, iterators or resize functions.
-/

namespace Midi2

/-- UTF-8 octets of a string. -/
def utf8 (s : String) : List Nat := s.toUTF8.data.toList.map UInt8.toNat

/-- The string has no NUL character. -/
def NulFree (s : String) : Prop := '\x00' ∉ s.toList

/-- A string without its NUL characters. -/
def withoutNul (s : String) : String := String.ofList (s.toList.filter (· ≠ '\x00'))

/-- The text that is left of a string when its last octet is lost and NUL characters are
passed over: `none` when the last character has more octets than the lost one. -/
def withoutLastOctet (s : String) : Option String :=
  match s.toList.getLast? with
  | none => some ""
  | some c => if c.utf8Size = 1 then some (withoutNul (String.ofList s.toList.dropLast)) else none

/-- Packets needed for `n` octets of text, `cap` in each: at least one. -/
def textPackets (cap n : Nat) : Nat := if n = 0 then 1 else (n + cap - 1) / cap

/-- The octets of a text message: in every packet a header and the next `cap` octets of the
text, padded with zeros. -/
def textWire (header : Nat → List Nat) (cap : Nat) (text : List Nat) : List Nat :=
  (List.range (textPackets cap text.length)).flatMap fun j =>
    let part := (text.drop (cap * j)).take cap
    header j ++ part ++ List.replicate (cap - part.length) 0

/-- M2-104-UM section 7.5: type and group; format, address and channel (address 0 with a
channel, address 1 for the whole group); bank; status. -/
def flexHeader (group : Nat) (channel : Option Nat) (bank status packets j : Nat) : List Nat :=
  [0xD0 + group, 64 * statusCode packets j + channel.getD 16, bank, status]

/-- M2-104-UM section 7.1: type, format and 10 bit status. -/
def streamHeader (status packets j : Nat) : List Nat :=
  [0xF0 + 4 * statusCode packets j + status / 256, status % 256]

namespace FlexText

/-- What every value of a flex data text message type has: at least one packet of buffer,
the first with the type nibble, bank and status of the message. -/
structure Backs (t : FlexText) (b : List (BitVec 32)) : Prop where
  len : 4 ≤ b.length
  type : fieldAt b 0 0 4 = some 13
  bank : fieldAt b 0 16 8 = some t.bank.toNat
  status : fieldAt b 0 24 8 = some t.status.toNat

/-- The words a flex data text message of the given text is encoded in; `channels j` is the
channel in the header of packet `j`. -/
def IsEncoding (t : FlexText) (d : List (BitVec 32)) (group : BitVec 4)
    (channels : Nat → Option (BitVec 4)) (s : String) : Prop :=
  octets d = textWire
    (fun j => flexHeader group.toNat ((channels j).map BitVec.toNat) t.bank.toNat t.status.toNat
      (textPackets 12 (utf8 s).length) j) 12 (utf8 s)

/-- An operation of the interface. -/
inductive Op
  | setText (s : String)
  | setGroup (g : BitVec 4)
  | setChannel (c : Option (BitVec 4))

/-- What a history of operations should leave: the last text and group, and the channel of
every packet.  `set_optional_channel` reaches the first packet only; setting the text copies
the channel of the first packet to all. -/
structure State where
  group : BitVec 4
  channels : Nat → Option (BitVec 4)
  text : String

/-- Effect of an operation. -/
def State.step (st : State) : Op → State
  | .setText s => { st with channels := fun _ => st.channels 0, text := s }
  | .setGroup g => { st with group := g }
  | .setChannel c => { st with channels := fun j => if j = 0 then c else st.channels j }

/-- Of a new message. -/
def State.start : State := ⟨0, fun _ => none, ""⟩

/-- The text bytes of all whole packets of a buffer. -/
def slots (b : List (BitVec 32)) : List Nat :=
  (List.range (12 * (b.length / 4))).map fun i => octetVal b (16 * (i / 12) + 4 + i % 12)

/-- Words of the packets of a slice up to the first of another type.  A truncated last
packet counts too. -/
def run (b : List (BitVec 32)) : List (BitVec 32) :=
  (packetHeads 4 b).takeWhile fun w => decide (field w 0 4 = 13)

/-- The slices the parser accepts.  Bank and status are checked for all complete packets
of the slice, whatever their type; the last text byte of the slice is not looked at. -/
structure Accepts (t : FlexText) (b : List (BitVec 32)) : Prop where
  len : 4 ≤ b.length
  formats : SeqOk ((run b).map fun w => field w 8 2)
  groups : ∀ j, j < (run b).length → 4 * (j + 1) ≤ b.length →
    fieldAt b (4 * j) 4 4 = fieldAt b 0 4 4
  banks : ∀ j, 4 * (j + 1) ≤ b.length → fieldAt b (4 * j) 16 8 = some t.bank.toNat
  statuses : ∀ j, 4 * (j + 1) ≤ b.length → fieldAt b (4 * j) 24 8 = some t.status.toNat
  text : ∃ s : String, utf8 s = (slots b).dropLast.filter (· ≠ 0)

end FlexText

namespace StreamText

/-- What every value of a stream text message type has: at least one packet of buffer, the
first with the type nibble and status of the message. -/
structure Backs (t : StreamText) (b : List (BitVec 32)) : Prop where
  len : 4 ≤ b.length
  type : fieldAt b 0 0 4 = some 15
  status : fieldAt b 0 6 10 = some t.status.toNat

/-- Octets in front of the text. -/
def first (t : StreamText) : Nat := if t.offset = 0 then 2 else 3

/-- Octets of text in a packet. -/
def capacity (t : StreamText) : Nat := 16 - t.first

/-- The words a stream text message of the given text is encoded in; `blocks j` is the
function block number in packet `j` (not used by the messages without function block). -/
def IsEncoding (t : StreamText) (d : List (BitVec 32)) (blocks : Nat → BitVec 8) (s : String) : Prop :=
  octets d = textWire (fun j =>
      streamHeader t.status.toNat (textPackets t.capacity (utf8 s).length) j ++
        if t.offset = 0 then [] else [(blocks j).toNat])
    t.capacity (utf8 s)

/-- An operation of the interface. -/
inductive Op
  | setText (s : String)
  | setBlock (n : BitVec 8)

/-- What a history of operations should leave: the last text, and the function block number
in every packet.  `set_function_block` reaches all packets; packets added by setting a longer
text have number 0. -/
structure State where
  blocks : Nat → BitVec 8
  text : String

/-- Effect of an operation on a message in packets of `cap` text octets. -/
def State.step (cap : Nat) (st : State) : Op → State
  | .setText s =>
    ⟨fun j => if j < textPackets cap (utf8 st.text).length then st.blocks j else 0, s⟩
  | .setBlock n => { st with blocks := fun _ => n }

/-- Of a new message. -/
def State.start : State := ⟨fun _ => 0, ""⟩

/-- The text bytes of all whole packets of a buffer. -/
def slots (t : StreamText) (b : List (BitVec 32)) : List Nat :=
  (List.range (t.capacity * (b.length / 4))).map fun i =>
    octetVal b (16 * (i / t.capacity) + t.first + i % t.capacity)

/-- Words of the packets of a slice up to the first of another type.  A truncated last
packet counts too. -/
def run (b : List (BitVec 32)) : List (BitVec 32) :=
  (packetHeads 4 b).takeWhile fun w => decide (field w 0 4 = 15)

/-- The slices the parser accepts.  The status is checked for all complete packets of the
slice, whatever their type. -/
structure Accepts (t : StreamText) (b : List (BitVec 32)) : Prop where
  len : 4 ≤ b.length
  formats : SeqOk ((run b).map fun w => field w 4 2)
  statuses : ∀ j, 4 * (j + 1) ≤ b.length → fieldAt b (4 * j) 6 10 = some t.status.toNat
  blocks : t.offset = 1 → ∀ j, 4 * (j + 1) ≤ b.length →
    fieldAt b (4 * j) 16 8 = fieldAt b 0 16 8
  text : ∃ s : String, utf8 s = (t.slots b).filter (· ≠ 0)

end StreamText

end Midi2
