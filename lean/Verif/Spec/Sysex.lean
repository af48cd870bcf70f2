import Verif.Spec.Legal
import Verif.Model.Sysex

/-!
# System exclusive messages: what the packets and the payload are

Numbers and lists only; none of the model's accessors, iterators or resize functions.
-/

namespace Midi2

/-- Numbers that describe a system exclusive packet. -/
structure SysexLayout where
  /-- message type in the first four bits -/
  type : Nat
  /-- words per packet -/
  words : Nat
  /-- payload bytes in a full packet -/
  capacity : Nat
  /-- octets in front of the payload -/
  first : Nat
  /-- the size field is the number of payload bytes plus this -/
  extra : Nat
  /-- number of values of a payload byte -/
  values : Nat

/-- M2-104-UM section 7.7: two words, six 7 bit bytes. -/
def sysex7Layout : SysexLayout := ⟨3, 2, 6, 2, 0, 128⟩

/-- M2-104-UM section 7.8: four words, stream id and 13 bytes; the stream id counts. -/
def sysex8Layout : SysexLayout := ⟨5, 4, 13, 3, 1, 256⟩

/-- The layout of a kind of message. -/
def Sx.layout : Sx → SysexLayout
  | .s7 => sysex7Layout
  | .s8 => sysex8Layout

/-- Octet number `a` of a buffer, most significant octet of a word first (0 outside). -/
def octetVal (b : List (BitVec 32)) (a : Nat) : Nat := (fieldAt b (a / 4) (8 * (a % 4)) 8).getD 0

/-- All octets of a buffer. -/
def octets (b : List (BitVec 32)) : List Nat := (List.range (4 * b.length)).map (octetVal b)

/-- Status of packet `j` of `n`: complete 0, begin 1, continue 2, end 3. -/
def statusCode (n j : Nat) : Nat :=
  if n = 1 then 0 else if j = 0 then 1 else if j + 1 = n then 3 else 2

namespace SysexLayout

/-- The buffer starts with a complete message of the group whose packets declare the given
numbers of payload bytes. -/
structure IsMessage (L : SysexLayout) (b : List (BitVec 32)) (group : Nat) (sizes : List Nat) :
    Prop where
  nonempty : sizes ≠ []
  whole : L.words * sizes.length ≤ b.length
  small : ∀ s ∈ sizes, s ≤ L.capacity
  type : ∀ j, j < sizes.length → fieldAt b (L.words * j) 0 4 = some L.type
  group : ∀ j, j < sizes.length → fieldAt b (L.words * j) 4 4 = some group
  status : ∀ j, j < sizes.length → fieldAt b (L.words * j) 8 4 = some (statusCode sizes.length j)
  size : ∀ j s, sizes[j]? = some s → fieldAt b (L.words * j) 12 4 = some (s + L.extra)

/-- Bytes declared by packet `j`. -/
def packetBytes (L : SysexLayout) (b : List (BitVec 32)) (j s : Nat) : List Nat :=
  (List.range s).map fun i => octetVal b (4 * L.words * j + L.first + i) % L.values

/-- The payload: the declared bytes of all packets in order. -/
def payload (L : SysexLayout) (b : List (BitVec 32)) (sizes : List Nat) : List Nat :=
  (sizes.zipIdx.map fun (s, j) => L.packetBytes b j s).flatten

/-- Sizes of the packets that carry `n` bytes: all full but the last, at least one. -/
def fill (L : SysexLayout) (n : Nat) : List Nat :=
  if n ≤ L.capacity ∨ L.capacity = 0 then [n] else L.capacity :: L.fill (n - L.capacity)
termination_by n
decreasing_by omega

/-- One packet: type and group, status and size, the stream id (0) of sysex8, the bytes
and zeros up to the packet size. -/
def packet (L : SysexLayout) (group n j : Nat) (bytes : List Nat) : List Nat :=
  [L.type * 16 + group, statusCode n j * 16 + (bytes.length + L.extra)] ++
    List.replicate (L.first - 2) 0 ++ bytes ++ List.replicate (L.capacity - bytes.length) 0

/-- A payload cut into packets: all full but the last, at least one. -/
def split {α : Type} (L : SysexLayout) (l : List α) : List (List α) :=
  if h : l.length ≤ L.capacity ∨ L.capacity = 0 then [l]
  else l.take L.capacity :: L.split (l.drop L.capacity)
termination_by l.length
decreasing_by
  rw [List.length_drop]; omega

/-- The octets on the wire of a message. -/
def wire (L : SysexLayout) (group : Nat) (payload : List Nat) : List Nat :=
  ((L.split payload).zipIdx.map fun (c, j) =>
    L.packet group (L.split payload).length j c).flatten

/-- Octets of a message with `n` payload bytes. -/
def wireLength (L : SysexLayout) (n : Nat) : Nat := 4 * L.words * (L.fill n).length

/-- Words of the packets of a slice up to the first of another type.  A truncated last
packet counts too. -/
def run (L : SysexLayout) (b : List (BitVec 32)) : List (BitVec 32) :=
  (packetHeads L.words b).takeWhile fun w => decide (field w 0 4 = L.type)

/-- The slices the parser accepts.  Sizes are checked for all complete packets of the
slice, whatever their type. -/
structure Accepts (L : SysexLayout) (b : List (BitVec 32)) : Prop where
  len : L.words ≤ b.length
  statuses : SeqOk ((L.run b).map fun w => field w 8 4)
  sizes : ∀ j, L.words * (j + 1) ≤ b.length →
    ∃ s, fieldAt b (L.words * j) 12 4 = some s ∧ L.extra ≤ s ∧ s ≤ L.capacity + L.extra
  groups : ∀ j, j < (L.run b).length → L.words * (j + 1) ≤ b.length →
    fieldAt b (L.words * j) 4 4 = fieldAt b 0 4 4
  streams : L.extra = 1 → ∀ j, j < (L.run b).length → L.words * (j + 1) ≤ b.length →
    fieldAt b (L.words * j) 16 8 = fieldAt b 0 16 8

/-- The last packet of the slice's message is not truncated. -/
def Untruncated (L : SysexLayout) (b : List (BitVec 32)) : Prop :=
  L.words * (L.run b).length ≤ b.length

/-- Word `i` is the header of a begin or continue packet which is not full. -/
def PartlyFilled (L : SysexLayout) (b : List (BitVec 32)) (i : Nat) : Prop :=
  fieldAt b i 0 4 = some L.type ∧ (fieldAt b i 8 4 = some 1 ∨ fieldAt b i 8 4 = some 2) ∧
    fieldAt b i 12 4 ≠ some (L.capacity + L.extra)

/-- From word `q` on, no word whose index is a multiple of four, with three more behind it, is
the header of a partly filled begin or continue packet.  (Debug builds of the library assert
something of the kind while they move payload bytes, and look at words behind the end of the
message as well.) -/
def Tidy (L : SysexLayout) (q : Nat) (b : List (BitVec 32)) : Prop :=
  ∀ i, q ≤ 4 * i → 4 * i + 4 ≤ b.length → ¬ L.PartlyFilled b (4 * i)

/-- The same up to the first such word which is not of the message type. -/
def TidyRun (L : SysexLayout) (q : Nat) (b : List (BitVec 32)) : Prop :=
  ∀ i, q ≤ 4 * i → 4 * i + 4 ≤ b.length → (∀ i', i' ≤ i → fieldAt b (4 * i') 0 4 = some L.type) →
    ¬ L.PartlyFilled b (4 * i)

end SysexLayout

/-- `Vec::splice`: the items `first..last` of a list replaced by others. -/
def spliced {α : Type} (l : List α) (first last : Nat) (new : List α) : List α :=
  l.take first ++ new ++ l.drop last

/-- First index of a range with the given lower bound. -/
def Bound.first : Bound → Nat
  | .included n => n
  | .excluded n => n + 1
  | .unbounded => 0

/-- One past the last index of a range with the given upper bound in a list of `n`. -/
def Bound.last (n : Nat) : Bound → Nat
  | .included m => m + 1
  | .excluded m => m
  | .unbounded => n

end Midi2
