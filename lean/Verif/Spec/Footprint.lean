import Verif.Model.MsgOps

/-!
# Which bits belong to a property

Independent of the read/write code: for properties declared with a schema the bits
are those of the schema; for the others they are the positions given by the MIDI 2.0
UMP specification / the commented-out schema in the source.
-/

namespace Midi2

/-- The mask of word `i`. -/
def UmpSchema.at (s : UmpSchema) : Nat → BitVec 32
  | 0 => s.d1
  | 1 => s.d2
  | 2 => s.d3
  | 3 => s.d4
  | _ => 0

/-- The mask of byte `i`. -/
def BytesSchema.at (s : BytesSchema) : Nat → BitVec 8
  | 0 => s.b1
  | 1 => s.b2
  | 2 => s.b3
  | _ => 0

/-- Bits of a UMP message that a property occupies. -/
def Fld.umpBits : Fld → UmpSchema
  | .umpType _ => ⟨0xF0000000, 0, 0, 0⟩
  | .cvStatus _ => ⟨0x00F00000, 0, 0, 0⟩
  | .sysStatus _ => ⟨0x00FF0000, 0, 0, 0⟩
  | .hybrid _ _ u => u
  | .schema _ u => u
  | .utilData => ⟨0x0000FFFF, 0, 0, 0⟩
  | .u20Data => ⟨0x000FFFFF, 0, 0, 0⟩
  | .noteAttribute => ⟨0x000000FF, 0x0000FFFF, 0, 0⟩
  | .controller => ⟨0x000000FF, 0xFFFFFFFF, 0, 0⟩
  | .programBank => ⟨0x00000001, 0x0000FFFF, 0, 0⟩
  | .flexStatus _ => ⟨0x000000FF, 0, 0, 0⟩
  | .flexBank _ => ⟨0x0000FF00, 0, 0, 0⟩
  | .flexFormat _ => ⟨0x00C00000, 0, 0, 0⟩
  | .flexOptionalChannel => ⟨0x003F0000, 0, 0, 0⟩
  | .flexNoChannel => ⟨0x003F0000, 0, 0, 0⟩
  | .tonic s => s
  | .keySharpsFlats => ⟨0, 0xF0000000, 0, 0⟩
  | .chordSharpsFlats s => s
  | .chordType s => s
  | .alteration s => s
  | .streamStatus _ => ⟨0x03FF0000, 0, 0, 0⟩
  | .streamFormats => ⟨0x0C000000, 0, 0, 0⟩
  | .uiHint => ⟨0x00000030, 0, 0, 0⟩
  | .midi1Port => ⟨0x0000000C, 0, 0, 0⟩
  | .direction => ⟨0x00000003, 0, 0, 0⟩

/-- Bits of a byte-stream message that a property occupies (none for UMP-only
information such as the group). -/
def Fld.byteBits : Fld → BytesSchema
  | .cvStatus _ => ⟨0xF0, 0, 0⟩
  | .sysStatus _ => ⟨0xFF, 0, 0⟩
  | .hybrid _ b _ => b
  | _ => ⟨0, 0, 0⟩

/-- Mask of unit `i` in the given representation. -/
def Fld.bits (f : Fld) : (m : Fmt) → Nat → BitVec m.w
  | .ump => f.umpBits.at
  | .bytes => f.byteBits.at

/-- Two buffers of equal length agreeing on the bits of the masks. -/
def SameOn {n : Nat} (m : Nat → BitVec n) (b b' : List (BitVec n)) : Prop :=
  b.length = b'.length ∧ ∀ i (h : i < b.length) (h' : i < b'.length), b[i] &&& m i = b'[i] &&& m i

/-- Two buffers of equal length agreeing on every bit outside of the masks. -/
def SameOff {n : Nat} (m : Nat → BitVec n) (b b' : List (BitVec n)) : Prop :=
  b.length = b'.length ∧
    ∀ i (h : i < b.length) (h' : i < b'.length), b[i] &&& ~~~(m i) = b'[i] &&& ~~~(m i)

/-- Controller values which the code can represent faithfully: the setter does not
panic and the getter returns the same variant (see the property list, C36). -/
def Controller.faithful : Controller → Bool
  | .modulation _ | .breath _ | .pitch7_25 _ | .volume _ | .balance _ | .pan _
  | .expression _ => true
  | .soundController i _ => decide (1 ≤ i.toNat ∧ i.toNat ≤ 10)
  | .effectDepth i _ => decide (1 ≤ i.toNat ∧ i.toNat ≤ 4)
  | _ => false

/-- Key signatures which the code can represent faithfully (C38). -/
def KeySharpsFlats.faithful : KeySharpsFlats → Bool
  | .flats n => n != 0
  | _ => true

/-- Values a setter stores faithfully: everything, except for the two properties
above. -/
def Fld.faithful : (f : Fld) → f.Ty → Bool
  | .controller, v => Controller.faithful v
  | .keySharpsFlats, v => KeySharpsFlats.faithful v
  | _, _ => true

end Midi2
