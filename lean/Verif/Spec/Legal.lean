import Verif.Spec.Codes
import Verif.Model.MsgOps

/-!
# Which slices are well-formed messages

Arithmetic on the numerical value of words; none of the bit accessors, chunking or
validation functions of the model is used.
-/

namespace Midi2

/-- The number formed by `width` bits of a word starting at bit `pos`, counted from the
most significant bit. -/
def field (w : BitVec 32) (pos width : Nat) : Nat := w.toNat / 2 ^ (32 - pos - width) % 2 ^ width

/-- The same for word `i` of a buffer. -/
def fieldAt (b : List (BitVec 32)) (i pos width : Nat) : Option Nat :=
  (b[i]?).map (field · pos width)

/-- The packet in a UMP stream: words `0, k, 2k, …` of the buffer, where a truncated
last packet counts too. -/
def packetHeads (k : Nat) (b : List (BitVec 32)) : List (BitVec 32) :=
  (List.range ((b.length + k - 1) / k)).map fun i => (b[k * i]?).getD 0

/-- Formats of a message: one complete packet, or begin, any number of continue,
and end. -/
def SeqOk (fs : List Nat) : Prop :=
  fs = [0] ∨ ∃ n, fs = 1 :: (List.replicate n 2 ++ [3])

/-- Indices of the registered per-note controllers. -/
def Codes.controllers : List Nat :=
  [1, 2, 3, 7, 8, 10, 11, 70, 71, 72, 73, 74, 75, 76, 77, 78, 79, 91, 92, 93, 94, 95]

/-- A legal code of the field of `f` in a UMP buffer. -/
def Fld.Legal (f : Fld) (b : List (BitVec 32)) : Prop :=
  match f with
  | umpType t => fieldAt b 0 0 4 = some t.toNat
  | cvStatus s => fieldAt b 0 8 4 = some s.toNat
  | sysStatus s => fieldAt b 0 8 8 = some s.toNat
  | noteAttribute => ∃ c, fieldAt b 0 24 8 = some c ∧ c ≤ 3
  | controller => ∃ c, fieldAt b 0 24 8 = some c ∧ c ∈ Codes.controllers
  | flexStatus s => ∀ k, 4 * k + 4 ≤ b.length → fieldAt b (4 * k) 24 8 = some s.toNat
  | flexBank s => ∀ k, 4 * k + 4 ≤ b.length → fieldAt b (4 * k) 16 8 = some s.toNat
  | flexFormat x => fieldAt b 0 8 2 = some x.toNat
  | flexNoChannel => ∃ c, fieldAt b 0 10 2 = some c ∧ c ≠ 0
  | tonic s =>
    ∃ c, fieldAt b (if s.d4 = 0 then 1 else 3) 4 4 = some c ∧ c ≤ 7
  | chordSharpsFlats s =>
    ∃ c, fieldAt b (if s.d4 = 0 then 1 else 3) 0 4 = some c ∧ c ∈ [14, 15, 0, 1, 2]
  | chordType s => ∃ c, fieldAt b (if s.d4 = 0 then 1 else 3) 8 8 = some c ∧ c ≤ 26
  | alteration s =>
    ∃ c, fieldAt b (if s.d2 ≠ 0 then 1 else if s.d3 ≠ 0 then 2 else 3)
      (if s.d3 = 0xFF000000 then 0
       else if s.d3 = 0x00FF0000 then 8
       else if s.d2 = 0x0000FF00 ∨ s.d4 = 0x0000FF00 then 16 else 24) 4 = some c ∧ c ≤ 4
  | streamStatus s => ∀ k, 4 * k + 4 ≤ b.length → fieldAt b (4 * k) 6 10 = some s.toNat
  | streamFormats =>
    SeqOk (((packetHeads 4 b).takeWhile (fun w => decide (field w 0 4 = 15))).map
      (fun w => field w 4 2))
  | midi1Port => ∃ c, fieldAt b 0 28 2 = some c ∧ c ≠ 3
  | direction => ∃ c, fieldAt b 0 30 2 = some c ∧ c ≠ 0
  | hybrid _ _ _ | schema _ _ | utilData | u20Data | programBank | flexOptionalChannel
  | keySharpsFlats | uiHint => True

/-- A legal code of the field of `f` in a byte buffer. -/
def Fld.Legal8 (f : Fld) (b : List (BitVec 8)) : Prop :=
  match f with
  | cvStatus s => (b[0]?).map (fun x => x.toNat / 16) = some s.toNat
  | sysStatus s => (b[0]?).map (fun x => x.toNat) = some s.toNat
  | _ => True

/-- The slice holds a well-formed message of type `d`. -/
def MsgDesc.WellFormed (d : MsgDesc) : (m : Fmt) → Buf m → Prop
  | .ump, b => d.umpSize ≤ b.length ∧ ∀ p ∈ d.props, p.2.Legal b
  | .bytes, b => d.bytesSize.getD 0 ≤ b.length ∧ ∀ p ∈ d.props, p.2.Legal8 b

end Midi2
