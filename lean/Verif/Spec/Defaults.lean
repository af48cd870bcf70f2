import Verif.Model.MsgOps

/-!
# The default values of properties

What a freshly constructed message reads as: numbers are 0, flags are `false`, optional
values are absent, and the enumerated properties have the values below.
-/

namespace Midi2

/-- The zero of each plain representation. -/
def Rep.zero : (r : Rep) → r.Ty
  | .bool => false
  | .u4 => 0
  | .u7 => 0
  | .u8 => 0
  | .u14 => 0
  | .u16 => 0
  | .u32 => 0
  | .u7x3 => (0, 0, 0)
  | .u7x4 => (0, 0, 0, 0)

/-- The default value of each kind of property. -/
def Fld.freshValue : (f : Fld) → f.Ty
  | .hybrid r _ _ => r.zero
  | .schema r _ => r.zero
  | .utilData => (0 : BitVec 16)
  | .u20Data => (0 : BitVec 20)
  | .noteAttribute => none
  | .controller => Controller.modulation 0
  | .programBank => none
  | .flexOptionalChannel => none
  | .tonic _ => Tonic.C
  | .keySharpsFlats => KeySharpsFlats.sharps 0
  | .chordSharpsFlats _ => ChordSharpsFlats.natural
  | .chordType _ => ChordType.clearChord
  | .alteration _ => none
  | .uiHint => UiHint.undeclared
  | .midi1Port => none
  | .direction => Direction.bidirectional
  | .umpType _ | .cvStatus _ | .sysStatus _ | .flexStatus _ | .flexBank _ | .flexFormat _
  | .flexNoChannel | .streamStatus _ | .streamFormats => ()

/-- What construction must achieve: `b` is the buffer of the new message, `x` its
`data()`. -/
structure MsgDesc.Fresh (d : MsgDesc) (m : Fmt) (b : Buf m) : Prop where
  /-- `data()` returns, and is accepted by `try_from` of the same type -/
  valid : ∃ x, d.data m b = .ok x ∧ d.tryFrom m x = .ok x
  /-- every property with a getter reads its default -/
  defaults : ∀ n f, (n, f) ∈ d.props → f.accessible m = true → f.read m b = .ok f.freshValue

end Midi2
