import Verif.Spec.Usize

/-! # Histories of fallible calls on byte messages, with machine integers -/

namespace Midi2

/-- A fallible call on a byte message over a buffer of fixed size. -/
def SxTryCall.execBytesU (A : Arith) (b : Buf .bytes) : SxTryCall .s7 → Res (Buf .bytes × Option Error)
  | .setGroup _ => .ok (b, none)
  | .setPayload d => (Sxb.opsU A true).trySetPayloadU A b d
  | .splicePayload d rb re => (Sxb.opsU A true).trySpliceU A b d rb re
  | .insertPayload d i => (Sxb.opsU A true).tryInsertU A b d i
  | .appendPayload d => (Sxb.opsU A true).tryAppendU A b d
  | .appendByte v => (Sxb.opsU A true).tryAppendByteU A b v
  | .setPayloadByte i v => (Sxb.setByteU A b v i).bind fun b => .ok (b, none)

/-- A sequence of calls, with the errors returned. -/
def SxTryCall.execAllBytesU (A : Arith) :
    List (SxTryCall .s7) → Buf .bytes → Res (Buf .bytes × List (Option Error))
  | [], b => .ok (b, [])
  | c :: cs, b => do
    let (b, e) ← c.execBytesU A b
    let (b, es) ← SxTryCall.execAllBytesU A cs b
    return (b, e :: es)

end Midi2
