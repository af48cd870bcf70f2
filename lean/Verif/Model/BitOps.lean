import Verif.Model.Basic

/-!
# Bit accessors (/repo/midi2/src/detail/bit_ops.rs)

`ux` integers `uN` are `BitVec N`.  The index assertions (`assert!(index < 32)`
and so on) are not represented in the result type: every call site in the crate
uses a literal index or one reduced modulo the bound (`% 4`), and the theorems
about these functions carry the bound as a hypothesis.
-/

namespace Midi2

namespace U32

/-- bit_ops.rs:19-22 -/
def bit (w : BitVec 32) (i : Nat) : Bool := ((w >>> (31 - i)) &&& 0x1#32) != 0#32

/-- bit_ops.rs:24-31 -/
def setBit (w : BitVec 32) (i : Nat) (v : Bool) : BitVec 32 :=
  (w &&& ~~~(0x1#32 <<< (31 - i))) ||| ((BitVec.ofBool v).setWidth 32 <<< (31 - i))

/-- bit_ops.rs:33-36 -/
def crumb (w : BitVec 32) (i : Nat) : BitVec 2 := ((w >>> (30 - i * 2)) &&& 0x3#32).setWidth 2

/-- bit_ops.rs:38-44 -/
def setCrumb (w : BitVec 32) (i : Nat) (v : BitVec 2) : BitVec 32 :=
  (w &&& ~~~(0x3#32 <<< (30 - i * 2))) ||| (v.setWidth 32 <<< (30 - i * 2))

/-- bit_ops.rs:46-49 -/
def nibble (w : BitVec 32) (i : Nat) : BitVec 4 := ((w >>> (28 - i * 4)) &&& 0xF#32).setWidth 4

/-- bit_ops.rs:51-57 -/
def setNibble (w : BitVec 32) (i : Nat) (v : BitVec 4) : BitVec 32 :=
  (w &&& ~~~(0xF#32 <<< (28 - i * 4))) ||| (v.setWidth 32 <<< (28 - i * 4))

/-- bit_ops.rs:59-62 -/
def septet (w : BitVec 32) (i : Nat) : BitVec 7 := ((w >>> (24 - i * 8)) &&& 0x7F#32).setWidth 7

/-- bit_ops.rs:64-70 -/
def setSeptet (w : BitVec 32) (i : Nat) (v : BitVec 7) : BitVec 32 :=
  (w &&& ~~~(0x7F#32 <<< (24 - i * 8))) ||| (v.setWidth 32 <<< (24 - i * 8))

/-- bit_ops.rs:72-75 -/
def octet (w : BitVec 32) (i : Nat) : BitVec 8 := ((w >>> (24 - i * 8)) &&& 0xFF#32).setWidth 8

/-- bit_ops.rs:77-83 -/
def setOctet (w : BitVec 32) (i : Nat) (v : BitVec 8) : BitVec 32 :=
  (w &&& ~~~(0xFF#32 <<< (24 - i * 8))) ||| (v.setWidth 32 <<< (24 - i * 8))

/-- bit_ops.rs:85-88 -/
def word (w : BitVec 32) (i : Nat) : BitVec 16 := ((w >>> (16 - i * 16)) &&& 0xFFFF#32).setWidth 16

/-- bit_ops.rs:90-96 -/
def setWord (w : BitVec 32) (i : Nat) (v : BitVec 16) : BitVec 32 :=
  (w &&& ~~~(0xFFFF#32 <<< (16 - i * 16))) ||| (v.setWidth 32 <<< (16 - i * 16))

end U32

namespace U7

/-- bit_ops.rs:100-103 -/
def bit (w : BitVec 7) (i : Nat) : Bool := ((w >>> (6 - i)) &&& 0x1#7) != 0#7

/-- bit_ops.rs:104-111 -/
def setBit (w : BitVec 7) (i : Nat) (v : Bool) : BitVec 7 :=
  (w &&& ~~~(0x1#7 <<< (6 - i))) ||| ((if v then 1#7 else 0#7) <<< (6 - i))

end U7

namespace U8

/-- bit_ops.rs:145-148 -/
def bit (w : BitVec 8) (i : Nat) : Bool := ((w >>> (7 - i)) &&& 0x1#8) != 0#8

/-- bit_ops.rs:149-156 -/
def setBit (w : BitVec 8) (i : Nat) (v : Bool) : BitVec 8 :=
  (w &&& ~~~(0x1#8 <<< (7 - i))) ||| ((BitVec.ofBool v).setWidth 8 <<< (7 - i))

/-- bit_ops.rs:163-166 -/
def nibble (w : BitVec 8) (i : Nat) : BitVec 4 := ((w >>> (4 - i * 4)) &&& 0xF#8).setWidth 4

/-- bit_ops.rs:167-173 -/
def setNibble (w : BitVec 8) (i : Nat) (v : BitVec 4) : BitVec 8 :=
  (w &&& ~~~(0xF#8 <<< (4 - i * 4))) ||| (v.setWidth 8 <<< (4 - i * 4))

/-- bit_ops.rs:174-176 (the index is ignored) -/
def septet (w : BitVec 8) : BitVec 7 := (w &&& 0x7F#8).setWidth 7

/-- bit_ops.rs:177-182 -/
def setSeptet (w : BitVec 8) (v : BitVec 7) : BitVec 8 :=
  (w &&& ~~~0x7F#8) ||| v.setWidth 8

end U8

/-! ## 7-bit encodings (/repo/midi2/src/detail/encode_7bit.rs) -/

/-- The two instances of `Byte` (encode_7bit.rs:8-15 for `u7`, 17-24 for `u8`). -/
class Byte (T : Type) where
  toU8 : T → BitVec 8
  fromU8 : BitVec 8 → T

/-- encode_7bit.rs:8-15 -/
instance : Byte (BitVec 7) where
  toU8 v := v.setWidth 8
  fromU8 v := (v &&& 0x7F#8).setWidth 7

/-- encode_7bit.rs:17-24 -/
instance : Byte (BitVec 8) where
  toU8 v := v &&& 0x7F#8
  fromU8 v := v &&& 0x7F#8

/-- `u14::to_u7s` (encode_7bit.rs:80-87); the output slice of length 2 is returned
as a pair. -/
def u14ToU7s (T : Type) [Byte T] (x : BitVec 14) : T × T :=
  let v : BitVec 16 := x.setWidth 16
  (Byte.fromU8 (v.setWidth 8), Byte.fromU8 ((v >>> 7).setWidth 8))

/-- `u14::from_u7s` (encode_7bit.rs:88-97). -/
def u14FromU7s {T : Type} [Byte T] (a b : T) : BitVec 14 :=
  (0#14 ||| (Byte.toU8 a &&& 0x7F#8).setWidth 14) |||
    ((Byte.toU8 b &&& 0x7F#8).setWidth 14 <<< 7)

/-- `u21::to_u7s` (encode_7bit.rs:57-65). -/
def u21ToU7s (T : Type) [Byte T] (x : BitVec 21) : T × T × T :=
  let v : BitVec 32 := x.setWidth 32
  (Byte.fromU8 (v.setWidth 8), Byte.fromU8 ((v >>> 7).setWidth 8),
    Byte.fromU8 ((v >>> 14).setWidth 8))

/-- `u21::from_u7s` (encode_7bit.rs:66-76). -/
def u21FromU7s {T : Type} [Byte T] (a b c : T) : BitVec 21 :=
  ((0#21 ||| (Byte.toU8 a &&& 0x7F#8).setWidth 21) |||
    ((Byte.toU8 b &&& 0x7F#8).setWidth 21 <<< 7)) |||
    ((Byte.toU8 c &&& 0x7F#8).setWidth 21 <<< 14)

/-- `u28::to_u7s` (encode_7bit.rs:32-41). -/
def u28ToU7s (T : Type) [Byte T] (x : BitVec 28) : T × T × T × T :=
  let v : BitVec 32 := x.setWidth 32
  (Byte.fromU8 (v.setWidth 8), Byte.fromU8 ((v >>> 7).setWidth 8),
    Byte.fromU8 ((v >>> 14).setWidth 8), Byte.fromU8 ((v >>> 21).setWidth 8))

/-- `u28::from_u7s` (encode_7bit.rs:42-53). -/
def u28FromU7s {T : Type} [Byte T] (a b c d : T) : BitVec 28 :=
  (((0#28 ||| (Byte.toU8 a &&& 0x7F#8).setWidth 28) |||
    ((Byte.toU8 b &&& 0x7F#8).setWidth 28 <<< 7)) |||
    ((Byte.toU8 c &&& 0x7F#8).setWidth 28 <<< 14)) |||
    ((Byte.toU8 d &&& 0x7F#8).setWidth 28 <<< 21)

end Midi2
