import Verif.Model.BitOps

/-!
# The trait `BitOps` with its assertions (/repo/midi2/src/detail/bit_ops.rs)

`Model/BitOps.lean` has the arithmetic; here every method of the three implementations has its
assertion on the index, and the methods which an implementation does not have panic.
-/

namespace Midi2

namespace BitOps

/-- The pairs of methods of the trait (bit_ops.rs:3-16). -/
inductive Part where
  | bit | crumb | nibble | septet | octet | word
  deriving DecidableEq

/-- The width of the values; a `bool` is a bit (bit_ops.rs:3-16). -/
def Part.width : Part → Nat
  | bit => 1
  | crumb => 2
  | nibble => 4
  | septet => 7
  | octet => 8
  | word => 16

/-- `assert!(c)` before the rest of a method (for instance bit_ops.rs:20). -/
def asserting {α : Type} (c : Bool) (x : α) : Res α := if c then .ok x else .panic

/-- The getters of `u32` (bit_ops.rs:18-97). -/
def get32 (w : BitVec 32) (i : Nat) : (p : Part) → Res (BitVec p.width)
  | .bit => asserting (i < 32) (BitVec.ofBool (U32.bit w i))
  | .crumb => asserting (i < 16) (U32.crumb w i)
  | .nibble => asserting (i < 8) (U32.nibble w i)
  | .septet => asserting (i < 4) (U32.septet w i)
  | .octet => asserting (i < 4) (U32.octet w i)
  | .word => asserting (i < 2) (U32.word w i)

/-- The setters of `u32` (bit_ops.rs:18-97). -/
def set32 (w : BitVec 32) (i : Nat) : (p : Part) → BitVec p.width → Res (BitVec 32)
  | .bit, v => asserting (i < 32) (U32.setBit w i (v.getLsbD 0))
  | .crumb, v => asserting (i < 16) (U32.setCrumb w i v)
  | .nibble, v => asserting (i < 8) (U32.setNibble w i v)
  | .septet, v => asserting (i < 4) (U32.setSeptet w i v)
  | .octet, v => asserting (i < 4) (U32.setOctet w i v)
  | .word, v => asserting (i < 2) (U32.setWord w i v)

/-- The getters of `u7` (bit_ops.rs:99-142): everything but `bit` is `todo!()` or `panic!()`. -/
def get7 (w : BitVec 7) (i : Nat) : (p : Part) → Res (BitVec p.width)
  | .bit => asserting (i < 7) (BitVec.ofBool (U7.bit w i))
  | _ => .panic

/-- The setters of `u7` (bit_ops.rs:99-142). -/
def set7 (w : BitVec 7) (i : Nat) : (p : Part) → BitVec p.width → Res (BitVec 7)
  | .bit, v => asserting (i < 7) (U7.setBit w i (v.getLsbD 0))
  | _, _ => .panic

/-- The getters of `u8` (bit_ops.rs:144-197): `septet` and `octet` ignore the index; `crumb` is
`todo!()`, `word` is `panic!()`. -/
def get8 (w : BitVec 8) (i : Nat) : (p : Part) → Res (BitVec p.width)
  | .bit => asserting (i < 8) (BitVec.ofBool (U8.bit w i))
  | .crumb => .panic
  | .nibble => asserting (i < 2) (U8.nibble w i)
  | .septet => .ok (U8.septet w)
  | .octet => .ok w
  | .word => .panic

/-- The setters of `u8` (bit_ops.rs:144-197). -/
def set8 (w : BitVec 8) (i : Nat) : (p : Part) → BitVec p.width → Res (BitVec 8)
  | .bit, v => asserting (i < 8) (U8.setBit w i (v.getLsbD 0))
  | .crumb, _ => .panic
  | .nibble, v => asserting (i < 2) (U8.setNibble w i v)
  | .septet, v => asserting (i == 0) (U8.setSeptet w v)
  | .octet, v => asserting (i == 0) v
  | .word, _ => .panic

end BitOps

end Midi2
