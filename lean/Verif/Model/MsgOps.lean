import Verif.Model.Messages

/-!
# Operations generated for every fixed-size message

Model of the methods the `generate_message` macro emits
(/repo/midi2_proc/src/generate_message.rs).  A message value is a newtype around
its buffer, so it is represented by the buffer's list of units.
-/

namespace Midi2

/-- The two unit types: `u32` (UMP) and `u8` (MIDI 1.0 byte stream).
/repo/midi2/src/buffer.rs:111-125. -/
inductive Fmt where
  | ump | bytes
deriving DecidableEq, Repr

/-- Bits per unit. /repo/midi2/src/buffer.rs:111-125. -/
abbrev Fmt.w : Fmt → Nat
  | ump => 32
  | bytes => 8

/-- A buffer of the given unit type.
/repo/midi2/src/buffer.rs:130-133: the slice that `buffer()` returns. -/
abbrev Buf (m : Fmt) : Type := List (BitVec m.w)

namespace Fld

/-- `ReadProperty::read` selected by unit type.
/repo/midi2/src/detail/property.rs:5-9; the selection is the `UNIT_ID` of
/repo/midi2/src/buffer.rs:436-524. -/
def read (m : Fmt) (f : Fld) (b : Buf m) : Res f.Ty :=
  match m, b with
  | .ump, b => f.read32 b
  | .bytes, b => f.read8 b

/-- `ReadProperty::validate` selected by unit type.
/repo/midi2/src/detail/property.rs:5-9; the selection is the `UNIT_ID` of
/repo/midi2/src/buffer.rs:436-524. -/
def validate (m : Fmt) (f : Fld) (b : Buf m) : Res Unit :=
  match m, b with
  | .ump, b => f.validate32 b
  | .bytes, b => f.validate8 b

/-- `WriteProperty::write` selected by unit type.
/repo/midi2/src/detail/property.rs:11-23; the selection is the `UNIT_ID` of
/repo/midi2/src/buffer.rs:436-524. -/
def write (m : Fmt) (f : Fld) (b : Buf m) (v : f.Ty) : Res (Buf m) :=
  match m, b with
  | .ump, b => f.write32 b v
  | .bytes, b => f.write8 b v

/-- The property has a getter and a setter for messages in this representation
(generate_message.rs:252-277, 619-644).  Constant properties have none; the group has
none over bytes (`Grouped` is only implemented for `B: Ump`, 623). -/
def accessible (m : Fmt) (f : Fld) : Bool :=
  !f.isConst && (match m, f with
    | .bytes, .schema _ _ => false
    | _, _ => true)

end Fld

/-- `Vec::resize(n, zero)` (std; /repo/midi2/src/buffer.rs:328-333, 357-362):
truncates or pads with zero. -/
def vecResize {w : Nat} (b : List (BitVec w)) (n : Nat) : List (BitVec w) :=
  b.take n ++ List.replicate (n - b.length) 0

/-- `try_resize` of arrays and mutable slices (buffer.rs:293-311): contents are
never modified. -/
def fixedTryResize {w : Nat} (b : List (BitVec w)) (n : Nat) : Res (List (BitVec w)) :=
  if n > b.length then .err .bufferOverflow else .ok b

/-- `for b in &mut buffer[..sz] { *b = zero }` (generate_message.rs:516-518). -/
def zeroPrefix {w : Nat} (b : List (BitVec w)) (n : Nat) : List (BitVec w) :=
  List.replicate n 0 ++ b.drop n

/-- Generated `initialise_property_statements` (generate_message.rs:125-143): write
the default of every property in declaration order. -/
def initProps (m : Fmt) : List (String × Fld) → Buf m → Res (Buf m)
  | [], b => .ok b
  | (_, f) :: ps, b => do
    let b ← f.write m b f.default
    initProps m ps b

/-- Generated validation steps (generate_message.rs:367-376): every property, in
order, stopping at the first error. -/
def validateProps (m : Fmt) : List (String × Fld) → Buf m → Res Unit
  | [], _ => .ok ()
  | (_, f) :: ps, b => do
    f.validate m b
    validateProps m ps b

/-- Generated `convert_properties` (generate_message.rs:704-719): copy every property
from a buffer of one representation to a buffer of the other. -/
def convertProps (src dst : Fmt) : List (String × Fld) → Buf src → Buf dst → Res (Buf dst)
  | [], _, b => .ok b
  | (_, f) :: ps, a, b => do
    let v ← f.read src a
    let b ← f.write dst b v
    convertProps src dst ps a b

namespace MsgDesc

/-- `MinSize::MIN_SIZE` (generate_message.rs:290-309).  For a message without byte
representation the `bytes` value is meaningless and never used. -/
def minSize (d : MsgDesc) : Fmt → Nat
  | .ump => d.umpSize
  | .bytes => d.bytesSize.getD 0

/-- `TryFrom<&[U]>` (generate_message.rs:352-388). -/
def tryFrom (d : MsgDesc) (m : Fmt) (b : Buf m) : Res (Buf m) :=
  if b.length < d.minSize m then .err .invalidData
  else do
    validateProps m d.props b
    return b

/-- `Data::data` with `Size::size` (generate_message.rs:279-288, 328-337). -/
def data (d : MsgDesc) (m : Fmt) (b : Buf m) : Res (Buf m) := sliceTo b (d.minSize m)

/-- `Packets::packets` (generate_message.rs:339-350), as the list of yielded slices. -/
def packets (d : MsgDesc) (b : Buf .ump) : Res (List (Buf .ump)) := do
  let x ← d.data .ump b
  return chunksExact (d.minSize .ump) x

/-- `new()` on a resizable buffer with default (generate_message.rs:470-495). -/
def newVec (d : MsgDesc) (m : Fmt) : Res (Buf m) :=
  initProps m d.props (vecResize [] (d.minSize m))

/-- `new_with_buffer(buffer)` (generate_message.rs:497-525). -/
def newWithBuffer (d : MsgDesc) (m : Fmt) (b : Buf m) : Res (Buf m) :=
  initProps m d.props (zeroPrefix (vecResize b (d.minSize m)) (d.minSize m))

/-- `try_new_with_buffer(buffer)` over an array or mutable slice
(generate_message.rs:527-555). -/
def tryNewWithBuffer (d : MsgDesc) (m : Fmt) (b : Buf m) : Res (Buf m) := do
  let b ← fixedTryResize b (d.minSize m)
  initProps m d.props (zeroPrefix b (d.minSize m))

/-- Array `new()` (generate_message.rs:557-590).  `ArraySizeValid` makes
`size < MIN_SIZE` a compile error, represented by `panic`. -/
def newArray (d : MsgDesc) (m : Fmt) (size : Nat) : Res (Buf m) :=
  if size < d.minSize m then .panic else initProps m d.props (List.replicate size 0)

/-- `try_new()` over an array (generate_message.rs:592-617). -/
def tryNew (d : MsgDesc) (m : Fmt) (size : Nat) : Res (Buf m) := do
  let b ← fixedTryResize (List.replicate size (0 : BitVec m.w)) (d.minSize m)
  initProps m d.props b

/-- `FromBytes` / `FromUmp` into a resizable buffer (generate_message.rs:646-665,
721-740). -/
def convertVec (d : MsgDesc) (src dst : Fmt) (a : Buf src) : Res (Buf dst) :=
  convertProps src dst d.props a (vecResize [] (d.minSize dst))

/-- `TryFromBytes` / `TryFromUmp` into an array (generate_message.rs:683-702,
758-777). -/
def tryConvertArray (d : MsgDesc) (src dst : Fmt) (size : Nat) (a : Buf src) :
    Res (Buf dst) := do
  let b ← fixedTryResize (List.replicate size (0 : BitVec dst.w)) (d.minSize dst)
  convertProps src dst d.props a b

/-- `FromBytes` / `FromUmp` into an array (generate_message.rs:667-681, 742-756). -/
def convertArray (d : MsgDesc) (src dst : Fmt) (size : Nat) (a : Buf src) : Res (Buf dst) :=
  if size < d.minSize dst then .panic
  else convertProps src dst d.props a (List.replicate size 0)

/-- `RebufferFrom` with `FromBuffer` (generate_message.rs:390-420;
buffer.rs:402-430): the buffer is copied or reborrowed whole. -/
def rebufferFrom (_d : MsgDesc) (m : Fmt) (b : Buf m) : Res (Buf m) := .ok b

/-- `TryRebufferFrom` into an array (generate_message.rs:422-452;
buffer.rs:368-400). -/
def tryRebufferArray (_d : MsgDesc) (m : Fmt) (size : Nat) (b : Buf m) : Res (Buf m) :=
  if b.length > size then .err .bufferOverflow
  else .ok (b ++ List.replicate (size - b.length) 0)

/-- `ArrayRebufferFrom` (generate_message.rs:454-468): only `data()` is copied;
a too small array is a compile error, represented by `panic`. -/
def arrayRebuffer (d : MsgDesc) (m : Fmt) (size : Nat) (b : Buf m) : Res (Buf m) :=
  if size < d.minSize m then .panic
  else do
    let x ← d.data m b
    if x.length ≤ size then return x ++ List.replicate (size - x.length) 0 else .panic

end MsgDesc

end Midi2
