import Verif.Model.Codec
import Verif.Model.Chunks

/-!
# Properties (fields) of messages

Each `#[property(..)]` type used by a fixed-size message is a constructor of
`Fld`.  For each there is the value type (`Property::Type`), and the functions
`ReadProperty::read`, `ReadProperty::validate`, `WriteProperty::write` and
`WriteProperty::default`, for 32-bit (UMP) and 8-bit (bytes) buffers.
`WriteProperty::validate` is never called by the crate and is not modelled.
-/

namespace Midi2

/-- `schema::Ump<D1, D2, D3, D4>` (/repo/midi2/src/detail/schema.rs:19). -/
structure UmpSchema where
  d1 : BitVec 32
  d2 : BitVec 32
  d3 : BitVec 32
  d4 : BitVec 32
deriving DecidableEq, Repr

/-- `schema::Bytes<B1, B2, B3>` (schema.rs:20). -/
structure BytesSchema where
  b1 : BitVec 8
  b2 : BitVec 8
  b3 : BitVec 8
deriving DecidableEq, Repr

/-- Types implementing `UmpSchemaRepr` / `BytesSchemaRepr`.
schema.rs:9-17, implementations from schema.rs:27 on. -/
inductive Rep where
  | bool | u4 | u7 | u8 | u14 | u16 | u32 | u7x3 | u7x4
deriving DecidableEq, Repr

/-- The Rust type.
The `for` types of the implementations in schema.rs: `bool` 27, `u4` 115 and 138, `u7` 158 and
180, `u8` 197 and 214, `u14` 244 and 270, `u16` 284, `u32` 306. -/
abbrev Rep.Ty : Rep → Type
  | bool => Bool
  | u4 => BitVec 4
  | u7 => BitVec 7
  | u8 => BitVec 8
  | u14 => BitVec 14
  | u16 => BitVec 16
  | u32 => BitVec 32
  | u7x3 => BitVec 7 × BitVec 7 × BitVec 7
  | u7x4 => BitVec 7 × BitVec 7 × BitVec 7 × BitVec 7

/-- `Default::default()` of the representation types.
std and the ux crate; used by `SchemaProperty`, /repo/midi2/src/detail/common_properties.rs. -/
def Rep.default : (r : Rep) → r.Ty
  | bool => false
  | u4 => 0
  | u7 => 0
  | u8 => 0
  | u14 => 0
  | u16 => 0
  | u32 => 0
  | u7x3 => (0, 0, 0)
  | u7x4 => (0, 0, 0, 0)

/-- The `UmpSchemaRepr` implementations: schema ↦ (buffer index, element index).
schema.rs:38-111 (bool), 126-134 (u4), 169-176 (u7), 225-240 (u8), 261-268 (u14),
295-302 (u16), 317-320 (u32; the element index is unused), and
/repo/midi2/src/ump_stream/device_identity.rs:28-62 (`[u7; 3]`, `[u7; 4]`; buffer
index and first septet). -/
def umpImpl : Rep → List (UmpSchema × (Nat × Nat))
  | .bool => [
      (⟨0x00000001, 0, 0, 0⟩, 0, 31), (⟨0x00000002, 0, 0, 0⟩, 0, 30),
      (⟨0, 0x00000001, 0, 0⟩, 1, 31), (⟨0, 0x00000002, 0, 0⟩, 1, 30),
      (⟨0, 0x00000004, 0, 0⟩, 1, 29), (⟨0, 0x00000008, 0, 0⟩, 1, 28),
      (⟨0, 0x00000010, 0, 0⟩, 1, 27), (⟨0, 0x00000100, 0, 0⟩, 1, 23),
      (⟨0, 0x00000200, 0, 0⟩, 1, 22), (⟨0x00008000, 0, 0, 0⟩, 0, 16),
      (⟨0, 0x80000000, 0, 0⟩, 1, 0)]
  | .u4 => [
      (⟨0xF0000000, 0, 0, 0⟩, 0, 0), (⟨0x0F000000, 0, 0, 0⟩, 0, 1),
      (⟨0x00F00000, 0, 0, 0⟩, 0, 2), (⟨0x000F0000, 0, 0, 0⟩, 0, 3),
      (⟨0x0000F000, 0, 0, 0⟩, 0, 4), (⟨0x00000F00, 0, 0, 0⟩, 0, 5),
      (⟨0x000000F0, 0, 0, 0⟩, 0, 6), (⟨0x0000000F, 0, 0, 0⟩, 0, 7),
      (⟨0, 0x0F000000, 0, 0⟩, 1, 1)]
  | .u7 => [
      (⟨0x7F000000, 0, 0, 0⟩, 0, 0), (⟨0x007F0000, 0, 0, 0⟩, 0, 1),
      (⟨0x00007F00, 0, 0, 0⟩, 0, 2), (⟨0x0000007F, 0, 0, 0⟩, 0, 3),
      (⟨0, 0x7F000000, 0, 0⟩, 1, 0), (⟨0, 0x007F0000, 0, 0⟩, 1, 1),
      (⟨0, 0x00007F00, 0, 0⟩, 1, 2), (⟨0, 0x0000007F, 0, 0⟩, 1, 3)]
  | .u8 => [
      (⟨0xFF000000, 0, 0, 0⟩, 0, 0), (⟨0x00FF0000, 0, 0, 0⟩, 0, 1),
      (⟨0x0000FF00, 0, 0, 0⟩, 0, 2), (⟨0x000000FF, 0, 0, 0⟩, 0, 3),
      (⟨0, 0xFF000000, 0, 0⟩, 1, 0), (⟨0, 0x00FF0000, 0, 0⟩, 1, 1),
      (⟨0, 0x0000FF00, 0, 0⟩, 1, 2), (⟨0, 0x000000FF, 0, 0⟩, 1, 3),
      (⟨0, 0, 0xFF000000, 0⟩, 2, 0), (⟨0, 0, 0x00FF0000, 0⟩, 2, 1),
      (⟨0, 0, 0x0000FF00, 0⟩, 2, 2), (⟨0, 0, 0x000000FF, 0⟩, 2, 3),
      (⟨0, 0, 0, 0xFF000000⟩, 3, 0), (⟨0, 0, 0, 0x00FF0000⟩, 3, 1),
      (⟨0, 0, 0, 0x0000FF00⟩, 3, 2), (⟨0, 0, 0, 0x000000FF⟩, 3, 3)]
  | .u14 => [
      (⟨0x7F7F0000, 0, 0, 0⟩, 0, 0), (⟨0x00007F7F, 0, 0, 0⟩, 0, 1),
      (⟨0, 0x7F7F0000, 0, 0⟩, 1, 0), (⟨0, 0x00007F7F, 0, 0⟩, 1, 1),
      (⟨0, 0, 0x7F7F0000, 0⟩, 2, 0), (⟨0, 0, 0x00007F7F, 0⟩, 2, 1),
      (⟨0, 0, 0, 0x7F7F0000⟩, 3, 0), (⟨0, 0, 0, 0x00007F7F⟩, 3, 1)]
  | .u16 => [
      (⟨0xFFFF0000, 0, 0, 0⟩, 0, 0), (⟨0x0000FFFF, 0, 0, 0⟩, 0, 1),
      (⟨0, 0xFFFF0000, 0, 0⟩, 1, 0), (⟨0, 0x0000FFFF, 0, 0⟩, 1, 1),
      (⟨0, 0, 0xFFFF0000, 0⟩, 2, 0), (⟨0, 0, 0x0000FFFF, 0⟩, 2, 1),
      (⟨0, 0, 0, 0xFFFF0000⟩, 3, 0), (⟨0, 0, 0, 0x0000FFFF⟩, 3, 1)]
  | .u32 => [
      (⟨0xFFFFFFFF, 0, 0, 0⟩, 0, 0), (⟨0, 0xFFFFFFFF, 0, 0⟩, 1, 0),
      (⟨0, 0, 0xFFFFFFFF, 0⟩, 2, 0), (⟨0, 0, 0, 0xFFFFFFFF⟩, 3, 0)]
  | .u7x3 => [(⟨0, 0x007F7F7F, 0, 0⟩, 1, 1)]
  | .u7x4 => [(⟨0, 0, 0, 0x7F7F7F7F⟩, 3, 0)]

/-- `UmpSchemaRepr::read` for buffer index `i` and element index `j`
(schema.rs:28-30, 116-118, 159-161, 215-217, 245-250, 285-287, 307-309;
device_identity.rs:35-42, 53-61). -/
def repReadAt (r : Rep) (i j : Nat) (b : List (BitVec 32)) : Res r.Ty :=
  match r with
  | .bool => do return U32.bit (← at' b i) j
  | .u4 => do return U32.nibble (← at' b i) j
  | .u7 => do return U32.septet (← at' b i) j
  | .u8 => do return U32.octet (← at' b i) j
  | .u14 => do
    let w ← at' b i
    return u14FromU7s (U32.septet w (2 * j)) (U32.septet w (2 * j + 1))
  | .u16 => do return U32.word (← at' b i) j
  | .u32 => at' b i
  | .u7x3 => do
    let w ← at' b i
    return (U32.septet w j, U32.septet w (j + 1), U32.septet w (j + 2))
  | .u7x4 => do
    let w ← at' b i
    return (U32.septet w j, U32.septet w (j + 1), U32.septet w (j + 2), U32.septet w (j + 3))

/-- `UmpSchemaRepr::write` (schema.rs:31-33, 119-121, 162-164, 218-220, 251-256,
288-290, 310-312; device_identity.rs:29-34, 46-52). -/
def repWriteAt (r : Rep) (i j : Nat) (b : List (BitVec 32)) (v : r.Ty) :
    Res (List (BitVec 32)) :=
  match r, v with
  | .bool, v => modifyAt b i (fun w => U32.setBit w j v)
  | .u4, v => modifyAt b i (fun w => U32.setNibble w j v)
  | .u7, v => modifyAt b i (fun w => U32.setSeptet w j v)
  | .u8, v => modifyAt b i (fun w => U32.setOctet w j v)
  | .u14, v =>
    let u7s := u14ToU7s (BitVec 7) v
    modifyAt b i (fun w => U32.setSeptet (U32.setSeptet w (2 * j) u7s.1) (2 * j + 1) u7s.2)
  | .u16, v => modifyAt b i (fun w => U32.setWord w j v)
  | .u32, v => modifyAt b i (fun _ => v)
  | .u7x3, (x, y, z) =>
    modifyAt b i (fun w => U32.setSeptet (U32.setSeptet (U32.setSeptet w j x) (j + 1) y) (j + 2) z)
  | .u7x4, (x, y, z, t) =>
    modifyAt b i (fun w => U32.setSeptet (U32.setSeptet (U32.setSeptet (U32.setSeptet w j x)
      (j + 1) y) (j + 2) z) (j + 3) t)

/-- `<T as UmpSchemaRepr<S>>::read`.  A missing implementation (a compile error in
Rust) is represented by `panic`; the theorems show it does not occur for any
property of any message. schema.rs:9-12. -/
def umpRead (r : Rep) (s : UmpSchema) (b : List (BitVec 32)) : Res r.Ty :=
  match (umpImpl r).lookup s with
  | some (i, j) => repReadAt r i j b
  | none => .panic

/-- `<T as UmpSchemaRepr<S>>::write`. schema.rs:9-12. -/
def umpWrite (r : Rep) (s : UmpSchema) (b : List (BitVec 32)) (v : r.Ty) :
    Res (List (BitVec 32)) :=
  match (umpImpl r).lookup s with
  | some (i, j) => repWriteAt r i j b v
  | none => .panic

/-- The `BytesSchemaRepr` implementations: schema.rs:149-154 (u4; byte and nibble
index), 191-193 (u7; byte index), 208-210 (u8; byte index), 270-280 (u14; first
byte). -/
def bytesImpl : Rep → List (BytesSchema × (Nat × Nat))
  | .u4 => [
      (⟨0xF0, 0, 0⟩, 0, 0), (⟨0x0F, 0, 0⟩, 0, 1), (⟨0, 0xF0, 0⟩, 1, 0),
      (⟨0, 0x0F, 0⟩, 1, 1), (⟨0, 0, 0xF0⟩, 2, 0), (⟨0, 0, 0x0F⟩, 2, 1)]
  | .u7 => [(⟨0x7F, 0, 0⟩, 0, 0), (⟨0, 0x7F, 0⟩, 1, 0), (⟨0, 0, 0x7F⟩, 2, 0)]
  | .u8 => [(⟨0xFF, 0, 0⟩, 0, 0), (⟨0, 0xFF, 0⟩, 1, 0), (⟨0, 0, 0xFF⟩, 2, 0)]
  | .u14 => [(⟨0, 0x7F, 0x7F⟩, 1, 0)]
  | _ => []

/-- `<T as BytesSchemaRepr<S>>::read` (schema.rs:139-141, 181-183, 198-200,
271-273); missing implementations as in `umpRead`. -/
def bytesRead (r : Rep) (s : BytesSchema) (b : List (BitVec 8)) : Res r.Ty :=
  match r, (bytesImpl r).lookup s with
  | .u4, some (i, j) => do return U8.nibble (← at' b i) j
  | .u7, some (i, _) => do return U8.septet (← at' b i)
  | .u8, some (i, _) => at' b i
  | .u14, some (i, _) => do
    let x ← at' b i
    let y ← at' b (i + 1)
    return u14FromU7s (U8.septet x) (U8.septet y)
  | _, _ => .panic

/-- `<T as BytesSchemaRepr<S>>::write` (schema.rs:142-144, 184-186, 201-203,
274-279). -/
def bytesWrite (r : Rep) (s : BytesSchema) (b : List (BitVec 8)) (v : r.Ty) :
    Res (List (BitVec 8)) :=
  match r, v, (bytesImpl r).lookup s with
  | .u4, v, some (i, j) => modifyAt b i (fun w => U8.setNibble w j v)
  | .u7, v, some (i, _) => modifyAt b i (fun w => U8.setSeptet w v)
  | .u8, v, some (i, _) => modifyAt b i (fun _ => v)
  | .u14, v, some (i, _) => do
    let u7s := u14ToU7s (BitVec 7) v
    let b ← modifyAt b i (fun w => U8.setSeptet w u7s.1)
    modifyAt b (i + 1) (fun w => U8.setSeptet w u7s.2)
  | _, _, _ => .panic

/-- The property types.  Parameters are the Rust const parameters / schemas.
Each is an implementation of `Property`, detail/property.rs:1-3; the lines of each are given at
its constructor. -/
inductive Fld where
  /-- `UmpMessageTypeProperty<TYPE>` (detail/common_properties.rs:12-43) -/
  | umpType (t : BitVec 4)
  /-- `ChannelVoiceStatusProperty<STATUS>` (common_properties.rs:45-93) -/
  | cvStatus (s : BitVec 4)
  /-- `SystemCommonStatus<STATUS>` (system_common.rs:250-294) -/
  | sysStatus (s : BitVec 8)
  /-- `HybridSchemaProperty<T, B, U>` (common_properties.rs:102-166) -/
  | hybrid (r : Rep) (bytes : BytesSchema) (ump : UmpSchema)
  /-- `UmpSchemaProperty<T, U>` (common_properties.rs:168-217) -/
  | schema (r : Rep) (ump : UmpSchema)
  /-- `utility::DataProperty` (utility.rs:166-195) -/
  | utilData
  /-- `delta_clockstamp::DataProperty` (utility.rs:112-140) -/
  | u20Data
  /-- `AttributeProperty` (channel_voice2/attribute.rs:58-92) -/
  | noteAttribute
  /-- `ControllerProperty` (channel_voice2/controller.rs:127-159) -/
  | controller
  /-- `BankProperty` (channel_voice2/program_change.rs:28-75) -/
  | programBank
  /-- `flex_data::StatusProperty<STATUS>` (flex_data.rs:920-949) -/
  | flexStatus (s : BitVec 8)
  /-- `flex_data::BankProperty<BANK>` (flex_data.rs:951-980) -/
  | flexBank (b : BitVec 8)
  /-- `flex_data::FormatProperty<FORMAT>` (flex_data.rs:982-1007) -/
  | flexFormat (f : BitVec 2)
  /-- `flex_data::OptionalChannelProperty` (flex_data.rs:1009-1058) -/
  | flexOptionalChannel
  /-- `flex_data::NoChannelProperty` (flex_data.rs:1060-1095) -/
  | flexNoChannel
  /-- `TonicProperty<S>` (flex_data/tonic.rs:18-76) -/
  | tonic (s : UmpSchema)
  /-- `set_key_signature::SharpsFlatsProperty` (set_key_signature.rs:48-90) -/
  | keySharpsFlats
  /-- `set_chord_name::SharpsFlatsProperty<S>` (set_chord_name.rs:63-121) -/
  | chordSharpsFlats (s : UmpSchema)
  /-- `ChordTypeProperty<S>` (set_chord_name.rs:187-245) -/
  | chordType (s : UmpSchema)
  /-- `AlterationProperty<S>` (set_chord_name.rs:331-376) -/
  | alteration (s : UmpSchema)
  /-- `ump_stream::StatusProperty<STATUS>` (ump_stream.rs:117-149) -/
  | streamStatus (s : BitVec 16)
  /-- `ump_stream::ConsistentFormatsProperty` (ump_stream.rs:151-184) -/
  | streamFormats
  /-- `UiHintProperty` (function_block_info.rs:46-94) -/
  | uiHint
  /-- `Midi1PortProperty` (function_block_info.rs:109-164) -/
  | midi1Port
  /-- `DirectionProperty` (function_block_info.rs:173-229) -/
  | direction
deriving DecidableEq, Repr

namespace Fld

/-- `Property::Type`. detail/property.rs:1-3. -/
abbrev Ty : Fld → Type
  | umpType _ => Unit
  | cvStatus _ => Unit
  | sysStatus _ => Unit
  | hybrid r _ _ => r.Ty
  | schema r _ => r.Ty
  | utilData => BitVec 16
  | u20Data => BitVec 20
  | noteAttribute => Option Attribute
  | controller => Controller
  | programBank => Option (BitVec 14)
  | flexStatus _ => Unit
  | flexBank _ => Unit
  | flexFormat _ => Unit
  | flexOptionalChannel => Option (BitVec 4)
  | flexNoChannel => Unit
  | tonic _ => Tonic
  | keySharpsFlats => KeySharpsFlats
  | chordSharpsFlats _ => ChordSharpsFlats
  | chordType _ => ChordType
  | alteration _ => Option Alteration
  | streamStatus _ => Unit
  | streamFormats => Unit
  | uiHint => UiHint
  | midi1Port => Option Midi1Port
  | direction => Direction

/-- `Property::Type` is `()`: the property gets no getter and no setter
(generate_message.rs:116, 260-263). -/
def isConst : Fld → Bool
  | umpType _ | cvStatus _ | sysStatus _ | flexStatus _ | flexBank _ | flexFormat _
  | flexNoChannel | streamStatus _ | streamFormats => true
  | _ => false

/-- `WriteProperty::default` of each property (same line ranges as `Fld`).
detail/property.rs:11-23. -/
def default : (f : Fld) → f.Ty
  | umpType _ => ()
  | cvStatus _ => ()
  | sysStatus _ => ()
  | hybrid r _ _ => r.default
  | schema r _ => r.default
  | utilData => 0
  | u20Data => 0
  | noteAttribute => none
  | controller => .modulation 0
  | programBank => none
  | flexStatus _ => ()
  | flexBank _ => ()
  | flexFormat _ => ()
  | flexOptionalChannel => none
  | flexNoChannel => ()
  | tonic _ => .C
  | keySharpsFlats => .sharps 0
  | chordSharpsFlats _ => .natural
  | chordType _ => .clearChord
  | alteration _ => none
  | streamStatus _ => ()
  | streamFormats => ()
  | uiHint => .undeclared
  | midi1Port => none
  | direction => .bidirectional

end Fld

/-- Buffer index of the two `TonicProperty` instances (tonic.rs:26-50, 52-76). -/
def tonicImpl : List (UmpSchema × Nat) :=
  [(⟨0, 0x0F000000, 0, 0⟩, 1), (⟨0, 0, 0, 0x0F000000⟩, 3)]

/-- Buffer index of the two chord `SharpsFlatsProperty` instances
(set_chord_name.rs:71-95, 97-121). -/
def chordSharpsFlatsImpl : List (UmpSchema × Nat) :=
  [(⟨0, 0, 0, 0xF0000000⟩, 3), (⟨0, 0xF0000000, 0, 0⟩, 1)]

/-- Buffer index of the two `ChordTypeProperty` instances
(set_chord_name.rs:195-219, 221-245). -/
def chordTypeImpl : List (UmpSchema × Nat) :=
  [(⟨0, 0x00FF0000, 0, 0⟩, 1), (⟨0, 0, 0, 0x00FF0000⟩, 3)]

/-- Buffer and octet index of the `AlterationProperty` instances
(set_chord_name.rs:371-376). -/
def alterationImpl : List (UmpSchema × (Nat × Nat)) :=
  [(⟨0, 0x0000FF00, 0, 0⟩, 1, 2), (⟨0, 0x000000FF, 0, 0⟩, 1, 3),
   (⟨0, 0, 0xFF000000, 0⟩, 2, 0), (⟨0, 0, 0x00FF0000, 0⟩, 2, 1),
   (⟨0, 0, 0, 0x0000FF00⟩, 3, 2), (⟨0, 0, 0, 0x000000FF⟩, 3, 3)]

/-- A lookup that must succeed (missing trait implementation otherwise).
Rust resolves `<T as UmpSchemaRepr<S>>` (schema.rs:9-12) at compile time. -/
def implOf {β : Type} (t : List (UmpSchema × β)) (s : UmpSchema) : Res β :=
  match t.lookup s with
  | some x => .ok x
  | none => .panic

/-- A decoded code: `unwrap()` / `panic!` on an illegal code.
E.g. channel_voice2/controller.rs:56, flex_data/tonic.rs:97. -/
def orPanic {α : Type} : Option α → Res α
  | some a => .ok a
  | none => .panic

/-- `status_from_buffer` (ump_stream.rs:433-435). -/
def streamStatusOf (w : BitVec 32) : BitVec 16 := ((w &&& 0x03FF0000#32) >>> 16).setWidth 16

/-- `packet[0] &= !0x03FF_0000; packet[0] |= (STATUS as u32) << 16`
(ump_stream.rs:144-145, 409-410). -/
def setStreamStatus (s : BitVec 16) (w : BitVec 32) : BitVec 32 :=
  (w &&& ~~~0x03FF0000#32) ||| (s.setWidth 32 <<< 16)

/-- Loop of `set_format_fields` (ump_stream.rs:362-368) over the packets after the
first one. -/
def setFormatLoop : List (List (BitVec 32)) → List (List (BitVec 32))
  | [] => []
  | [p] => [modifyHead0 (fun w => U32.setCrumb w 2 3) p]
  | p :: q :: rest => modifyHead0 (fun w => U32.setCrumb w 2 2) p :: setFormatLoop (q :: rest)

/-- `set_format_fields` on the list of packets (ump_stream.rs:352-368);
`none` is the panic on an empty sequence. -/
def setFormatPackets : List (List (BitVec 32)) → Option (List (List (BitVec 32)))
  | [] => none
  | [p] => some [modifyHead0 (fun w => U32.setCrumb w 2 0) p]
  | p :: rest => some (modifyHead0 (fun w => U32.setCrumb w 2 1) p :: setFormatLoop rest)

/-- `set_format_fields` (ump_stream.rs:343-369). -/
def setFormatFields (b : List (BitVec 32)) : Res (List (BitVec 32)) :=
  let isStream := fun p : List (BitVec 32) => U32.nibble (head0 p) 0 == 0xF#4
  match setFormatPackets ((chunksExact 4 b).takeWhile isStream) with
  | none => .panic
  | some ps => .ok (onChunksExact 4 b (fun cs => ps ++ cs.drop ps.length))

namespace Fld

/-- `ReadProperty::read` over a UMP buffer. detail/property.rs:5-9. -/
def read32 (f : Fld) (b : List (BitVec 32)) : Res f.Ty :=
  match f with
  | umpType _ => .ok ()
  | cvStatus _ => .ok ()
  | sysStatus _ => .ok ()
  | hybrid r _ u => umpRead r u b
  | schema r u => umpRead r u b
  | utilData => do return U32.word (← at' b 0) 1
  | u20Data => do return ((← at' b 0) &&& 0x000FFFFF#32).setWidth 20
  | noteAttribute => do
    let w ← at' b 0
    match (U32.octet w 3).toNat with
    | 0x0 => return none
    | 0x1 => do return some (.manufacturerSpecific (U32.word (← at' b 1) 1))
    | 0x2 => do return some (.profileSpecific (U32.word (← at' b 1) 1))
    | 0x3 => do return some (.pitch7_9 (U32.word (← at' b 1) 1))
    | _ => .panic
  | controller => do
    let w ← at' b 0
    let d ← at' b 1
    Controller.fromIndexAndData (U32.octet w 3) d
  | programBank => do
    let w ← at' b 0
    if U32.bit w 31 then do
      let d ← at' b 1
      return some (u14FromU7s (U32.octet d 2) (U32.octet d 3))
    else return none
  | flexStatus _ => .ok ()
  | flexBank _ => .ok ()
  | flexFormat _ => .ok ()
  | flexOptionalChannel => do
    let w ← at' b 0
    if U32.crumb w 5 == 0#2 then return some (U32.nibble w 3) else return none
  | flexNoChannel => .ok ()
  | tonic s => do
    let i ← implOf tonicImpl s
    orPanic (Tonic.fromNibble (U32.nibble (← at' b i) 1))
  | keySharpsFlats => do return KeySharpsFlats.fromNibble (U32.nibble (← at' b 1) 0)
  | chordSharpsFlats s => do
    let i ← implOf chordSharpsFlatsImpl s
    orPanic (ChordSharpsFlats.fromNibble (U32.nibble (← at' b i) 0))
  | chordType s => do
    let i ← implOf chordTypeImpl s
    orPanic (ChordType.fromOctet (U32.octet (← at' b i) 1))
  | alteration s => do
    let (i, j) ← implOf alterationImpl s
    orPanic (Alteration.fromOctet (U32.octet (← at' b i) j))
  | streamStatus _ => .ok ()
  | streamFormats => .ok ()
  | uiHint => do return UiHint.fromCrumb (U32.crumb (← at' b 0) 13)
  | midi1Port => do orPanic (Midi1Port.fromCrumb (U32.crumb (← at' b 0) 14))
  | direction => do orPanic (Direction.fromCrumb (U32.crumb (← at' b 0) 15))

/-- `ReadProperty::validate` over a UMP buffer. detail/property.rs:5-9. -/
def validate32 (f : Fld) (b : List (BitVec 32)) : Res Unit :=
  match f with
  | umpType t => do Res.check (U32.nibble (← at' b 0) 0 == t)
  | cvStatus s => do Res.check (U32.nibble (← at' b 0) 2 == s)
  | sysStatus s => do Res.check (U32.octet (← at' b 0) 1 == s)
  | hybrid _ _ _ => .ok ()
  | schema _ _ => .ok ()
  | utilData => .ok ()
  | u20Data => .ok ()
  | noteAttribute => do Res.check ((U32.octet (← at' b 0) 3).toNat ≤ 3)
  | controller => do Controller.validateIndex (U32.octet (← at' b 0) 3)
  | programBank => .ok ()
  | flexStatus s => Res.check ((chunksExact 4 b).all (fun p => U32.octet (head0 p) 3 == s))
  | flexBank k => Res.check ((chunksExact 4 b).all (fun p => U32.octet (head0 p) 2 == k))
  | flexFormat x => do Res.check (x == U32.crumb (← at' b 0) 4)
  | flexOptionalChannel => .ok ()
  | flexNoChannel => do Res.check (U32.crumb (← at' b 0) 5 != 0#2)
  | tonic s => do
    let i ← implOf tonicImpl s
    Res.check (Tonic.fromNibble (U32.nibble (← at' b i) 1)).isSome
  | keySharpsFlats => .ok ()
  | chordSharpsFlats s => do
    let i ← implOf chordSharpsFlatsImpl s
    Res.check (ChordSharpsFlats.fromNibble (U32.nibble (← at' b i) 0)).isSome
  | chordType s => do
    let i ← implOf chordTypeImpl s
    Res.check (ChordType.fromOctet (U32.octet (← at' b i) 1)).isSome
  | alteration s => do
    let (i, j) ← implOf alterationImpl s
    Res.check (Alteration.fromOctet (U32.octet (← at' b i) j)).isSome
  | streamStatus s => Res.check ((chunksExact 4 b).all (fun p => streamStatusOf (head0 p) == s))
  | streamFormats =>
    validateStatuses
      (fun p => U32.crumb (head0 p) 2 == 0#2) (fun p => U32.crumb (head0 p) 2 == 1#2)
      (fun p => U32.crumb (head0 p) 2 == 2#2) (fun p => U32.crumb (head0 p) 2 == 3#2)
      4 0xF#4 b
  | uiHint => .ok ()
  | midi1Port => do Res.check (Midi1Port.fromCrumb (U32.crumb (← at' b 0) 14)).isSome
  | direction => do Res.check (Direction.fromCrumb (U32.crumb (← at' b 0) 15)).isSome

/-- `WriteProperty::write` over a UMP buffer.  Note on `noteAttribute`: the final
`&mut bytes[..2]` of `write_attribute` (attribute.rs:55) panics on buffers shorter
than two words. -/
def write32 (f : Fld) (b : List (BitVec 32)) (v : f.Ty) : Res (List (BitVec 32)) :=
  match f, v with
  | umpType t, _ => modifyAt b 0 (fun w => U32.setNibble w 0 t)
  | cvStatus s, _ => modifyAt b 0 (fun w => U32.setNibble w 2 s)
  | sysStatus s, _ => modifyAt b 0 (fun w => U32.setOctet w 1 s)
  | hybrid r _ u, v => umpWrite r u b v
  | schema r u, v => umpWrite r u b v
  | utilData, v => modifyAt b 0 (fun w => U32.setWord w 1 v)
  | u20Data, v =>
    modifyAt b 0 (fun w => (w &&& ~~~0x000FFFFF#32) ||| BitVec.setWidth 32 v)
  | noteAttribute, v => do
    let b ← match v with
      | none => modifyAt b 0 (fun w => U32.setOctet w 3 0x0)
      | some (.manufacturerSpecific d) => do
        let b ← modifyAt b 0 (fun w => U32.setOctet w 3 0x1)
        modifyAt b 1 (fun w => U32.setWord w 1 d)
      | some (.profileSpecific d) => do
        let b ← modifyAt b 0 (fun w => U32.setOctet w 3 0x2)
        modifyAt b 1 (fun w => U32.setWord w 1 d)
      | some (.pitch7_9 d) => do
        let b ← modifyAt b 0 (fun w => U32.setOctet w 3 0x3)
        modifyAt b 1 (fun w => U32.setWord w 1 d)
    let _ ← sliceTo b 2
    return b
  | controller, v => do
    let (index, d) ← Controller.toIndexAndData v
    let b ← modifyAt b 0 (fun w => U32.setOctet w 3 index)
    modifyAt b 1 (fun _ => d)
  | programBank, some v => do
    let u7s := u14ToU7s (BitVec 7) v
    let b ← modifyAt b 1 (fun w => U32.setOctet w 2 (u7s.1.setWidth 8))
    let b ← modifyAt b 1 (fun w => U32.setOctet w 3 (u7s.2.setWidth 8))
    modifyAt b 0 (fun w => U32.setBit w 31 true)
  | programBank, none => do
    let b ← modifyAt b 0 (fun w => U32.setBit w 31 false)
    modifyAt b 1 (fun w => U32.setWord w 1 0x0)
  | flexStatus s, _ => modifyAt b 0 (fun w => U32.setOctet w 3 s)
  | flexBank k, _ => modifyAt b 0 (fun w => U32.setOctet w 2 k)
  | flexFormat x, _ => modifyAt b 0 (fun w => U32.setCrumb w 4 x)
  | flexOptionalChannel, some c => do
    let b ← modifyAt b 0 (fun w => U32.setCrumb w 5 0x0)
    modifyAt b 0 (fun w => U32.setNibble w 3 c)
  | flexOptionalChannel, none => do
    let b ← modifyAt b 0 (fun w => U32.setCrumb w 5 0x1)
    modifyAt b 0 (fun w => U32.setNibble w 3 0x0)
  | flexNoChannel, _ => do
    let b ← modifyAt b 0 (fun w => U32.setCrumb w 5 0x1)
    modifyAt b 0 (fun w => U32.setNibble w 3 0x0)
  | tonic s, v => do
    let i ← implOf tonicImpl s
    modifyAt b i (fun w => U32.setNibble w 1 (Tonic.intoNibble v))
  | keySharpsFlats, v => do
    let n ← KeySharpsFlats.intoNibble v
    modifyAt b 1 (fun w => U32.setNibble w 0 n)
  | chordSharpsFlats s, v => do
    let i ← implOf chordSharpsFlatsImpl s
    modifyAt b i (fun w => U32.setNibble w 0 (ChordSharpsFlats.intoNibble v))
  | chordType s, v => do
    let i ← implOf chordTypeImpl s
    modifyAt b i (fun w => U32.setOctet w 1 (ChordType.intoOctet v))
  | alteration s, v => do
    let (i, j) ← implOf alterationImpl s
    modifyAt b i (fun w => U32.setOctet w j (Alteration.intoOctet v))
  | streamStatus s, _ => .ok (onChunksExact 4 b (List.map (modifyHead0 (setStreamStatus s))))
  | streamFormats, _ => setFormatFields b
  | uiHint, v => modifyAt b 0 (fun w => U32.setCrumb w 13 (UiHint.intoCrumb v))
  | midi1Port, v => modifyAt b 0 (fun w => U32.setCrumb w 14 (Midi1Port.intoCrumb v))
  | direction, v => modifyAt b 0 (fun w => U32.setCrumb w 15 (Direction.intoCrumb v))

/-- `ReadProperty::read` over a byte buffer.  Properties of UMP-only messages have
no byte instance; they are `panic` here and never used. detail/property.rs:5-9. -/
def read8 (f : Fld) (b : List (BitVec 8)) : Res f.Ty :=
  match f with
  | umpType _ => .ok ()
  | cvStatus _ => .ok ()
  | sysStatus _ => .ok ()
  | hybrid r s _ => bytesRead r s b
  | schema r _ => .ok r.default
  | _ => .panic

/-- `ReadProperty::validate` over a byte buffer. detail/property.rs:5-9. -/
def validate8 (f : Fld) (b : List (BitVec 8)) : Res Unit :=
  match f with
  | umpType _ => .ok ()
  | cvStatus s => do Res.check (U8.nibble (← at' b 0) 0 == s)
  | sysStatus s => do Res.check ((← at' b 0) == s)
  | hybrid _ _ _ => .ok ()
  | schema _ _ => .ok ()
  | _ => .panic

/-- `WriteProperty::write` over a byte buffer. detail/property.rs:11-23. -/
def write8 (f : Fld) (b : List (BitVec 8)) (v : f.Ty) : Res (List (BitVec 8)) :=
  match f, v with
  | umpType _, _ => .ok b
  | cvStatus s, _ => modifyAt b 0 (fun w => U8.setNibble w 0 s)
  | sysStatus s, _ => modifyAt b 0 (fun _ => s)
  | hybrid r s _, v => bytesWrite r s b v
  | schema _ _, _ => .ok b
  | _, _ => .panic

end Fld

end Midi2
