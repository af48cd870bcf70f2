import Verif.Model.SysexBytes

/-!
# MIDI-CI discovery query

Model of /repo/midi2/src/ci/{common_properties,device_id,discovery}.rs and of the code generated
by /repo/midi2_proc/src/generate_ci.rs for `DiscoveryQuery<VERSION, B>`: a `Sysex7` over bytes
with fixed positions in its payload.
-/

namespace Midi2

/-- `DeviceId` (device_id.rs:3-8). -/
inductive DeviceId where
  | channel (c : BitVec 4)
  | group
  | functionBlock
deriving DecidableEq, Repr

namespace DeviceId

/-- `from_u8` (device_id.rs:17-29). -/
def fromU8 (v : BitVec 8) : Res DeviceId :=
  if v = 0x7F then .ok .functionBlock
  else if v = 0x7E then .ok .group
  else if v.toNat < 0x0F then .ok (.channel (v.setWidth 4))
  else .err .invalidData

/-- `to_u8` (device_id.rs:30-36). -/
def toU8 : DeviceId → BitVec 8
  | .group => 0x7E
  | .functionBlock => 0x7F
  | .channel c => c.setWidth 8

end DeviceId

/-- The settable properties of `DiscoveryQuery` (discovery.rs:22-57). -/
inductive CiField where
  | source
  | deviceManufacturer
  | deviceFamily
  | modelNumber
  | softwareVersion
  | processInquirySupported
  | propertyExchangeSupported
  | profileConfigurationSupported
  | protocolNegotiationSupported
  | maxSysexSize
  | outputPathId
deriving DecidableEq, Repr

namespace CiField

/-- The value types (discovery.rs:22-57). -/
def Val : CiField → Type
  | source => BitVec 28
  | deviceManufacturer => BitVec 7 × BitVec 7 × BitVec 7
  | deviceFamily => BitVec 14
  | modelNumber => BitVec 14
  | softwareVersion => BitVec 7 × BitVec 7 × BitVec 7 × BitVec 7
  | maxSysexSize => BitVec 28
  | outputPathId => BitVec 7
  | _ => Bool

/-- Equality of the values read from a field (the types at
/repo/midi2/src/ci/common_properties.rs and /repo/midi2/src/ci/discovery.rs are integers, arrays
of integers and `bool`, whose `==` is decidable). -/
instance : (f : CiField) → DecidableEq f.Val
  | source => inferInstanceAs (DecidableEq (BitVec 28))
  | deviceManufacturer => inferInstanceAs (DecidableEq (BitVec 7 × BitVec 7 × BitVec 7))
  | deviceFamily => inferInstanceAs (DecidableEq (BitVec 14))
  | modelNumber => inferInstanceAs (DecidableEq (BitVec 14))
  | softwareVersion => inferInstanceAs (DecidableEq (BitVec 7 × BitVec 7 × BitVec 7 × BitVec 7))
  | maxSysexSize => inferInstanceAs (DecidableEq (BitVec 28))
  | outputPathId => inferInstanceAs (DecidableEq (BitVec 7))
  | processInquirySupported => inferInstanceAs (DecidableEq Bool)
  | propertyExchangeSupported => inferInstanceAs (DecidableEq Bool)
  | profileConfigurationSupported => inferInstanceAs (DecidableEq Bool)
  | protocolNegotiationSupported => inferInstanceAs (DecidableEq Bool)

/-- The `#[version(..)]` attributes: the getter and the setter exist from this version on
(discovery.rs:22-57, generate_ci.rs:186-260). -/
def version : CiField → BitVec 8
  | outputPathId => 2
  | _ => 1

/-- The defaults of the properties (common_properties.rs:180-182, discovery.rs:85-87, 117-119,
148-150, 183-185, 218-220, 253-255, 282-284): zeros. -/
def default : (f : CiField) → f.Val
  | source => (0 : BitVec 28)
  | deviceManufacturer => ((0, 0, 0) : BitVec 7 × BitVec 7 × BitVec 7)
  | deviceFamily => (0 : BitVec 14)
  | modelNumber => (0 : BitVec 14)
  | softwareVersion => ((0, 0, 0, 0) : BitVec 7 × BitVec 7 × BitVec 7 × BitVec 7)
  | maxSysexSize => (0 : BitVec 28)
  | outputPathId => (0 : BitVec 7)
  | processInquirySupported => false
  | propertyExchangeSupported => false
  | profileConfigurationSupported => false
  | protocolNegotiationSupported => false

end CiField

namespace Ci

/-- `STATUS` (discovery.rs:3). -/
def status : BitVec 8 := 0x70

/-- `MIN_SIZE` (discovery.rs:5-8, generate_ci.rs:428-448): the arms for the supported versions,
otherwise the minimum of `Sysex7`. -/
def minSize (v : BitVec 8) : Nat :=
  if v = 1 then 31 else if v = 2 then 32 else 2

/-- `u28::from_u7s(&buffer[i..i + 4])` (e.g. common_properties.rs:166-169): panics exactly when
the range is out of bounds. -/
def readU28 (b : Buf .bytes) (i : Nat) : Res (BitVec 28) := do
  return u28FromU7s (← at' b i) (← at' b (i + 1)) (← at' b (i + 2)) (← at' b (i + 3))

/-- `v.to_u7s(&mut buffer[i..i + 4])` (e.g. common_properties.rs:176-179). -/
def writeU28 (b : Buf .bytes) (i : Nat) (x : BitVec 28) : Res (Buf .bytes) := do
  let s := u28ToU7s (BitVec 8) x
  let b ← modifyAt b i fun _ => s.1
  let b ← modifyAt b (i + 1) fun _ => s.2.1
  let b ← modifyAt b (i + 2) fun _ => s.2.2.1
  modifyAt b (i + 3) fun _ => s.2.2.2

/-- `u14::from_u7s(&buffer[i..i + 2])` (discovery.rs:102-105, 133-136). -/
def readU14 (b : Buf .bytes) (i : Nat) : Res (BitVec 14) := do
  return u14FromU7s (← at' b i) (← at' b (i + 1))

/-- `v.to_u7s(&mut buffer[i..i + 2])` (discovery.rs:120-123, 151-154). -/
def writeU14 (b : Buf .bytes) (i : Nat) (x : BitVec 14) : Res (Buf .bytes) := do
  let s := u14ToU7s (BitVec 8) x
  let b ← modifyAt b i fun _ => s.1
  modifyAt b (i + 1) fun _ => s.2

/-- `u7::new(buffer[i])` (e.g. discovery.rs:69). -/
def readU7 (b : Buf .bytes) (i : Nat) : Res (BitVec 7) := do Sxb.u7New (← at' b i)

/-- `buffer[i] = v.into()` (e.g. discovery.rs:89). -/
def writeU7 (b : Buf .bytes) (i : Nat) (x : BitVec 7) : Res (Buf .bytes) :=
  modifyAt b i fun _ => x.setWidth 8

/-- `CiSupportProperty<BIT>::read` (discovery.rs:203-206). -/
def readBit (b : Buf .bytes) (bit : Nat) : Res Bool := do return U8.bit (← at' b 25) bit

/-- `CiSupportProperty<BIT>::write` (discovery.rs:221-224). -/
def writeBit (b : Buf .bytes) (bit : Nat) (x : Bool) : Res (Buf .bytes) :=
  modifyAt b 25 fun w => U8.setBit w bit x

/-- The getters (generate_ci.rs:186-204 with common_properties.rs:166-169 and
discovery.rs:67-73, 102-105, 133-136, 164-171, 203-206, 237-240, 268-270). -/
def get : (f : CiField) → Buf .bytes → Res f.Val
  | .source, b => readU28 b 6
  | .deviceManufacturer, b => do return (← readU7 b 14, ← readU7 b 15, ← readU7 b 16)
  | .deviceFamily, b => readU14 b 17
  | .modelNumber, b => readU14 b 19
  | .softwareVersion, b => do
    return (← readU7 b 21, ← readU7 b 22, ← readU7 b 23, ← readU7 b 24)
  | .processInquirySupported, b => readBit b 3
  | .propertyExchangeSupported, b => readBit b 4
  | .profileConfigurationSupported, b => readBit b 5
  | .protocolNegotiationSupported, b => readBit b 6
  | .maxSysexSize, b => readU28 b 26
  | .outputPathId, b => readU7 b 30

/-- The setters (generate_ci.rs:248-258 with common_properties.rs:176-179 and
discovery.rs:88-92, 120-123, 151-154, 186-191, 221-224, 249-252, 279-281). -/
def set : (f : CiField) → Buf .bytes → f.Val → Res (Buf .bytes)
  | .source, b, x => writeU28 b 6 x
  | .deviceManufacturer, b, x => do
    let x : BitVec 7 × BitVec 7 × BitVec 7 := x
    let b ← writeU7 b 14 x.1
    let b ← writeU7 b 15 x.2.1
    writeU7 b 16 x.2.2
  | .deviceFamily, b, x => writeU14 b 17 x
  | .modelNumber, b, x => writeU14 b 19 x
  | .softwareVersion, b, x => do
    let x : BitVec 7 × BitVec 7 × BitVec 7 × BitVec 7 := x
    let b ← writeU7 b 21 x.1
    let b ← writeU7 b 22 x.2.1
    let b ← writeU7 b 23 x.2.2.1
    writeU7 b 24 x.2.2.2
  | .processInquirySupported, b, x => writeBit b 3 x
  | .propertyExchangeSupported, b, x => writeBit b 4 x
  | .profileConfigurationSupported, b, x => writeBit b 5 x
  | .protocolNegotiationSupported, b, x => writeBit b 6 x
  | .maxSysexSize, b, x => writeU28 b 26 x
  | .outputPathId, b, x => writeU7 b 30 x

/-- `Ci::device_id` (generate_ci.rs:493-500, common_properties.rs:48-50). -/
def deviceId (b : Buf .bytes) : Res DeviceId := do (DeviceId.fromU8 (← at' b 2)).unwrap

/-- `Ci::source` (generate_ci.rs:501-508). -/
def source (b : Buf .bytes) : Res (BitVec 28) := readU28 b 6

/-- `Ci::destination` (generate_ci.rs:509-516, common_properties.rs:195-198). -/
def destination (b : Buf .bytes) : Res (BitVec 28) := readU28 b 10

/-- `if #property_version <= VERSION { .. }` around validation and initialisation
(generate_ci.rs:175-181, 532-538). -/
def fromVersion (v p : BitVec 8) (b : Buf .bytes) (f : Buf .bytes → Res (Buf .bytes)) :
    Res (Buf .bytes) :=
  if p.toNat ≤ v.toNat then f b else .ok b

/-- The constant properties in `initialise_property_statements` (discovery.rs:10-27 with
common_properties.rs:30-32, 89-91, 118-120, 151-153, 239-242). -/
def initConstants (b : Buf .bytes) : Res (Buf .bytes) := do
  let b ← modifyAt b 1 fun _ => 0x7E
  let b ← modifyAt b 2 fun _ => 0x7F
  let b ← modifyAt b 3 fun _ => 0x0D
  let b ← modifyAt b 4 fun _ => status
  let b ← set .source b CiField.source.default
  writeU28 b 10 (BitVec.allOnes 28)

/-- `initialise_property_statements` (generate_ci.rs:162-184), in the order of declaration.
`DiscoveryQuery` has `new` for versions 1 and 2 only, so the version 1 properties are always
written. -/
def init (v : BitVec 8) (b : Buf .bytes) : Res (Buf .bytes) := do
  let b ← initConstants b
  let b ← set .deviceManufacturer b CiField.deviceManufacturer.default
  let b ← set .deviceFamily b CiField.deviceFamily.default
  let b ← set .modelNumber b CiField.modelNumber.default
  let b ← set .softwareVersion b CiField.softwareVersion.default
  let b ← set .processInquirySupported b CiField.processInquirySupported.default
  let b ← set .propertyExchangeSupported b CiField.propertyExchangeSupported.default
  let b ← set .profileConfigurationSupported b CiField.profileConfigurationSupported.default
  let b ← set .protocolNegotiationSupported b CiField.protocolNegotiationSupported.default
  let b ← set .maxSysexSize b CiField.maxSysexSize.default
  fromVersion v 2 b fun b => set .outputPathId b CiField.outputPathId.default

/-- Writing the version when there is room (generate_ci.rs:319-323, 346-350). -/
def writeVersion (v : BitVec 8) (b : Buf .bytes) : Res (Buf .bytes) :=
  if 5 < b.length then modifyAt b 5 fun _ => v else .ok b

/-- `new()` on `Vec` (generate_ci.rs:303-329). -/
def newVec (v : BitVec 8) : Res (Buf .bytes) := do
  let b ← Sxb.newVec
  let b ← Sxb.resizeVec b (minSize v - 2)
  let b ← writeVersion v b
  init v b

/-- `new_with_buffer` (generate_ci.rs:331-356). -/
def newWithBuffer (v : BitVec 8) (b : Buf .bytes) : Res (Buf .bytes) := do
  let b ← Sxb.newWithBuffer b
  let b ← Sxb.resizeVec b (minSize v - 2)
  let b ← writeVersion v b
  init v b

/-- The tail of `try_new` and `try_new_with_buffer` (generate_ci.rs:372-378, 397-403): the
result of `try_resize` is propagated with `?`. -/
def tryFinish (v : BitVec 8) (b : Buf .bytes) : Res (Buf .bytes) := do
  let (b, e) ← Sxb.tryResizeFixed b (minSize v - 2)
  match e with
  | some _ => .err .bufferOverflow
  | none => do
    let b ← modifyAt b 5 fun _ => v
    init v b

/-- `try_new()` over an array of `n` bytes (generate_ci.rs:358-382). -/
def tryNew (v : BitVec 8) (n : Nat) : Res (Buf .bytes) := do
  tryFinish v (← Sxb.tryNew n)

/-- `try_new_with_buffer` over arrays and mutable slices (generate_ci.rs:384-407). -/
def tryNewWithBuffer (v : BitVec 8) (b : Buf .bytes) : Res (Buf .bytes) := do
  tryFinish v (← Sxb.tryNewWithBuffer b)

/-- The validation steps which can fail (common_properties.rs:18-26, 72-80, 101-109, 132-140,
221-231); the others accept everything. -/
def validate (b : Buf .bytes) : Res (Buf .bytes) := do
  Res.check ((← at' b 1) == 0x7E)
  Res.check ((← at' b 2) == 0x7F)
  Res.check ((← at' b 3) == 0x0D)
  Res.check ((← at' b 4) == status)
  Res.check ((← readU28 b 10) == BitVec.allOnes 28)
  return b

/-- `TryFrom<&[u8]>` (generate_ci.rs:525-557); defined for every `VERSION`. -/
def tryFrom (v : BitVec 8) (b : Buf .bytes) : Res (Buf .bytes) :=
  if b.length < minSize v then .err .invalidData
  else do
    Res.check ((← at' b 5) == v)
    let b ← Sxb.tryFrom b
    fromVersion v 1 b validate

/-- `data()` by `Deref` to `Sysex7` (generate_ci.rs:450-460). -/
def data (b : Buf .bytes) : Res (Buf .bytes) := Sxb.data b

/-- `RebufferFrom` (generate_ci.rs:559-572), by that of `Sysex7`: the buffer is copied whole. -/
def rebufferFrom (b : Buf .bytes) : Res (Buf .bytes) := .ok b

/-- `TryRebufferFrom` into an array (generate_ci.rs:574-585), by that of `Sysex7`
(generate_message.rs:422-452; buffer.rs:368-400). -/
def tryRebufferArray (size : Nat) (b : Buf .bytes) : Res (Buf .bytes) :=
  if b.length > size then .err .bufferOverflow
  else .ok (b ++ List.replicate (size - b.length) 0)

end Ci

end Midi2
