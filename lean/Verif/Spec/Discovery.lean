import Verif.Spec.Link
import Verif.Spec.History
import Verif.Spec.TextRun

/-!
# C86: endpoint discovery

Programs of a user.  One side asks the other with an `EndpointDiscovery` message; the other answers
with the notifications it was asked for; the first reads them.
-/

namespace Midi2.Discovery

open Rx

/-- The arguments of the setters of `EndpointInfo`. -/
structure Info where
  major : BitVec 8
  minor : BitVec 8
  staticBlocks : Bool
  midi2 : Bool
  midi1 : Bool
  receivesJr : Bool
  sendsJr : Bool
  blocks : BitVec 7
deriving DecidableEq

/-- The arguments of the setters of `DeviceIdentity`. -/
structure Identity where
  manufacturer : BitVec 7 × BitVec 7 × BitVec 7
  family : BitVec 14
  model : BitVec 14
  software : BitVec 7 × BitVec 7 × BitVec 7 × BitVec 7
deriving DecidableEq

/-- The arguments of the setters of `StreamConfigurationNotification`. -/
structure Config where
  protocol : BitVec 8
  receiveJr : Bool
  sendJr : Bool
deriving DecidableEq

/-- What a device says of itself. -/
structure Device where
  info : Info
  identity : Identity
  name : String
  id : String
  config : Config

/-- The arguments of the setters of `EndpointDiscovery`. -/
structure Request where
  major : BitVec 8
  minor : BitVec 8
  info : Bool
  identity : Bool
  name : Bool
  id : Bool
  config : Bool

/-- What the side that asks has been told. -/
structure Told where
  info : Option Info
  identity : Option Identity
  name : Option String
  id : Option String
  config : Option Config
deriving DecidableEq

/-- What it should have been told. -/
def Device.told (dev : Device) (r : Request) : Told where
  info := if r.info then some dev.info else none
  identity := if r.identity then some dev.identity else none
  name := if r.name then some dev.name else none
  id := if r.id then some dev.id else none
  config := if r.config then some dev.config else none

/-- `T::<Vec<u32>>::new()`, the setters, and the words to be sent, `data()`. -/
def make (d : MsgDesc) (calls : List SetCall) : Res (UmpKind × List (BitVec 32)) := do
  let b ← d.newVec .ump
  let b ← runSetters .ump calls b
  return (.fixed d, ← d.data .ump b)

/-- The same for `EndpointName` and `ProductInstanceId`. -/
def makeText (t : StreamText) (s : String) : Res (UmpKind × List (BitVec 32)) := do
  let b ← t.newVec
  let b ← t.setText b s
  return (.streamText t, ← StreamText.data b)

/-- The setters of `EndpointDiscovery`. -/
def Request.calls (r : Request) : List SetCall :=
  [⟨"ump_version_major", .schema .u8 ⟨0x0000FF00, 0, 0, 0⟩, r.major⟩,
   ⟨"ump_version_minor", .schema .u8 ⟨0x000000FF, 0, 0, 0⟩, r.minor⟩,
   ⟨"request_endpoint_info", .schema .bool ⟨0, 0x00000001, 0, 0⟩, r.info⟩,
   ⟨"request_device_identity", .schema .bool ⟨0, 0x00000002, 0, 0⟩, r.identity⟩,
   ⟨"request_endpoint_name", .schema .bool ⟨0, 0x00000004, 0, 0⟩, r.name⟩,
   ⟨"request_product_instance_id", .schema .bool ⟨0, 0x00000008, 0, 0⟩, r.id⟩,
   ⟨"request_stream_configuration", .schema .bool ⟨0, 0x00000010, 0, 0⟩, r.config⟩]

/-- The setters of `EndpointInfo`. -/
def Info.calls (i : Info) : List SetCall :=
  [⟨"ump_version_major", .schema .u8 ⟨0x0000FF00, 0, 0, 0⟩, i.major⟩,
   ⟨"ump_version_minor", .schema .u8 ⟨0x000000FF, 0, 0, 0⟩, i.minor⟩,
   ⟨"static_function_blocks", .schema .bool ⟨0, 0x80000000, 0, 0⟩, i.staticBlocks⟩,
   ⟨"supports_midi2_protocol", .schema .bool ⟨0, 0x00000200, 0, 0⟩, i.midi2⟩,
   ⟨"supports_midi1_protocol", .schema .bool ⟨0, 0x00000100, 0, 0⟩, i.midi1⟩,
   ⟨"supports_receiving_jr_timestamps", .schema .bool ⟨0, 0x00000002, 0, 0⟩, i.receivesJr⟩,
   ⟨"supports_sending_jr_timestamps", .schema .bool ⟨0, 0x00000001, 0, 0⟩, i.sendsJr⟩,
   ⟨"number_of_function_blocks", .schema .u7 ⟨0, 0x7F000000, 0, 0⟩, i.blocks⟩]

/-- The setters of `DeviceIdentity`. -/
def Identity.calls (i : Identity) : List SetCall :=
  [⟨"device_manufacturer", .schema .u7x3 ⟨0, 0x007F7F7F, 0, 0⟩, i.manufacturer⟩,
   ⟨"device_family", .schema .u14 ⟨0, 0, 0x7F7F0000, 0⟩, i.family⟩,
   ⟨"device_family_model_number", .schema .u14 ⟨0, 0, 0x00007F7F, 0⟩, i.model⟩,
   ⟨"software_version", .schema .u7x4 ⟨0, 0, 0, 0x7F7F7F7F⟩, i.software⟩]

/-- The setters of `StreamConfigurationNotification`. -/
def Config.calls (c : Config) : List SetCall :=
  [⟨"protocol", .schema .u8 ⟨0x0000FF00, 0, 0, 0⟩, c.protocol⟩,
   ⟨"receive_jr_timestamps", .schema .bool ⟨0x00000002, 0, 0, 0⟩, c.receiveJr⟩,
   ⟨"send_jr_timestamps", .schema .bool ⟨0x00000001, 0, 0, 0⟩, c.sendJr⟩]

/-- The side that asks: the message. -/
def ask (r : Request) : Res (UmpKind × List (BitVec 32)) := make Msg.streamEndpointDiscovery r.calls

/-- `if asked { send(reply) }`. -/
def ifAsked (asked : Bool) (reply : Res (UmpKind × List (BitVec 32))) :
    Res (List (UmpKind × List (BitVec 32))) :=
  if asked then do return [← reply] else .ok []

/-- The device: what it sends for a message that has come in. -/
def answer (dev : Device) (m : UmpKind × List (BitVec 32)) : Res (List (UmpKind × List (BitVec 32))) :=
  if m.1 = .fixed Msg.streamEndpointDiscovery then do
    let info : Bool ← (Fld.schema .bool ⟨0, 0x00000001, 0, 0⟩).read .ump m.2
    let identity : Bool ← (Fld.schema .bool ⟨0, 0x00000002, 0, 0⟩).read .ump m.2
    let name : Bool ← (Fld.schema .bool ⟨0, 0x00000004, 0, 0⟩).read .ump m.2
    let id : Bool ← (Fld.schema .bool ⟨0, 0x00000008, 0, 0⟩).read .ump m.2
    let config : Bool ← (Fld.schema .bool ⟨0, 0x00000010, 0, 0⟩).read .ump m.2
    let r1 ← ifAsked info (make Msg.streamEndpointInfo dev.info.calls)
    let r2 ← ifAsked identity (make Msg.streamDeviceIdentity dev.identity.calls)
    let r3 ← ifAsked name (makeText .endpointName dev.name)
    let r4 ← ifAsked id (makeText .productInstanceId dev.id)
    let r5 ← ifAsked config (make Msg.streamStreamConfigurationNotification dev.config.calls)
    return r1 ++ r2 ++ r3 ++ r4 ++ r5
  else .ok []

/-- The same for one message after the other. -/
def answers (dev : Device) :
    List (UmpKind × List (BitVec 32)) → Res (List (UmpKind × List (BitVec 32)))
  | [] => .ok []
  | m :: ms => do
    let r ← answer dev m
    let rs ← answers dev ms
    return r ++ rs

/-- The getters of `EndpointInfo`. -/
def readInfo (b : List (BitVec 32)) : Res Info := do
  return ⟨← (Fld.schema .u8 ⟨0x0000FF00, 0, 0, 0⟩).read .ump b,
    ← (Fld.schema .u8 ⟨0x000000FF, 0, 0, 0⟩).read .ump b,
    ← (Fld.schema .bool ⟨0, 0x80000000, 0, 0⟩).read .ump b,
    ← (Fld.schema .bool ⟨0, 0x00000200, 0, 0⟩).read .ump b,
    ← (Fld.schema .bool ⟨0, 0x00000100, 0, 0⟩).read .ump b,
    ← (Fld.schema .bool ⟨0, 0x00000002, 0, 0⟩).read .ump b,
    ← (Fld.schema .bool ⟨0, 0x00000001, 0, 0⟩).read .ump b,
    ← (Fld.schema .u7 ⟨0, 0x7F000000, 0, 0⟩).read .ump b⟩

/-- The getters of `DeviceIdentity`. -/
def readIdentity (b : List (BitVec 32)) : Res Identity := do
  return ⟨← (Fld.schema .u7x3 ⟨0, 0x007F7F7F, 0, 0⟩).read .ump b,
    ← (Fld.schema .u14 ⟨0, 0, 0x7F7F0000, 0⟩).read .ump b,
    ← (Fld.schema .u14 ⟨0, 0, 0x00007F7F, 0⟩).read .ump b,
    ← (Fld.schema .u7x4 ⟨0, 0, 0, 0x7F7F7F7F⟩).read .ump b⟩

/-- The getters of `StreamConfigurationNotification`. -/
def readConfig (b : List (BitVec 32)) : Res Config := do
  return ⟨← (Fld.schema .u8 ⟨0x0000FF00, 0, 0, 0⟩).read .ump b,
    ← (Fld.schema .bool ⟨0x00000002, 0, 0, 0⟩).read .ump b,
    ← (Fld.schema .bool ⟨0x00000001, 0, 0, 0⟩).read .ump b⟩

/-- The side that asks: it reads the notifications and leaves other messages alone. -/
def learn (k : Told) (m : UmpKind × List (BitVec 32)) : Res Told :=
  if m.1 = .fixed Msg.streamEndpointInfo then do return { k with info := some (← readInfo m.2) }
  else if m.1 = .fixed Msg.streamDeviceIdentity then do
    return { k with identity := some (← readIdentity m.2) }
  else if m.1 = .streamText .endpointName then do
    return { k with name := some (← StreamText.endpointName.text m.2) }
  else if m.1 = .streamText .productInstanceId then do
    return { k with id := some (← StreamText.productInstanceId.text m.2) }
  else if m.1 = .fixed Msg.streamStreamConfigurationNotification then do
    return { k with config := some (← readConfig m.2) }
  else .ok k

/-- The same for one message after the other. -/
def learnAll (k : Told) : List (UmpKind × List (BitVec 32)) → Res Told
  | [] => .ok k
  | m :: ms => do
    let k ← learn k m
    learnAll k ms

/-- The notifications. -/
def notifications : List UmpKind :=
  [.fixed Msg.streamEndpointInfo, .fixed Msg.streamDeviceIdentity, .streamText .endpointName,
   .streamText .productInstanceId, .fixed Msg.streamStreamConfigurationNotification]

end Midi2.Discovery
