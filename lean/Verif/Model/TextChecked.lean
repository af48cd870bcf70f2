import Verif.Model.FieldsChecked
import Verif.Model.Text
import Verif.Model.Ci

/-!
# Texts, support bits and moves of payload octets with the assertions of the bit accessors

`Model/Text.lean`, `Model/Ci.lean` and the moves in `Model/Sysex.lean` call the accessors without their assertions on the index
(/repo/midi2/src/detail/bit_ops.rs).  Here the same code calls them with the assertions.
-/

namespace Midi2

open BitOps

/-- Loop of `TextWriteStrProperty::write` (flex_data/text.rs:20-31), as `FlexText.writeLoop`. -/
def FlexText.writeLoopChecked : List (BitVec 8) → Nat → Nat → Buf .ump → Res (Buf .ump)
  | [], _, _, b => .ok b
  | v :: vs, packet, byte, b => do
    let b : Buf .ump ← updateAt (n := 32) b (packet * 4 + 1 + byte / 4) fun w =>
      set32 w (byte % 4) .octet v
    if byte == 11 then FlexText.writeLoopChecked vs (packet + 1) 0 b
    else FlexText.writeLoopChecked vs packet (byte + 1) b

/-- `TextBytesIterator::value` (flex_data/text.rs:156-161). -/
def FlexText.valueChecked (b : Buf .ump) (it : TextIt) : Res (BitVec 8) := do
  get32 (← at' b (it.packet * 4 + 1 + it.byte / 4)) (it.byte % 4) .octet

/-- The `TextBytesIterator` over a buffer (flex_data/text.rs:144-162), as `FlexText.source`. -/
def FlexText.sourceChecked (b : Buf .ump) : TextSource :=
  { FlexText.source b with value := FlexText.valueChecked b }

/-- Loop of `TextWriteStrProperty::write` (ump_stream.rs:201-212), as `StreamText.writeLoop`. -/
def StreamText.writeLoopChecked (offset : Nat) :
    List (BitVec 8) → Nat → Nat → Buf .ump → Res (Buf .ump)
  | [], _, _, b => .ok b
  | v :: vs, packet, byte, b => do
    let b : Buf .ump ← updateAt (n := 32) b (packet * 4 + (byte + 2 + offset) / 4) fun w =>
      set32 w ((byte + 2 + offset) % 4) .octet v
    if byte == 13 - offset then StreamText.writeLoopChecked offset vs (packet + 1) 0 b
    else StreamText.writeLoopChecked offset vs packet (byte + 1) b

/-- `TextBytesIterator::value` (ump_stream.rs:291-296). -/
def StreamText.valueChecked (offset : Nat) (b : Buf .ump) (it : TextIt) : Res (BitVec 8) := do
  get32 (← at' b (it.packet * 4 + (it.byte + 2 + offset) / 4)) ((it.byte + 2 + offset) % 4) .octet

/-- The `TextBytesIterator` over a buffer (ump_stream.rs:280-297), as `StreamText.source`. -/
def StreamText.sourceChecked (offset : Nat) (b : Buf .ump) : TextSource :=
  { StreamText.source offset b with value := StreamText.valueChecked offset b }

/-- `CiSupportProperty<BIT>::read` (ci/discovery.rs:203-206). -/
def Ci.readBitChecked (b : Buf .bytes) (bit : Nat) : Res Bool := do
  return (← get8 (← at' b 25) bit .bit).getLsbD 0

/-- `CiSupportProperty<BIT>::write` (ci/discovery.rs:221-224). -/
def Ci.writeBitChecked (b : Buf .bytes) (bit : Nat) (x : Bool) : Res (Buf .bytes) :=
  updateAt (n := 8) b 25 fun w => set8 w bit .bit (BitVec.ofBool x)

/-- The getters of the discovery query (ci/discovery.rs:203-206 for the support bits), as
`Ci.get`. -/
def Ci.getChecked : (f : CiField) → Buf .bytes → Res f.Val
  | .processInquirySupported, b => Ci.readBitChecked b 3
  | .propertyExchangeSupported, b => Ci.readBitChecked b 4
  | .profileConfigurationSupported, b => Ci.readBitChecked b 5
  | .protocolNegotiationSupported, b => Ci.readBitChecked b 6
  | f, b => Ci.get f b

/-- The setters of the discovery query (ci/discovery.rs:221-224 for the support bits), as
`Ci.set`. -/
def Ci.setChecked : (f : CiField) → Buf .bytes → f.Val → Res (Buf .bytes)
  | .processInquirySupported, b, x => Ci.writeBitChecked b 3 x
  | .propertyExchangeSupported, b, x => Ci.writeBitChecked b 4 x
  | .profileConfigurationSupported, b, x => Ci.writeBitChecked b 5 x
  | .protocolNegotiationSupported, b, x => Ci.writeBitChecked b 6 x
  | f, b, x => Ci.set f b x

namespace Sx

/-- `let v = buffer[src.0].octet(src.1); buffer[dst.0].set_octet(dst.1, v)` (sysex7.rs:634-635,
641-642; sysex8.rs:470-471, 477-478), as `copyOctet`. -/
def copyOctetChecked (b : Buf .ump) (src dst : Nat) : Res (Buf .ump) := do
  let v : BitVec 8 ← get32 (← at' b (src / 4)) (src % 4) .octet
  updateAt (n := 32) b (dst / 4) fun x => set32 x (dst % 4) .octet v

/-- Zeroing of the unused octets of the last packet (sysex7.rs:801-803, sysex8.rs:559-561), as
`zeroTail`. -/
def zeroTailChecked (k : Sx) (r : Nat) (p : Buf .ump) : Res (Buf .ump) :=
  (List.range' r (k.cap - r)).foldlM
    (fun (p : Buf .ump) i =>
      updateAt (n := 32) p ((i + k.off) / 4) fun w => set32 w ((i + k.off) % 4) .octet 0x0#8) p

/-- The inner loop of `compact` (sysex7.rs:715-725, sysex8.rs:625-635), as `compactPacket`. -/
def compactPacketChecked (k : Sx) (src : Nat) : List Nat → Buf .ump → Nat → Nat →
    Res (Buf .ump × Nat × Nat)
  | [], b, dp, di => .ok (b, dp, di)
  | i :: is, b, dp, di => do
    let v : BitVec 8 ← get32 (← at' b (src * k.stride + (i + k.off) / 4)) ((i + k.off) % 4) .octet
    let b : Buf .ump ← updateAt (n := 32) b (dp * k.stride + (di + k.off) / 4) fun x =>
      set32 x ((di + k.off) % 4) .octet v
    if di + 1 = k.cap then k.compactPacketChecked src is b (dp + 1) 0
    else k.compactPacketChecked src is b dp (di + 1)

end Sx

end Midi2
