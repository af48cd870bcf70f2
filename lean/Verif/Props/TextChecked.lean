import Verif.Model.TextChecked
import Verif.Props.FieldsChecked

/-!
# C42: no assertion of a bit accessor fires, for texts, support bits and moves
-/

namespace Midi2

open BitOps

/-- C42: writing a flex data text with the assertions of the bit accessors is writing it without,
for every text and every buffer. -/
theorem C42_no_assertion_flex_write (s : List (BitVec 8)) (b : Buf .ump) :
    FlexText.writeLoopChecked s 0 0 b = FlexText.writeText b s := by
  have key : ∀ (s : List (BitVec 8)) (p i : Nat) (b : Buf .ump),
      FlexText.writeLoopChecked s p i b = FlexText.writeLoop s p i b := by
    intro s
    induction s with
    | nil => intros; rfl
    | cons v vs ih =>
      intro p i b
      have hu := updateAt_ok (n := 32) (b := b) (i := p * 4 + 1 + i / 4)
        (f := fun w => set32 w (i % 4) .octet v) (g := fun w => U32.setOctet w (i % 4) v)
        (fun w => asserting_true (Nat.mod_lt _ (by decide)) _)
      simp only [FlexText.writeLoopChecked, FlexText.writeLoop, ih]
      rw [hu]
  exact key s 0 0 b

/-- C42: reading a flex data text with the assertions of the bit accessors is reading it without,
for every buffer and at every position. -/
theorem C42_no_assertion_flex_read (b : Buf .ump) : FlexText.sourceChecked b = FlexText.source b := by
  have : FlexText.valueChecked b = (FlexText.source b).value := by
    funext it
    simp only [FlexText.valueChecked, FlexText.source]
    cases at' b (it.packet * 4 + 1 + it.byte / 4) with
    | ok w => exact asserting_true (Nat.mod_lt _ (by decide)) _
    | err e => rfl
    | panic => rfl
  simp only [FlexText.sourceChecked, this]

/-- C42: writing a stream text with the assertions of the bit accessors is writing it without, for
every text, offset and buffer. -/
theorem C42_no_assertion_stream_write (offset : Nat) (s : List (BitVec 8)) (b : Buf .ump) :
    StreamText.writeLoopChecked offset s 0 0 b = StreamText.writeText offset b s := by
  have key : ∀ (s : List (BitVec 8)) (p i : Nat) (b : Buf .ump),
      StreamText.writeLoopChecked offset s p i b = StreamText.writeLoop offset s p i b := by
    intro s
    induction s with
    | nil => intros; rfl
    | cons v vs ih =>
      intro p i b
      have hu := updateAt_ok (n := 32) (b := b) (i := p * 4 + (i + 2 + offset) / 4)
        (f := fun w => set32 w ((i + 2 + offset) % 4) .octet v)
        (g := fun w => U32.setOctet w ((i + 2 + offset) % 4) v)
        (fun w => asserting_true (Nat.mod_lt _ (by decide)) _)
      simp only [StreamText.writeLoopChecked, StreamText.writeLoop, ih]
      rw [hu]
  exact key s 0 0 b

/-- C42: reading a stream text with the assertions of the bit accessors is reading it without, for
every offset, every buffer and at every position. -/
theorem C42_no_assertion_stream_read (offset : Nat) (b : Buf .ump) :
    StreamText.sourceChecked offset b = StreamText.source offset b := by
  have : StreamText.valueChecked offset b = (StreamText.source offset b).value := by
    funext it
    simp only [StreamText.valueChecked, StreamText.source]
    cases at' b (it.packet * 4 + (it.byte + 2 + offset) / 4) with
    | ok w => exact asserting_true (Nat.mod_lt _ (by decide)) _
    | err e => rfl
    | panic => rfl
  simp only [StreamText.sourceChecked, this]

theorem readBitChecked_eq {bit : Nat} (h : bit < 8) (b : Buf .bytes) :
    Ci.readBitChecked b bit = Ci.readBit b bit := by
  simp only [Ci.readBitChecked, Ci.readBit]
  cases at' b 25 with
  | ok w =>
    have hg : get8 w bit .bit = .ok (BitVec.ofBool (U8.bit w bit)) := asserting_true h _
    simp only [Res.ok_bind, hg]
    cases U8.bit w bit <;> rfl
  | err e => rfl
  | panic => rfl

theorem writeBitChecked_eq {bit : Nat} (h : bit < 8) (b : Buf .bytes) (x : Bool) :
    Ci.writeBitChecked b bit x = Ci.writeBit b bit x :=
  updateAt_ok (n := 8) fun w => by
    have hs : set8 w bit .bit (BitVec.ofBool x) =
        .ok (U8.setBit w bit ((BitVec.ofBool x).getLsbD 0)) := asserting_true h _
    rw [hs]
    cases x <;> rfl

/-- C42: reading a field of a discovery query with the assertions of the bit accessors is reading
it without. -/
theorem C42_no_assertion_ci_read (f : CiField) (b : Buf .bytes) : Ci.getChecked f b = Ci.get f b := by
  cases f <;> first | rfl | exact readBitChecked_eq (by decide) b

/-- C42: writing a field of a discovery query with the assertions of the bit accessors is writing it
without. -/
theorem C42_no_assertion_ci_write (f : CiField) (b : Buf .bytes) (x : f.Val) :
    Ci.setChecked f b x = Ci.set f b x := by
  cases f <;> first | rfl | exact writeBitChecked_eq (by decide) b x

theorem get_octet_mod (w : BitVec 32) (i : Nat) :
    get32 w (i % 4) .octet = .ok (U32.octet w (i % 4)) :=
  asserting_true (Nat.mod_lt _ (by decide)) _

theorem update_octet_mod (b : Buf .ump) (j i : Nat) (v : BitVec 8) :
    updateAt (n := 32) b j (fun x => set32 x (i % 4) .octet v) =
      modifyAt (α := BitVec 32) b j (fun x => U32.setOctet x (i % 4) v) :=
  updateAt_ok (n := 32) fun _ => asserting_true (Nat.mod_lt _ (by decide)) _

/-- C42: no assertion fires when a payload octet is moved (inserting, removing and replacing
payload). -/
theorem C42_no_assertion_move (b : Buf .ump) (src dst : Nat) :
    Sx.copyOctetChecked b src dst = Sx.copyOctet b src dst := by
  simp only [Sx.copyOctetChecked, Sx.copyOctet]
  cases at' b (src / 4) with
  | ok w =>
    have := get_octet_mod w src
    simp only [Res.ok_bind, this]
    exact update_octet_mod ..
  | err e => rfl
  | panic => rfl

/-- C42: no assertion fires when the octets behind the payload are zeroed. -/
theorem C42_no_assertion_zero_tail (k : Sx) (r : Nat) (p : Buf .ump) :
    k.zeroTailChecked r p = k.zeroTail r p := by
  have : (fun (p : Buf .ump) i => updateAt (n := 32) p ((i + k.off) / 4)
        fun w => set32 w ((i + k.off) % 4) .octet 0x0#8) =
      fun (p : Buf .ump) i => modifyAt p ((i + k.off) / 4)
        fun w => U32.setOctet w ((i + k.off) % 4) 0x0 := by
    funext p i
    exact update_octet_mod ..
  unfold Sx.zeroTailChecked Sx.zeroTail
  rw [this]

/-- C42: no assertion fires when a message is compacted. -/
theorem C42_no_assertion_compact (k : Sx) (src : Nat) (is : List Nat) :
    ∀ (b : Buf .ump) (dp di : Nat),
      k.compactPacketChecked src is b dp di = k.compactPacket src is b dp di := by
  induction is with
  | nil => intros; rfl
  | cons i is ih =>
    intro b dp di
    simp only [Sx.compactPacketChecked, Sx.compactPacket, ih]
    cases at' b (src * k.stride + (i + k.off) / 4) with
    | ok w =>
      have hg := get_octet_mod w (i + k.off)
      have hu := update_octet_mod b (dp * k.stride + (di + k.off) / 4) (di + k.off)
        (U32.octet w ((i + k.off) % 4))
      simp only [Res.ok_bind, hg]
      show (updateAt (n := 32) b (dp * k.stride + (di + k.off) / 4)
        (fun x => set32 x ((di + k.off) % 4) .octet (U32.octet w ((i + k.off) % 4))) >>= _) = _
      rw [hu]
    | err e => rfl
    | panic => rfl

-- the assertions are there: a bit behind the byte panics
example : Ci.readBitChecked (List.replicate 31 0xFF#8) 8 = .panic := by decide
example : Ci.getChecked .protocolNegotiationSupported (List.replicate 31 0x02#8) = .ok true := by
  decide
-- five bytes of text reach the second word of the payload
example : FlexText.writeLoopChecked [0x41, 0x42, 0x43, 0x44, 0x45] 0 0 [0xD0500101, 0, 0, 0] =
    .ok [0xD0500101, 0x41424344, 0x45000000, 0] := by decide

-- the last octet of a packet moves to the first octet of the next one
example : Sx.copyOctetChecked [0x30160102, 0x03040506, 0x30310000, 0] 7 10 =
    .ok [0x30160102, 0x03040506, 0x30310600, 0] := by decide

end Midi2
