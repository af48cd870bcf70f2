import Verif.Lemmas.Modes
import Verif.Spec.Packet

/-!
# Properties: builds with and without debug assertions (C59)

The crate contains `debug_assert!` in `move_payload_tail` and in the size of a sysex
packet.  `dbg = true` is a build with these assertions, `dbg = false` one without.
-/

namespace Midi2

/-! ## C59: debug assertions only stop a program -/

/-- C59: any history of mutations of a sysex message over a resizable buffer, starting from
any words: if the build with assertions does not panic, the build without them gives the same
message, word for word. -/
theorem C59_sysex_history {k : Sx} (cs : List (SxCall k)) (b : Buf .ump)
    (h : SxCall.execAll true cs b ≠ .panic) :
    SxCall.execAll false cs b = SxCall.execAll true cs b := by
  refine Res.Agree.eq ?_ h
  clear h
  induction cs generalizing b with
  | nil => exact .rfl' _
  | cons c cs ih => exact .bind (c.exec_agree b) ih

/-- C59 for the fallible calls over a buffer of fixed size: also the errors are the same. -/
theorem C59_sysex_try_history {k : Sx} (cs : List (SxTryCall k)) (b : Buf .ump)
    (h : SxTryCall.execAll true cs b ≠ .panic) :
    SxTryCall.execAll false cs b = SxTryCall.execAll true cs b := by
  refine Res.Agree.eq ?_ h
  clear h
  induction cs generalizing b with
  | nil => exact .rfl' _
  | cons c cs ih =>
    exact .bind (c.exec_agree b) fun x => .bind (ih x.1) fun _ => .rfl' _

example : SxTryCall.execAll (k := .s7) false
      [.setPayload ⟨[1, 2, 3, 4, 5, 6, 7], 7, some 7⟩, .appendPayload ⟨List.replicate 9 2, 9, some 9⟩]
      [0x30000000, 0, 0, 0] =
    SxTryCall.execAll (k := .s7) true
      [.setPayload ⟨[1, 2, 3, 4, 5, 6, 7], 7, some 7⟩, .appendPayload ⟨List.replicate 9 2, 9, some 9⟩]
      [0x30000000, 0, 0, 0] :=
  C59_sysex_try_history _ _ (by decide +kernel)

/-- C59 for the conversions of a byte message to words. -/
theorem C59_from_bytes (a : Buf .bytes) :
    (Sxb.fromBytes true a ≠ .panic → Sxb.fromBytes false a = Sxb.fromBytes true a) ∧
    (∀ n, Sxb.tryFromBytes true n a ≠ .panic →
      Sxb.tryFromBytes false n a = Sxb.tryFromBytes true n a) := by
  refine ⟨Res.Agree.eq ?_, fun n => Res.Agree.eq ?_⟩
  · unfold Sxb.fromBytes
    exact .bind (.rfl' _) fun b => .bind (.rfl' _) fun d => (Sx.ops_agree .s7 .vec).setPayload b d
  · unfold Sxb.tryFromBytes
    exact .bind (.rfl' _) fun _ => .bind (.rfl' _) fun b => .bind (.rfl' _) fun d =>
      .bind ((Sx.ops_agree .s7 .fixed).trySetPayload b d) fun _ => .rfl' _

example : Sxb.fromBytes true [0xF0, 1, 2, 0xF7] = .ok [0x30020102, 0] := by decide +kernel

/-- C59 for the payload iterator of a sysex packet: any sequence of `next` and `nth`, with or
without asking for `len()`, from any position. -/
theorem C59_packet_iterator (withLen : Bool) (k : Sx) (p : Buf .ump) (cs : List ItCall) (i : Nat)
    (h : ItCall.packetExecAll true withLen k p cs i ≠ .panic) :
    ItCall.packetExecAll false withLen k p cs i = ItCall.packetExecAll true withLen k p cs i := by
  refine Res.Agree.eq ?_ h
  clear h
  have hs := Packet.payloadSize_agree k p
  have hl : ∀ i, (ItCall.packetLen true withLen k p i).Agree
      (ItCall.packetLen false withLen k p i) := by
    intro i
    unfold ItCall.packetLen
    refine .ite ?_ (.rfl' _)
    refine .bind (.bind hs fun _ => .rfl' _) fun _ => .rfl' _
  induction cs generalizing i with
  | nil => exact .rfl' _
  | cons c cs ih =>
    have hn : ∀ i, (Packet.next true k p i).Agree (Packet.next false k p i) :=
      fun i => .bind hs fun _ => .rfl' _
    have hnth : ∀ n i, (Packet.nth true k p n i).Agree (Packet.nth false k p n i) :=
      fun n i => .bind hs fun _ => .rfl' _
    cases c with
    | next => exact .bind (hn i) fun x => .bind (hl _) fun _ => .bind (ih _) fun _ => .rfl' _
    | nth n => exact .bind (hnth n i) fun x => .bind (hl _) fun _ => .bind (ih _) fun _ => .rfl' _

/-- C59 is not vacuous: a history with growth over a packet boundary, removal and a byte write
succeeds with assertions on, and so gives the same words with them off. -/
example : SxCall.execAll (k := .s8) false
      [.setPayload ⟨[1, 2, 3, 4, 5, 6, 7, 8, 9, 10, 11, 12, 13, 14], 0, none⟩,
        .insertPayload ⟨[20, 21], 2, some 2⟩ 3,
        .splicePayload ⟨[], 0, some 0⟩ (.included 0) (.excluded 2), .setPayloadByte 0 99]
      [0x54010000, 0, 0, 0] =
    .ok [0x541E0063, 0x14150405, 0x06070809, 0x0A0B0C0D, 0x5432000E, 0, 0, 0] := by
  rw [C59_sysex_history _ _ (by decide +kernel)]
  decide +kernel

/-- The premise cannot be dropped: with assertions on, an accepted message with a short packet in
the middle panics where the other build succeeds. -/
theorem C59_assertion_premise :
    ∃ (b : Buf .ump) (c : SxCall .s8), Sx.s8.tryFrom b = .ok b ∧
      SxCall.execAll true [c] b = .panic ∧ (SxCall.execAll false [c] b).isOk = true :=
  ⟨[0x50130001, 0x02000000, 0, 0, 0x50220003, 0, 0, 0, 0x50310000, 0, 0, 0],
    .insertPayload ⟨[], 0, some 0⟩ 0, by decide +kernel, by decide +kernel, by decide +kernel⟩

end Midi2
