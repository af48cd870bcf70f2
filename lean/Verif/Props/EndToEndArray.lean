import Verif.Props.EndToEnd
import Verif.Props.Behind
import Verif.Lemmas.Dump
import Verif.Props.SysexBytesExact

/-!
# C54 in arrays

The messages are built in arrays, of any size which is large enough, instead of a `Vec`.
-/

namespace Midi2

open Sx

theorem built_array {d : MsgDesc} (hd : d ∈ Msg.all)
    (hn : d.name ≠ "ump_stream::FunctionBlockDiscovery") (size : Nat) (hl : d.umpSize ≤ size)
    (calls : List SetCall) (hc : ∀ c ∈ calls, c.legal d .ump) :
    ∃ b x, (d.newArray .ump size >>= runSetters .ump calls) = .ok b ∧ b.length = size ∧
      d.data .ump b = .ok x ∧ x.length = d.umpSize ∧
      UmpMessage.tryFrom x = .ok (.fixed d, x) ∧ Holding .ump d calls x := by
  obtain ⟨m, s, p, h1, h2, h3, h4, h5, h6, _, h8, h9⟩ := behind_front hd hn
    (List.replicate size 0) (by rw [List.length_replicate]; exact hl) (fun _ h => by
      have : head0 ((List.replicate size (0 : BitVec 32)).drop 4) = 0 := by
        rw [List.drop_replicate]
        cases size - 4 <;> rfl
      rw [this]; decide) calls hc
  rw [List.length_replicate] at h6
  refine ⟨m ++ s, m, ?_, by rw [List.length_append]; omega, ?_, h2, h8, h9⟩
  · rw [(newArray_eq d .ump size hl).1, h3]; exact h5
  · rw [data_ok (d := d) (m := .ump) (b := m ++ s)
      (show d.umpSize ≤ (m ++ s).length by rw [List.length_append]; omega)]
    show Res.ok ((m ++ s).take d.umpSize) = _
    rw [← h2, List.take_left']; rfl

theorem discovery_array (size : Nat) (hl : 4 ≤ size) : ∃ s, s.length = size - 4 ∧
    Msg.streamFunctionBlockDiscovery.newArray .ump size = .ok ([0xF0100000] ++ ([0, 0, 0] ++ s)) := by
  have e := (newArray_eq Msg.streamFunctionBlockDiscovery .ump size
    (show 1 ≤ size by omega)).1
  have r : List.replicate size (0 : BitVec 32) =
      List.replicate 4 0 ++ List.replicate (size - 4) 0 := by
    rw [List.replicate_append_replicate]; congr 1; omega
  have hsmall := List.all_eq_true.mp (List.all_eq_true.mp table_smallStatus
    Msg.streamFunctionBlockDiscovery (by decide +kernel))
  obtain ⟨s, i1, i2, _⟩ := initProps_app (p := List.replicate 4 0) (p' := [0xF0100000, 0, 0, 0])
    (s := List.replicate (size - 4) 0) Msg.streamFunctionBlockDiscovery.props hsmall
    (fun _ => ⟨rfl, fun _ => by
      have : head0 (List.replicate (size - 4) (0 : BitVec 32)) = 0 := by cases size - 4 <;> rfl
      rw [this]; decide⟩) (by decide +kernel)
  refine ⟨s, by rw [i2, List.length_replicate], ?_⟩
  rw [e, tryNewWithBuffer_init (by rw [List.length_replicate]; exact (show 1 ≤ size by omega)), r]
  exact i1

theorem built_discovery (size : Nat) (hl : 4 ≤ size) (calls : List SetCall)
    (hc : ∀ c ∈ calls, c.legal Msg.streamFunctionBlockDiscovery .ump) :
    ∃ b x, (Msg.streamFunctionBlockDiscovery.newArray .ump size >>= runSetters .ump calls) = .ok b ∧
      b.length = size ∧ Msg.streamFunctionBlockDiscovery.data .ump b = .ok x ∧ x.length = 1 ∧
      UmpMessage.tryFrom x = .ok (.fixed Msg.streamFunctionBlockDiscovery, x) ∧
      Holding .ump Msg.streamFunctionBlockDiscovery calls x := by
  have hd : Msg.streamFunctionBlockDiscovery ∈ Msg.all := by decide +kernel
  have hn := of_decide_eq_true (List.all_eq_true.mp table_names _ hd)
  obtain ⟨s, hs, e⟩ := discovery_array size hl
  obtain ⟨x, x1, x2, x3, x4, x5⟩ := setter_history (b := [0xF0100000]) hn calls
    (good_ump hd (Nat.le_refl 1)) hc
  obtain ⟨z, z1, z2, z3, _⟩ := setter_history (b := [0xF0100000, 0, 0, 0]) hn calls
    (good_ump hd (show 1 ≤ 4 by decide)) hc
  have r1 := (runSetters_app calls (fun c h => (hc c h).2.1) x1 ([0, 0, 0] ++ s)).1
  have r2 := (runSetters_app calls (fun c h => (hc c h).2.1) x1 [0, 0, 0]).1
  have ez : z = x ++ [0, 0, 0] := by
    rw [show ([0xF0100000, 0, 0, 0] : List (BitVec 32)) = [0xF0100000] ++ [0, 0, 0] from rfl] at z1
    rw [z1] at r2; cases r2; rfl
  have hx : x.length = 1 := x2
  have hacc : UmpMessage.tryFrom z = .ok (.fixed Msg.streamFunctionBlockDiscovery, z) := by
    obtain ⟨h, he⟩ := fixed_in_table hd
    exact (C10_ump_dispatch_partial he (fixed_not_misfiled _) z (fun _ => by rw [z2]; decide)).mpr
      (z3 (by decide +kernel))
  obtain ⟨h, t1, t2, _⟩ := UmpMessage.tryFrom_iff.mp hacc
  rw [ez] at t2
  have t3 : h.Of x := ⟨by rw [← fieldAt_left [0, 0, 0] (by omega)]; exact t2.1,
    by rw [← fieldAt_left [0, 0, 0] (by omega)]; exact t2.2⟩
  refine ⟨x ++ ([0, 0, 0] ++ s), x, by rw [e]; exact r1, ?_, ?_, hx,
    UmpMessage.tryFrom_iff.mpr ⟨h, t1, t3, x3 (by decide +kernel)⟩, x4, fun n f hf ha hcs => ?_⟩
  · rw [List.length_append, List.length_append, hx, hs]
    show 1 + (3 + (size - 4)) = size
    omega
  · rw [data_ok (show 1 ≤ (x ++ ([0, 0, 0] ++ s)).length by rw [List.length_append]; omega)]
    show Res.ok ((x ++ ([0, 0, 0] ++ s)).take 1) = _
    rw [← hx, List.take_left']; rfl
  · rw [x5 n f hf hcs]
    have : ∀ q ∈ Msg.streamFunctionBlockDiscovery.props, q.2.accessible .ump = true →
        q.2 = .schema .u8 ⟨0x0000FF00, 0, 0, 0⟩ ∨ q.2 = .schema .bool ⟨2, 0, 0, 0⟩ ∨
          q.2 = .schema .bool ⟨1, 0, 0, 0⟩ := by decide +kernel
    rcases this _ hf ha with h | h | h <;> (cases h; rfl)

/-- C54, fixed-size messages of every type over words, in an array: `new()` in an array of at least
the size the type needs (`room`, see C08), any calls of setters, `data()`: `UmpMessage::try_from`
gives the same variant over the same words, as many as the type has, in which every property has the
last value set, or the default.  There are no exceptions: `FunctionBlockDiscovery`, whose `new()`
panics on a `Vec`, can be built in an array of four words. -/
theorem C54_fixed_ump_array {d : MsgDesc} (hd : d ∈ Msg.all) (size : Nat) (hl : d.room ≤ size)
    (calls : List SetCall) (hc : ∀ c ∈ calls, c.legal d .ump) :
    ∃ b x, (d.newArray .ump size >>= runSetters .ump calls) = .ok b ∧ b.length = size ∧
      d.data .ump b = .ok x ∧ x.length = d.umpSize ∧
      UmpMessage.tryFrom x = .ok (.fixed d, x) ∧ Holding .ump d calls x := by
  by_cases hn : d.name = "ump_stream::FunctionBlockDiscovery"
  · have : ∀ d ∈ Msg.all, d.name = "ump_stream::FunctionBlockDiscovery" →
        d = Msg.streamFunctionBlockDiscovery := by decide +kernel
    cases this d hd hn
    exact built_discovery size hl calls hc
  · exact built_array hd hn size (by unfold MsgDesc.room at hl; rwa [if_neg hn] at hl) calls hc

-- A request for the name of block 3 in an array of five words, and a tempo in one of six.
example : ∃ b x, (Msg.streamFunctionBlockDiscovery.newArray .ump 5 >>= runSetters .ump
      [⟨"function_block_number", .schema .u8 ⟨0x0000FF00, 0, 0, 0⟩, (3 : BitVec 8)⟩,
       ⟨"requesting_function_block_name", .schema .bool ⟨0x00000001, 0, 0, 0⟩, true⟩]) = .ok b ∧
    b.length = 5 ∧ Msg.streamFunctionBlockDiscovery.data .ump b = .ok x ∧ x.length = 1 ∧
    UmpMessage.tryFrom x = .ok (.fixed Msg.streamFunctionBlockDiscovery, x) ∧
    Holding .ump Msg.streamFunctionBlockDiscovery
      [⟨"function_block_number", .schema .u8 ⟨0x0000FF00, 0, 0, 0⟩, (3 : BitVec 8)⟩,
       ⟨"requesting_function_block_name", .schema .bool ⟨0x00000001, 0, 0, 0⟩, true⟩] x :=
  C54_fixed_ump_array (d := Msg.streamFunctionBlockDiscovery) (by decide +kernel) 5 (by decide) _
    (by
      intro c hc
      simp only [List.mem_cons, List.not_mem_nil, or_false] at hc
      rcases hc with rfl | rfl <;>
        exact ⟨by simp [Msg.streamFunctionBlockDiscovery], rfl, rfl⟩)

example : (Msg.streamFunctionBlockDiscovery.newArray .ump 5 >>= runSetters .ump
      [⟨"function_block_number", .schema .u8 ⟨0x0000FF00, 0, 0, 0⟩, (3 : BitVec 8)⟩,
       ⟨"requesting_function_block_name", .schema .bool ⟨0x00000001, 0, 0, 0⟩, true⟩]) =
    .ok [0xF0100301, 0, 0, 0, 0] := by decide +kernel

/-- C54, fixed-size messages over bytes in an array.  (All types but `SongPositionPointer`, whose
`data()` is a byte short, see `C54_song_position_array_violation`.) -/
theorem C54_fixed_bytes_array_partial {d : MsgDesc} (hd : d ∈ Msg.hybridAll)
    (hn : d.name ≠ "system_common::SongPositionPointer") (size : Nat) (hl : d.minSize .bytes ≤ size)
    (calls : List SetCall) (hc : ∀ c ∈ calls, c.legal d .bytes) :
    ∃ b x, (d.newArray .bytes size >>= runSetters .bytes calls) = .ok b ∧ b.length = size ∧
      d.data .bytes b = .ok x ∧ x.length = d.minSize .bytes ∧
      BytesMessage.tryFrom x = .ok (.fixed d, x) ∧ Holding .bytes d calls x := by
  obtain ⟨m, h1, h2, h3⟩ := C77_fixed_bytes_partial hd hn (List.replicate size 0)
    (by rw [List.length_replicate]; exact hl) calls hc
  obtain ⟨m', x, g1, g2, g3, g4⟩ := C54_fixed_bytes_partial hd hn calls hc
  have e : m' = m := by rw [h1] at g1; cases g1; rfl
  subst e
  rw [data_ok (Nat.le_of_eq h2.symm), ← h2, List.take_length] at g2
  cases g2
  have hlen : (m' ++ (List.replicate size (0 : BitVec 8)).drop (d.minSize .bytes)).length = size := by
    rw [List.length_append, List.length_drop, List.length_replicate]; omega
  refine ⟨_, m', by rw [(newArray_eq d .bytes size hl).1]; exact h3, hlen, ?_, h2, g3, g4⟩
  rw [data_ok (by rw [hlen]; exact hl), ← h2, List.take_left']; rfl

example : ∃ b x, (Msg.cv1NoteOn.newArray .bytes 5 >>= runSetters .bytes
      [⟨"channel", .hybrid .u4 ⟨0x0F, 0, 0⟩ ⟨0x000F0000, 0, 0, 0⟩, (3 : BitVec 4)⟩]) = .ok b ∧
    b.length = 5 ∧ Msg.cv1NoteOn.data .bytes b = .ok x ∧ x.length = 3 ∧
    BytesMessage.tryFrom x = .ok (.fixed Msg.cv1NoteOn, x) ∧
    Holding .bytes Msg.cv1NoteOn
      [⟨"channel", .hybrid .u4 ⟨0x0F, 0, 0⟩ ⟨0x000F0000, 0, 0, 0⟩, (3 : BitVec 4)⟩] x :=
  C54_fixed_bytes_array_partial (d := Msg.cv1NoteOn) (by decide +kernel) (by decide) 5 (by decide) _
    (by
      intro c hc
      simp only [List.mem_cons, List.not_mem_nil, or_false] at hc
      rcases hc with rfl
      exact ⟨by simp [Msg.cv1NoteOn], by decide, rfl⟩)

/-- C54 fails for `SongPositionPointer` in an array of bytes: what `data()` gives is a byte short of
the message, and the receiver who takes it for the message panics on it. -/
theorem C54_song_position_array_violation :
    (Msg.sysSongPositionPointer.newArray .bytes 4) = .ok [0xF2, 0, 0, 0] ∧
    Msg.sysSongPositionPointer.data .bytes [0xF2, 0, 0, 0] = .ok [0xF2, 0] ∧
    BytesMessage.tryFrom [0xF2, 0] = .ok (.fixed Msg.sysSongPositionPointer, [0xF2, 0]) ∧
    ∃ f, ("position", f) ∈ Msg.sysSongPositionPointer.props ∧ f.read .bytes [0xF2, 0] = .panic := by
  refine ⟨by decide +kernel, by decide +kernel, by decide +kernel, .hybrid .u14 ⟨0, 0x7F, 0x7F⟩ ⟨0x7F7F, 0, 0, 0⟩, ?_, ?_⟩ <;>
  decide +kernel

/-- C54, `Sysex7` and `Sysex8` over words in an array, in which calls may fail for want of room: the
receiver gets a system exclusive message with the group and payload the array's owner has after the
same calls. -/
theorem C54_sysex_array (k : Sx) (dbg : Bool) (n : Nat) (hn : k.layout.words ≤ n)
    (cs : List (SxTryCall k)) (hr : SxTryCall.AllInRange n cs (0, [])) :
    ∃ b x, (k.newArray n >>= SxTryCall.execAll dbg cs) =
        .ok (b, (SxTryCall.applyAll n cs (0, [])).2) ∧ b.length = n ∧ k.data b = .ok x ∧
      UmpMessage.tryFrom x = .ok (.sysex k, x) ∧
      Sx.group x = .ok (SxTryCall.applyAll n cs (0, [])).1.1 ∧
      k.payloadList x = .ok (SxTryCall.applyAll n cs (0, [])).1.2 := by
  rw [words_eq] at hn
  obtain ⟨b, e, _, S⟩ := newArray_strict k dbg hn
  obtain ⟨b', e', S'⟩ := try_history (inv_zeroId k) (fun b g h => zeroId_setGroup g h) hn cs b
    (0, []) hr S
  obtain ⟨x, h1, h2, h3, h4⟩ := Dump.sent S'
  exact ⟨b', x, by rw [e]; exact e', S'.whole.fixed n rfl, h1, h2.1, h3, h4⟩

-- Seven bytes fit in four words; the thirteen after them do not, and leave the message empty.
example : ∃ b x, (Sx.s7.newArray 4 >>= SxTryCall.execAll (k := .s7) true
      [.setGroup 3, .setPayload ⟨[1, 2, 3, 4, 5, 6, 7], 0, none⟩]) = .ok (b, [none, none]) ∧
    b.length = 4 ∧ Sx.s7.data b = .ok x ∧ UmpMessage.tryFrom x = .ok (.sysex .s7, x) ∧
    Sx.group x = .ok 3 ∧ Sx.s7.payloadList x = .ok [1, 2, 3, 4, 5, 6, 7] := by
  have h := C54_sysex_array .s7 true 4 (by decide)
    [.setGroup 3, .setPayload ⟨[1, 2, 3, 4, 5, 6, 7], 0, none⟩] ⟨trivial, trivial, trivial⟩
  have e : SxTryCall.applyAll (k := .s7) 4 [.setGroup 3, .setPayload ⟨[1, 2, 3, 4, 5, 6, 7], 0, none⟩]
      (0, []) = ((3, [1, 2, 3, 4, 5, 6, 7]), [none, none]) := by decide +kernel
  rw [e] at h
  exact h

example : SxTryCall.applyAll (k := .s7) 4 [.setGroup 3, .setPayload ⟨[1, 2, 3, 4, 5, 6, 7], 0, none⟩,
      .setPayload ⟨[1, 2, 3, 4, 5, 6, 7, 8, 9, 10, 11, 12, 13], 0, none⟩] (0, []) =
    ((3, []), [none, none, some .bufferOverflow]) := by decide +kernel

/-- C54, `Sysex7` over bytes in an array: any calls as in `C47_bytes_fixed_history_partial`. -/
theorem C54_sysex7_bytes_array_partial (n : Nat) (hn : 2 ≤ n) (cs : List (SxTryCall .s7))
    (hg : SxTryCall.AllGentle n cs []) :
    ∃ b x, (Sxb.newArray n >>= SxTryCall.execAllBytes cs) =
        .ok (b, (SxTryCall.applyAllBytes n cs []).2) ∧ b.length = n ∧ Sxb.data b = .ok x ∧
      BytesMessage.tryFrom x = .ok (.sysex7, x) ∧
      Sxb.payloadList x = .ok (SxTryCall.applyAllBytes n cs []).1 := by
  have e := ((C08_sysex7_bytes [] n).2.2.2.2.2 hn).2
  have hl : (sysexBytes [] ++ List.replicate (n - 2) (0 : BitVec 8)).length = n := by
    rw [List.length_append, sysexBytes_length, List.length_replicate]; simp; omega
  obtain ⟨b, r, h1, h2, h3, h4⟩ := C47_bytes_fixed_history_partial cs []
    (List.replicate (n - 2) 0) (by rw [hl]; exact hg)
  rw [hl] at h1 h2 h3 h4
  have a := sysexBytes_accepted (SxTryCall.applyAllBytes n cs []).1 []
  have p := (holdsBytes (SxTryCall.applyAllBytes n cs []).1 []).payload
  rw [List.append_nil] at a p
  exact ⟨b, _, by rw [e]; exact h1, h3, h4.data,
    (C11_bytes_dispatch (k := .sysex7) (lo := 0xF0) (hi := 0xF1) (by decide +kernel) _ _).1.mpr
      ⟨a, rfl⟩, p⟩

-- Three bytes in a `[u8; 6]`, the first changed, and one more inserted; the next one is too much.
example : SxTryCall.AllGentle 6 [.setPayload ⟨[1, 2, 3], 3, some 3⟩, .setPayloadByte 0 7,
      .insertPayload ⟨[9], 1, some 1⟩ 1, .appendByte 5] [] ∧
    SxTryCall.applyAllBytes 6 [.setPayload ⟨[1, 2, 3], 3, some 3⟩, .setPayloadByte 0 7,
      .insertPayload ⟨[9], 1, some 1⟩ 1] [] = ([7, 9, 2, 3], [none, none, none]) := by
  refine ⟨?_, by decide +kernel⟩
  simp [SxTryCall.AllGentle, SxTryCall.Gentle, SxTryCall.applyBytes, SxTryCall.wanted]

end Midi2
