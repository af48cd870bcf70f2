import Verif.Spec.Holding
import Verif.Props.Text
import Verif.Props.TextStream
import Verif.Props.Sysex
import Verif.Props.SysexBytes
import Verif.Props.Dispatch
import Verif.Props.Ci
import Verif.Props.Streams
import Verif.Props.Construct
import Verif.Props.Setters

/-!
# C54: what is built is what the receiver parses

From the constructor, over any history of setter calls, to `data()` and to the top-level
enums.
-/

namespace Midi2

theorem fixed_in_table {d : MsgDesc} (hd : d ∈ Msg.all) : ∃ h, (UmpKind.fixed d, h) ∈ umpTable := by
  have : (Msg.all.all fun d => umpTable.any fun e => e.1 == .fixed d) = true := by decide +kernel
  have h := List.all_eq_true.mp this d hd
  obtain ⟨e, he, h⟩ := List.any_eq_true.mp h
  exact ⟨e.2, by rw [← eq_of_beq h]; exact he⟩

theorem fixed_in_bytes_table {d : MsgDesc} (hd : d ∈ Msg.hybridAll) :
    ∃ lo hi, (BytesKind.fixed d, lo, hi) ∈ bytesTable := by
  have : (Msg.hybridAll.all fun d => bytesTable.any fun e => e.1 == .fixed d) = true := by
    decide +kernel
  have h := List.all_eq_true.mp this d hd
  obtain ⟨e, he, h⟩ := List.any_eq_true.mp h
  exact ⟨e.2.1, e.2.2, by rw [← eq_of_beq h]; exact he⟩

theorem fixed_not_misfiled (d : MsgDesc) : UmpKind.fixed d ∉ misfiled := by
  intro h; unfold misfiled at h; simp at h

theorem sysex_not_misfiled (k : Sx) : UmpKind.sysex k ∉ misfiled := by
  intro h; unfold misfiled at h; simp at h

theorem streamText_not_misfiled (t : StreamText) : UmpKind.streamText t ∉ misfiled := by
  intro h; unfold misfiled at h; simp at h

theorem built_fixed {d : MsgDesc} (hd : d ∈ Msg.all)
    (hn : d.name ≠ "ump_stream::FunctionBlockDiscovery") (calls : List SetCall)
    (hc : ∀ c ∈ calls, c.legal d .ump) :
    ∃ b x,
      UmpMessage.data (.fixed d, x) = .ok x ∧
      (d.newVec .ump >>= runSetters .ump calls) = .ok b ∧ d.data .ump b = .ok x ∧
      UmpMessage.tryFrom x = .ok (.fixed d, x) ∧ Holding .ump d calls x := by
  obtain ⟨b0, h1, _, h2, ⟨y, hy, hy'⟩, h3⟩ := C08_vec_ump_partial hd hn []
  have e0 : d.data .ump b0 = .ok b0 := by
    rw [data_ok (d := d) (m := .ump) (b := b0) (Nat.le_of_eq h2.symm)]
    show Res.ok (b0.take d.umpSize) = _
    rw [← h2, List.take_length]
  have hyb : y = b0 := by rw [e0] at hy; cases hy; rfl
  subst hyb
  obtain ⟨b, g1, g2, g3, g4, g5⟩ := C09_ump_history hd y hy' calls hc
  have hb : d.data .ump b = .ok b := by
    rw [data_ok (show d.umpSize ≤ _ by rw [g2, h2]; exact Nat.le_refl _)]
    show Res.ok (b.take d.umpSize) = _
    rw [← h2, ← g2, List.take_length]
  obtain ⟨h, he⟩ := fixed_in_table hd
  refine ⟨b, b, hb, by rw [h1]; exact g1, hb, ?_, g4, fun n f hf ha hcs => ?_⟩
  · refine (C10_ump_dispatch_partial he (fixed_not_misfiled d) b (fun e => ?_)).mpr g3
    cases e
    exact absurd rfl hn
  · rw [g5 n f hf hcs]; exact h3 n f hf ha

/-- C54, fixed-size messages over words: `new()`, any calls of setters, `data()`:
`UmpMessage::try_from` gives the same variant over the same words, in which every property
has the last value set, or the default.  (All types but `FunctionBlockDiscovery`, whose
`new()` panics.) -/
theorem C54_fixed_ump_partial {d : MsgDesc} (hd : d ∈ Msg.all)
    (hn : d.name ≠ "ump_stream::FunctionBlockDiscovery") (calls : List SetCall)
    (hc : ∀ c ∈ calls, c.legal d .ump) :
    ∃ b x, (d.newVec .ump >>= runSetters .ump calls) = .ok b ∧ d.data .ump b = .ok x ∧
      UmpMessage.tryFrom x = .ok (.fixed d, x) ∧ Holding .ump d calls x := by
  obtain ⟨b, x, -, h⟩ := built_fixed hd hn calls hc
  exact ⟨b, x, h⟩

-- A note on with a velocity, and a channel set twice.
example : ∃ b x, (Msg.cv2NoteOn.newVec .ump >>= runSetters .ump
      [⟨"channel", .schema .u4 ⟨0x000F0000, 0, 0, 0⟩, (3 : BitVec 4)⟩,
       ⟨"velocity", .schema .u16 ⟨0, 0xFFFF0000, 0, 0⟩, (0xABCD : BitVec 16)⟩,
       ⟨"channel", .schema .u4 ⟨0x000F0000, 0, 0, 0⟩, (5 : BitVec 4)⟩]) = .ok b ∧
    Msg.cv2NoteOn.data .ump b = .ok x ∧ UmpMessage.tryFrom x = .ok (.fixed Msg.cv2NoteOn, x) ∧
    Holding .ump Msg.cv2NoteOn
      [⟨"channel", .schema .u4 ⟨0x000F0000, 0, 0, 0⟩, (3 : BitVec 4)⟩,
       ⟨"velocity", .schema .u16 ⟨0, 0xFFFF0000, 0, 0⟩, (0xABCD : BitVec 16)⟩,
       ⟨"channel", .schema .u4 ⟨0x000F0000, 0, 0, 0⟩, (5 : BitVec 4)⟩] x :=
  C54_fixed_ump_partial (by simp [Msg.all, Msg.cv2All]) (by decide) _
    (by
      intro c hc
      simp only [List.mem_cons, List.not_mem_nil, or_false] at hc
      rcases hc with rfl | rfl | rfl <;> exact ⟨by simp [Msg.cv2NoteOn], by decide, rfl⟩)

theorem built_fixed_bytes {d : MsgDesc} (hd : d ∈ Msg.hybridAll)
    (hn : d.name ≠ "system_common::SongPositionPointer") (calls : List SetCall)
    (hc : ∀ c ∈ calls, c.legal d .bytes) :
    ∃ b x, BytesMessage.data (.fixed d, x) = .ok x ∧
      (d.newVec .bytes >>= runSetters .bytes calls) = .ok b ∧ d.data .bytes b = .ok x ∧
      BytesMessage.tryFrom x = .ok (.fixed d, x) ∧ Holding .bytes d calls x := by
  obtain ⟨b0, h1, _, h2, ⟨y, hy, hy'⟩, h3⟩ := C08_vec_bytes_partial hd hn []
  have e0 : d.data .bytes b0 = .ok b0 := by
    rw [data_ok (Nat.le_of_eq h2.symm), ← h2, List.take_length]
  have hyb : y = b0 := by rw [e0] at hy; cases hy; rfl
  subst hyb
  obtain ⟨b, g1, g2, g3, g4, g5⟩ :=
    C09_bytes_history_partial hd y hy' (fun h => absurd h hn) calls hc
  have hb : d.data .bytes b = .ok b := by
    rw [data_ok (Nat.le_of_eq (by rw [g2, h2])), ← h2, ← g2, List.take_length]
  obtain ⟨lo, hi, he⟩ := fixed_in_bytes_table hd
  exact ⟨b, b, hb, by rw [h1]; exact g1, hb, (C11_bytes_dispatch he b b).1.mpr ⟨g3, rfl⟩, g4,
    fun n f hf ha hcs => by rw [g5 n f hf hcs]; exact h3 n f hf ha⟩

/-- C54, fixed-size messages over bytes.  (All types but `SongPositionPointer`, whose `new()`
panics.) -/
theorem C54_fixed_bytes_partial {d : MsgDesc} (hd : d ∈ Msg.hybridAll)
    (hn : d.name ≠ "system_common::SongPositionPointer") (calls : List SetCall)
    (hc : ∀ c ∈ calls, c.legal d .bytes) :
    ∃ b x, (d.newVec .bytes >>= runSetters .bytes calls) = .ok b ∧ d.data .bytes b = .ok x ∧
      BytesMessage.tryFrom x = .ok (.fixed d, x) ∧ Holding .bytes d calls x := by
  obtain ⟨b, x, -, h⟩ := built_fixed_bytes hd hn calls hc
  exact ⟨b, x, h⟩

example : ∃ b x, (Msg.cv1NoteOn.newVec .bytes >>= runSetters .bytes
      [⟨"channel", .hybrid .u4 ⟨0x0F, 0, 0⟩ ⟨0x000F0000, 0, 0, 0⟩, (3 : BitVec 4)⟩]) = .ok b ∧
    Msg.cv1NoteOn.data .bytes b = .ok x ∧ BytesMessage.tryFrom x = .ok (.fixed Msg.cv1NoteOn, x) ∧
    Holding .bytes Msg.cv1NoteOn
      [⟨"channel", .hybrid .u4 ⟨0x0F, 0, 0⟩ ⟨0x000F0000, 0, 0, 0⟩, (3 : BitVec 4)⟩] x :=
  C54_fixed_bytes_partial (by simp [Msg.hybridAll, Msg.cv1All]) (by decide) _
    (by
      intro c hc
      simp only [List.mem_cons, List.not_mem_nil, or_false] at hc
      rcases hc with rfl
      exact ⟨by simp [Msg.cv1NoteOn], by decide, rfl⟩)

theorem built_sysex (k : Sx) (dbg : Bool) (cs : List (SxCall k)) (hr : SxCall.AllInRange cs (0, [])) :
    ∃ b x,
      UmpMessage.data (.sysex k, x) = .ok x ∧
      (k.newVec >>= SxCall.execAll dbg cs) = .ok b ∧ k.data b = .ok x ∧
      UmpMessage.tryFrom x = .ok (.sysex k, x) ∧
      Sx.group x = .ok (SxCall.applyAll cs (0, [])).1 ∧
      k.payloadList x = .ok (SxCall.applyAll cs (0, [])).2 := by
  obtain ⟨b, b', h1, h2, h3, h4, h5⟩ := C47_history k dbg cs hr
  have he : ∃ h, (UmpKind.sysex k, h) ∈ umpTable := by
    cases k
    · exact ⟨⟨3, 8, 0, 0⟩, by decide +kernel⟩
    · exact ⟨⟨5, 8, 0, 0⟩, by decide +kernel⟩
  obtain ⟨h, he⟩ := he
  refine ⟨b', b', h4, by rw [h1]; exact h2, h4, ?_, ?_, ?_⟩
  · exact (C10_ump_dispatch_partial he (sysex_not_misfiled k) b' (fun e => nomatch e)).mpr h5
  · exact h3.group
  · exact h3.payload

/-- C54, `Sysex7` and `Sysex8` over words: after any history of calls the receiver gets a
system exclusive message with the payload and group of the history. -/
theorem C54_sysex (k : Sx) (dbg : Bool) (cs : List (SxCall k)) (hr : SxCall.AllInRange cs (0, [])) :
    ∃ b x, (k.newVec >>= SxCall.execAll dbg cs) = .ok b ∧ k.data b = .ok x ∧
      UmpMessage.tryFrom x = .ok (.sysex k, x) ∧
      Sx.group x = .ok (SxCall.applyAll cs (0, [])).1 ∧
      k.payloadList x = .ok (SxCall.applyAll cs (0, [])).2 := by
  obtain ⟨b, x, -, h⟩ := built_sysex k dbg cs hr
  exact ⟨b, x, h⟩

-- A history whose message has two packets.
example : SxCall.AllInRange (k := .s7)
      [.setPayload ⟨[1, 2, 3, 4, 5, 6, 7, 8], 0, none⟩, .setGroup 3, .setPayloadByte 7 9] (0, []) ∧
    SxCall.applyAll (k := .s7)
      [.setPayload ⟨[1, 2, 3, 4, 5, 6, 7, 8], 0, none⟩, .setGroup 3, .setPayloadByte 7 9] (0, []) =
      (3, [1, 2, 3, 4, 5, 6, 7, 9]) := by
  refine ⟨?_, by decide +kernel⟩
  simp only [SxCall.AllInRange, SxCall.InRange]
  decide

theorem built_sysex7_bytes (cs : List (SxCall .s7)) (hr : SxCall.AllInRange cs (0, [])) :
    ∃ b x, BytesMessage.data (.sysex7, x) = .ok x ∧ Sxb.tryFrom x = .ok x ∧
      (Sxb.newVec >>= SxCall.execAllBytes cs) = .ok b ∧ Sxb.data b = .ok x ∧
      BytesMessage.tryFrom x = .ok (.sysex7, x) ∧
      Sxb.payloadList x = .ok (SxCall.applyAll cs (0, [])).2 := by
  obtain ⟨b, h1, h2, h3, h4⟩ := C47_bytes_history cs hr
  exact ⟨_, _, h3.data, h4, by rw [h1]; exact h2, h3.data,
    (C11_bytes_dispatch (k := .sysex7) (lo := 0xF0) (hi := 0xF1) (by decide +kernel) _ _).1.mpr
      ⟨h4, rfl⟩, h3.payload⟩

/-- C54, `Sysex7` over bytes. -/
theorem C54_sysex7_bytes (cs : List (SxCall .s7)) (hr : SxCall.AllInRange cs (0, [])) :
    ∃ b x, (Sxb.newVec >>= SxCall.execAllBytes cs) = .ok b ∧ Sxb.data b = .ok x ∧
      BytesMessage.tryFrom x = .ok (.sysex7, x) ∧
      Sxb.payloadList x = .ok (SxCall.applyAll cs (0, [])).2 := by
  obtain ⟨b, x, -, -, h⟩ := built_sysex7_bytes cs hr
  exact ⟨b, x, h⟩

-- The hypothesis is that of `C54_sysex`; the same history over bytes.
example : (Sxb.newVec >>= SxCall.execAllBytes
    [.setPayload ⟨[1, 2, 3, 4, 5, 6, 7, 8], 0, none⟩, .setGroup 3, .setPayloadByte 7 9]) =
    .ok [0xF0, 1, 2, 3, 4, 5, 6, 7, 9, 0xF7] := by decide +kernel

/-- A buffer which is a `Sysex7` message and nothing else is accepted. -/
theorem message_accepted {b : Buf .ump} {g : Nat} {sizes : List Nat}
    (M : sysex7Layout.IsMessage b g sizes) (hl : b.length = 2 * sizes.length) :
    Sx.s7.tryFrom b = .ok b := by
  obtain ⟨g', -, V⟩ := Sx.isMessage_valid (k := .s7) M
  rw [Sx.tryFrom_iff]
  exact V.accepts hl (fun h => nomatch h)

theorem built_query {v : BitVec 8} {n : Nat} (hv : ciSize v = some n) (dbg : Bool)
    (cs : List CiCall) (hc : ∀ c ∈ cs, c.1.version.toNat ≤ v.toNat) :
    ∃ b x u,
      UmpMessage.data (.sysex .s7, u) = .ok u ∧ BytesMessage.data (.sysex7, x) = .ok x ∧
      (Ci.newVec v >>= CiCall.run cs) = .ok b ∧ Ci.data b = .ok x ∧
      BytesMessage.tryFrom x = .ok (.sysex7, x) ∧ Ci.tryFrom v x = .ok x ∧
      (∀ f : CiField, f.version.toNat ≤ v.toNat →
        Ci.get f x = .ok (CiCall.values cs CiField.default f)) ∧
      Sxb.fromBytes dbg x = .ok u ∧ UmpMessage.tryFrom u = .ok (.sysex .s7, u) ∧
      Sxb.fromUmp u = .ok x := by
  obtain ⟨n1, n2, -⟩ := C43_new hv [] 0
  obtain ⟨q1, q2, q3, q4⟩ := C43_default_accepted hv []
  rw [List.append_nil] at q1 q2 q3 q4
  obtain ⟨b, d, x, r1, r2, r3, r4, r5, r6, r7⟩ := C43_history cs q1 hc CiField.default q4
  have hd : d = ciDefault v 0 := by rw [q3] at r4; cases r4; rfl
  obtain ⟨l, rest, m, -, -, hb⟩ := r2.sysex
  have hp : Sxb.endByte ∉ l.map (·.setWidth 8) := by
    intro h
    obtain ⟨y, -, hy⟩ := List.mem_map.mp h
    have := congrArg BitVec.toNat hy
    rw [BitVec.toNat_setWidth, Nat.mod_eq_of_lt (by omega)] at this
    have h7 : Sxb.endByte.toNat = 0xF7 := rfl
    omega
  have hx : x = sysexBytes l := by
    have e : Ci.data b = .ok (sysexBytes l) := by
      rw [hb]
      exact Sxb.data_raw hp
    rw [r5] at e; cases e; rfl
  have hrest : rest = [] := by
    rw [hd, List.drop_length] at r7
    have h1 := congrArg List.length r7
    have h2 : x.length = l.length + 2 := by rw [hx]; unfold sysexBytes; simp
    have h3 : b.length = l.length + 2 + rest.length := by rw [hb]; simp; omega
    rw [List.length_drop, h3, ← hd, ← r6, h2] at h1
    exact List.eq_nil_of_length_eq_zero (by simpa using h1)
  have hxb : b = x := by
    rw [hb, hx, hrest]; rfl
  subst hxb
  obtain ⟨a1, -⟩ := C43_getters_partial r2
  have a2 : Sxb.tryFrom b = .ok b := by
    rw [hx]
    have := sysexBytes_accepted l []
    rwa [List.append_nil] at this
  have a3 : Sxb.payloadList b = .ok l := by
    rw [hx]; exact (C16_set_payload b a2 ⟨l, 0, none⟩).2.payload
  obtain ⟨u, u1, u2⟩ := C25_bytes_roundtrip dbg b a2 l a3
  obtain ⟨u', w1, w2, w3⟩ := C25_bytes_to_ump dbg b a2 l a3
  have huu : u' = u := by rw [u1] at w1; cases w1; rfl
  subst huu
  obtain ⟨y, y1, y2, y3, y4⟩ := w2.wire
  refine ⟨b, b, u', ?_, r5, by rw [n2]; exact r1, r5, ?_, a1, r3, u1, ?_, ?_⟩
  · have hy : y = u' := by rw [w3] at y1; cases y1; rfl
    rw [hy] at y1; exact w3
  · exact (C11_bytes_dispatch (k := .sysex7) (lo := 0xF0) (hi := 0xF1) (by decide +kernel) _ _).1.mpr
      ⟨a2, rfl⟩
  · have hy : y = u' := by rw [w3] at y1; cases y1; rfl
    subst hy
    exact (C10_ump_dispatch_partial (h := ⟨3, 8, 0, 0⟩) (by decide +kernel) (sysex_not_misfiled .s7) y
      (fun e => nomatch e)).mpr (message_accepted y3 y2)
  · rw [u2]; exact r5

/-- C54, MIDI-CI: a discovery query built by `new()` and any setter calls is, as bytes, a
system exclusive message for `BytesMessage` and the query with the values set for
`DiscoveryQuery`; and it is still that after a journey over UMP as `Sysex7`. -/
theorem C54_discovery_query {v : BitVec 8} {n : Nat} (hv : ciSize v = some n) (dbg : Bool)
    (cs : List CiCall) (hc : ∀ c ∈ cs, c.1.version.toNat ≤ v.toNat) :
    ∃ b x u, (Ci.newVec v >>= CiCall.run cs) = .ok b ∧ Ci.data b = .ok x ∧
      BytesMessage.tryFrom x = .ok (.sysex7, x) ∧ Ci.tryFrom v x = .ok x ∧
      (∀ f : CiField, f.version.toNat ≤ v.toNat →
        Ci.get f x = .ok (CiCall.values cs CiField.default f)) ∧
      Sxb.fromBytes dbg x = .ok u ∧ UmpMessage.tryFrom u = .ok (.sysex .s7, u) ∧
      Sxb.fromUmp u = .ok x := by
  obtain ⟨b, x, u, -, -, h⟩ := built_query hv dbg cs hc
  exact ⟨b, x, u, h⟩

-- A query of version 2 with a source and an output path.
example : ∃ b x u, (Ci.newVec 2 >>= CiCall.run [⟨.source, (0x0ABCDEF : BitVec 28)⟩,
      ⟨.outputPathId, (5 : BitVec 7)⟩]) = .ok b ∧ Ci.data b = .ok x ∧
    BytesMessage.tryFrom x = .ok (.sysex7, x) ∧ Ci.get .outputPathId x = .ok (5 : BitVec 7) ∧
    Sxb.fromBytes true x = .ok u ∧ UmpMessage.tryFrom u = .ok (.sysex .s7, u) ∧
    Sxb.fromUmp u = .ok x := by
  obtain ⟨b, x, u, h1, h2, h3, -, h5, h6, h7, h8⟩ := C54_discovery_query (v := 2) (n := 32)
    (by decide) true [⟨.source, (0x0ABCDEF : BitVec 28)⟩, ⟨.outputPathId, (5 : BitVec 7)⟩]
    (by decide)
  exact ⟨b, x, u, h1, h2, h3, h5 .outputPathId (by decide), h6, h7, h8⟩

theorem built_flex_text {t : FlexText} {h : Header} (ht : (UmpKind.flexText t, h) ∈ umpTable)
    (hm : UmpKind.flexText t ∉ misfiled) (os : List FlexText.Op)
    (hs : NulFree (os.foldl FlexText.State.step .start).text)
    (hn : (utf8 (os.foldl FlexText.State.step .start).text).length % 12 ≠ 0 ∨
      (os.foldl FlexText.State.step .start).text = "") :
    ∃ b x,
      UmpMessage.data (.flexText t, x) = .ok x ∧
      (t.newVec >>= fun b => FlexText.history b os) = .ok b ∧ FlexText.data b = .ok x ∧
      UmpMessage.tryFrom x = .ok (.flexText t, x) ∧
      FlexText.group x = .ok (os.foldl FlexText.State.step .start).group ∧
      FlexText.channel x = .ok ((os.foldl FlexText.State.step .start).channels 0) ∧
      FlexText.text x = .ok (os.foldl FlexText.State.step .start).text := by
  obtain ⟨b0, n1, n2, H0⟩ := FlexText.init_zeros t (n := 4) (by omega)
  obtain ⟨b, h1, h2, H⟩ := history_holds (t := t) os .start
    (show b0.length = 4 * textPackets 12 (strBytes "").length by rw [n2]; rfl) H0
  have hn' : (strBytes (os.foldl FlexText.State.step .start).text).length % 12 ≠ 0 ∨
      strBytes (os.foldl FlexText.State.step .start).text = [] := by
    rw [strBytes_length] at hn; exact hn.imp id (fun h => by rw [h]; rfl)
  have hd : FlexText.data b = .ok b := by
    rw [H.data_eq, ← h2, List.take_length]
  have ha : t.tryFrom b = .ok b := by
    rw [FlexText.tryFrom_iff]
    exact H.accepts h2 ⟨_, by rw [take_slots hn', nul_filter hs]⟩
  refine ⟨b, b, hd, ?_, hd, ?_, H.group_eq, H.channel_eq, ?_⟩
  · have : t.newVec = .ok b0 := n1
    rw [this]; exact h1
  · exact (C10_ump_dispatch_partial ht hm b (fun e => nomatch e)).mpr ha
  · apply text_of_bytes
    rw [H.textBytes_eq, h2, Nat.mul_div_cancel_left _ (by omega), take_slots hn', nul_filter hs]

/-- C54, flex data text: any history of `set_text`, `set_group` and `set_optional_channel`.
(Texts the getter returns, see `C29_multiple_of_12_violation`, and types the dispatcher knows,
see `C10_recording_violation`.) -/
theorem C54_flex_text_partial {t : FlexText} {h : Header} (ht : (UmpKind.flexText t, h) ∈ umpTable)
    (hm : UmpKind.flexText t ∉ misfiled) (os : List FlexText.Op)
    (hs : NulFree (os.foldl FlexText.State.step .start).text)
    (hn : (utf8 (os.foldl FlexText.State.step .start).text).length % 12 ≠ 0 ∨
      (os.foldl FlexText.State.step .start).text = "") :
    ∃ b x, (t.newVec >>= fun b => FlexText.history b os) = .ok b ∧ FlexText.data b = .ok x ∧
      UmpMessage.tryFrom x = .ok (.flexText t, x) ∧
      FlexText.group x = .ok (os.foldl FlexText.State.step .start).group ∧
      FlexText.channel x = .ok ((os.foldl FlexText.State.step .start).channels 0) ∧
      FlexText.text x = .ok (os.foldl FlexText.State.step .start).text := by
  obtain ⟨b, x, -, h⟩ := built_flex_text ht hm os hs hn
  exact ⟨b, x, h⟩

-- Two packets of text, the channel set in between.
example : ∃ b x, ((FlexText.newVec ⟨"Lyrics", 2, 1⟩) >>= fun b => FlexText.history b
      [.setText "abc", .setChannel (some 9), .setText "abcdefghijklm", .setGroup 3]) = .ok b ∧
    FlexText.data b = .ok x ∧ UmpMessage.tryFrom x = .ok (.flexText ⟨"Lyrics", 2, 1⟩, x) ∧
    FlexText.group x = .ok 3 ∧ FlexText.channel x = .ok (some 9) ∧
    FlexText.text x = .ok "abcdefghijklm" :=
  C54_flex_text_partial (t := ⟨"Lyrics", 2, 1⟩) (h := ⟨13, 16, 16, 0x0201⟩) (by decide +kernel)
    (by decide +kernel)
    [.setText "abc", .setChannel (some 9), .setText "abcdefghijklm", .setGroup 3]
    (by unfold NulFree; decide +kernel) (by decide +kernel)

theorem built_stream_text (t : StreamText) (ht : t ∈ StreamText.all) (os : List StreamText.Op)
    (hos : t = .functionBlockName ∨ ∀ o ∈ os, ∃ s, o = .setText s)
    (hs : NulFree (os.foldl (StreamText.State.step t.capacity) .start).text)
    (hb : t = .functionBlockName → ∀ j,
      j < textPackets 13 (utf8 (os.foldl (StreamText.State.step t.capacity) .start).text).length →
      (os.foldl (StreamText.State.step t.capacity) .start).blocks j =
        (os.foldl (StreamText.State.step t.capacity) .start).blocks 0) :
    ∃ b x,
      UmpMessage.data (.streamText t, x) = .ok x ∧
      (t.newVec >>= fun b => t.history b os) = .ok b ∧ StreamText.data b = .ok x ∧
      UmpMessage.tryFrom x = .ok (.streamText t, x) ∧
      (t = .functionBlockName →
        StreamText.block x = .ok ((os.foldl (StreamText.State.step t.capacity) .start).blocks 0)) ∧
      t.text x = .ok (os.foldl (StreamText.State.step t.capacity) .start).text := by
  have K : t.Known := StreamText.known_of_mem ht
  obtain ⟨b0, n1, n2, H0⟩ := StreamText.init_zeros K (n := 4) (by omega)
  obtain ⟨b, h1, h2, H⟩ := stream_history_holds K os (hos.imp (fun h => by rw [h]; rfl) id) .start
    (show b0.length = 4 * textPackets (14 - t.offset) (strBytes "").length by rw [n2]; rfl) H0
  have hd : StreamText.data b = .ok b := by
    rw [H.data_eq K, ← h2, List.take_length]
  have ho : t.offset = 1 → t = .functionBlockName := by
    have : ∀ t ∈ StreamText.all, t.offset = 1 → t = .functionBlockName := by decide +kernel
    exact this t ht
  have ha : t.tryFrom b = .ok b := by
    rw [StreamText.tryFrom_iff K]
    refine H.accepts K h2 (fun h j hj => ?_) ⟨_, (nul_filter hs).symm⟩
    rw [strBytes_length] at hb
    exact hb (ho h) j (by rw [h] at hj; exact hj)
  have he : ∃ h, (UmpKind.streamText t, h) ∈ umpTable := by
    have : (StreamText.all.all fun t => umpTable.any fun e => e.1 == .streamText t) = true := by
      decide +kernel
    have h := List.all_eq_true.mp this t ht
    obtain ⟨e, he, h⟩ := List.any_eq_true.mp h
    exact ⟨e.2, by rw [← eq_of_beq h]; exact he⟩
  obtain ⟨h, he⟩ := he
  refine ⟨b, b, hd, ?_, hd, ?_, fun h => H.block_eq K (by rw [h]; rfl), (H.text_eq K hs).1⟩
  · have : t.newVec = .ok b0 := n1
    rw [this]; exact h1
  · exact (C10_ump_dispatch_partial he (streamText_not_misfiled t) b (fun e => nomatch e)).mpr ha

/-- C54, stream text: any history of calls of the setter of the text and, for
`FunctionBlockName`, of the number.  (Histories after which all packets have the number of the
first, see `C32_number_on_growth_violation`.) -/
theorem C54_stream_text_partial (t : StreamText) (ht : t ∈ StreamText.all) (os : List StreamText.Op)
    (hos : t = .functionBlockName ∨ ∀ o ∈ os, ∃ s, o = .setText s)
    (hs : NulFree (os.foldl (StreamText.State.step t.capacity) .start).text)
    (hb : t = .functionBlockName → ∀ j,
      j < textPackets 13 (utf8 (os.foldl (StreamText.State.step t.capacity) .start).text).length →
      (os.foldl (StreamText.State.step t.capacity) .start).blocks j =
        (os.foldl (StreamText.State.step t.capacity) .start).blocks 0) :
    ∃ b x, (t.newVec >>= fun b => t.history b os) = .ok b ∧ StreamText.data b = .ok x ∧
      UmpMessage.tryFrom x = .ok (.streamText t, x) ∧
      (t = .functionBlockName →
        StreamText.block x = .ok ((os.foldl (StreamText.State.step t.capacity) .start).blocks 0)) ∧
      t.text x = .ok (os.foldl (StreamText.State.step t.capacity) .start).text := by
  obtain ⟨b, x, -, h⟩ := built_stream_text t ht os hos hs hb
  exact ⟨b, x, h⟩

-- Two packets of text, with a number set after the text.
example : ∃ b x, (StreamText.functionBlockName.newVec >>= fun b =>
      StreamText.functionBlockName.history b [.setText "abcdefghijklmn", .setBlock 5]) = .ok b ∧
    StreamText.data b = .ok x ∧
    UmpMessage.tryFrom x = .ok (.streamText .functionBlockName, x) ∧
    (StreamText.functionBlockName = .functionBlockName → StreamText.block x = .ok 5) ∧
    StreamText.functionBlockName.text x = .ok "abcdefghijklmn" :=
  C54_stream_text_partial .functionBlockName (by simp [StreamText.all])
    [.setText "abcdefghijklmn", .setBlock 5] (.inl rfl) (by unfold NulFree; decide +kernel)
    (fun _ => by decide +kernel)

end Midi2
