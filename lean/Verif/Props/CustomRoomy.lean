import Verif.Lemmas.CustomRoomy
import Verif.Lemmas.Canonical
import Verif.Props.Custom

/-!
# C62: buffers written by the user that are larger than requested

A buffer which grows by whole pages, or never shrinks, has more units than the library asked
for.  What such a buffer contains behind the message is left over from earlier, or is what the
buffer is filled with when it grows.
-/

namespace Midi2

open Sx Sxb

theorem growPages_roomy (page v w : Nat) (hp : 0 < page) : Roomy (growPages page v w) where
  length b n := by
    unfold growPages
    rw [List.length_append, List.length_replicate]
    have h := Nat.div_add_mod (n + page - 1) page
    have := Nat.mod_lt (n + page - 1) hp
    rw [Nat.mul_comm] at h
    omega
  keeps b n i h1 h2 := by
    unfold growPages
    rw [List.getElem?_append_left h2]

theorem growPages_zeros (page w : Nat) : AddsZeros (growPages page 0 w) := by
  intro b n i v h
  unfold growPages at h
  rcases Nat.lt_or_ge i b.length with hi | hi
  · rw [List.getElem?_append_left hi] at h
    exact .inr h
  · rw [List.getElem?_append_right hi, List.getElem?_replicate] at h
    split at h
    · left; exact (Option.some.inj h).symm
    · cases h

theorem Grows.roomy {w : Nat} {f : List (BitVec w) → Nat → List (BitVec w)} (h : Grows f) : Roomy f :=
  ⟨fun b n => Nat.le_of_eq (h.length b n).symm, h.keeps⟩

-- C62: pages of ten words; it is not one of the buffers that give the requested size.
example : Roomy (growPages 10 0 32) ∧ AddsZeros (growPages 10 0 32) ∧ ¬ Grows (growPages 10 0 32) :=
  ⟨growPages_roomy _ _ _ (by decide), growPages_zeros _ _,
    fun h => absurd (h.length [] 1) (by decide)⟩

/-- C62: any sequence of in-range calls on a system exclusive message over a buffer that may be
larger than requested leaves the group and bytes that the same calls make of a plain list.
Without debug assertions this holds whatever the buffer contains and is filled with; with them
it needs zeros behind the message (see the violation).  `data()` is then what the parser takes;
if there were only zeros, its octets are those of the specification, except what follows the
payload of a message of one packet. -/
theorem C62_roomy_history_partial (k : Sx) (dbg : Bool)
    (f : (w : Nat) → List (BitVec w) → Nat → List (BitVec w)) (hf : Roomy (f 32)) (b0 : Buf .ump)
    (hd : dbg = true → AddsZeros (f 32) ∧ ∀ w ∈ b0, w = 0)
    (cs : List (SxCall k)) (hr : SxCall.AllInRange cs (0, []))
    (g : BitVec 4) (l : List k.Byte) (hgl : SxCall.applyAll cs (0, []) = (g, l)) :
    ∃ b b' d, k.newWithBufferOn (f 32) b0 = .ok b ∧ SxCall.execAllOn (.grow f) dbg cs b = .ok b' ∧
      k.Holds b' g l ∧ k.data b' = .ok d ∧ (octets d).length = k.layout.wireLength l.length ∧
      (k = .s7 → k.tryFrom d = .ok d) ∧
      (AddsZeros (f 32) → (∀ w ∈ b0, w = 0) → k.tryFrom d = .ok d ∧
        (k.layout.capacity ≤ l.length → octets d = k.layout.wire g.toNat (l.map BitVec.toNat)) ∧
        (octets d).take (k.layout.first + l.length) =
          (k.layout.wire g.toNat (l.map BitVec.toNat)).take (k.layout.first + l.length)) := by
  obtain ⟨b, e, S⟩ := new_roomy k (z := AddsZeros (f 32) ∧ ∀ w ∈ b0, w = 0) hf hd id
  obtain ⟨b', e', S'⟩ := roomy_history hf hd (fun h => h.1) cs b (0, []) hr S
  rw [hgl] at S'
  have S' : RoomyStrict k dbg _ g b' l := S'
  have hlen : (b'.take (k.stride * k.count l.length)).length = k.stride * k.count l.length := by
    rw [List.length_take, Nat.min_eq_left S'.packed.len]
  refine ⟨b, b', _, e, e', S'.holds, S'.packed.data_eq, ?_, ?_, fun h1 h2 => ?_⟩
  · rw [length_octets, wireLength_eq, hlen]
  · intro hk
    rw [Sx.tryFrom_iff]
    exact S'.packed.take.valid.accepts hlen fun h => by subst hk; cases h
  · have SZ : Strict k dbg (ZeroId k) g (some b'.length) b' l :=
      ⟨S'.packed, ⟨S'.whole.steady, (S'.whole.inv ⟨h1, h2⟩).2, S'.whole.fixed⟩, S'.pad, S'.exact⟩
    refine ⟨S'.packed.accepted SZ.whole.inv, fun h => SZ.wire_full ?_, ?_⟩
    · rwa [capacity_eq] at h
    · rw [first_eq]
      exact SZ.wire_take

-- C62: pages of five words, filled with garbage, without debug assertions.
example : SxCall.execAllOn (k := .s7) (.grow (growPages 5 0x30163016)) false
    [.setGroup 3, .setPayload ⟨[1, 2, 3, 4, 5, 6, 7], 0, none⟩] [0x30000000, 0, 9] =
    .ok [0x33160102, 0x03040506, 0x33310700, 0, 0x30163016] := by decide +kernel

/-- C62: with debug assertions a call panics if what lies behind the message looks like a
packet that is not full. -/
theorem C62_roomy_debug_violation :
    Roomy (growPages 8 0x30101010 32) ∧
    ∃ b, Sx.s7.newWithBufferOn (growPages 8 0x30101010 32) [] = .ok b ∧
      SxCall.execAllOn (k := .s7) (.grow (growPages 8 0x30101010)) true
        [.setPayload ⟨[1, 2, 3, 4, 5], 5, some 5⟩, .appendByte 7] b = .panic ∧
      SxCall.AllInRange (k := .s7)
        [.setPayload ⟨[1, 2, 3, 4, 5], 5, some 5⟩, .appendByte 7] (0, []) :=
  ⟨growPages_roomy _ _ _ (by decide), [0x30000000, 0, 0x30101010, 0x30101010, 0x30101010,
    0x30101010, 0x30101010, 0x30101010], by decide +kernel, by decide +kernel, trivial, trivial, trivial⟩

/-- C62: over bytes a buffer that does not shrink keeps the `F7` of a longer payload, also if it
grows with zeros: a later insertion loses the byte `07`. -/
theorem C62_roomy_bytes_violation :
    Roomy (growPages 16 0 8) ∧ AddsZeros (growPages 16 0 8) ∧
    ∃ b, Sxb.newWithBufferOn (growPages 16 0 8) [] = .ok b ∧
      SxCall.execAllBytesOn (.grow (growPages 16 0))
        [.setPayload ⟨[1, 2, 3, 4, 5], 5, some 5⟩, .setPayload ⟨[7], 1, some 1⟩,
          .insertPayload ⟨[1, 2, 3, 4, 5, 6, 7, 8, 9], 9, some 9⟩ 0] b =
        .ok [0xF0, 1, 2, 3, 4, 5, 6, 7, 8, 9, 0, 0xF7, 0, 0, 0, 0] :=
  ⟨growPages_roomy _ _ _ (by decide), growPages_zeros _ _,
    [0xF0, 0xF7, 0, 0, 0, 0, 0, 0, 0, 0, 0, 0, 0, 0, 0, 0], by decide +kernel, by decide +kernel⟩

theorem roomy_exec_bytes {f : (w : Nat) → List (BitVec w) → Nat → List (BitVec w)} (hf : Roomy (f 8))
    (h7 : ClearsRest (f 8)) (g : BitVec 4) {b : Buf .bytes} {l : List (BitVec 7)}
    (C : Clean none b l) (c : SxCall .s7) (hr : SxCall.InRange (k := .s7) l c) :
    ∃ b', c.execBytesOn (.grow f) b = .ok b' ∧
      Clean none b' (SxCall.apply (k := .s7) (g, l) c).2 := by
  have hps : (Sxb.ops (.grow f)).payloadSize b = .ok l.length := (Sxb.laws none).size C
  have happ : ∀ d : Src (BitVec 7), ∃ b', (Sxb.ops (.grow f)).insert b d l.length = .ok b' ∧
      Clean none b' (l ++ d.items) := by
    intro d
    have := Sxb.splice_roomy hf h7 C d (.included l.length) (.excluded l.length) (Nat.le_refl _)
      (Nat.le_refl _)
    rw [spliced_append] at this
    exact this
  cases c with
  | setGroup g' => exact ⟨b, rfl, C⟩
  | setPayload d =>
    obtain ⟨r, rfl, _⟩ := C
    obtain ⟨l1, r1, e1, h1, _⟩ := resizeGrow_roomy hf h7 l r 0
    have : l1 = [] := List.eq_nil_of_length_eq_zero h1
    subst this
    obtain ⟨b', e2, C'⟩ := Sxb.splice_roomy hf h7 (b := raw (([] : List (BitVec 7)).map e) (r1.map e)) (l := [])
      ⟨r1, rfl, fun _ h => by cases h⟩ d (.included 0) (.excluded 0)
      (by simp [Bound.first, Bound.last]) (by simp [Bound.last])
    have hsp : spliced ([] : List (BitVec 7)) (Bound.included 0).first
        ((Bound.excluded 0).last ([] : List (BitVec 7)).length) d.items = d.items := by
      simp [spliced]
    rw [hsp] at C'
    refine ⟨b', ?_, C'⟩
    show (Sxb.ops (.grow f)).setPayload (raw (l.map e) (r.map e)) d = _
    unfold SxOps.setPayload
    show ((do return (← resizeGrow (f 8) (raw (l.map e) (r.map e)) 0, none) : Res _) >>= fun x => _) = _
    rw [show resizeGrow (f 8) (raw (l.map e) (r.map e)) 0 = _ from e1]
    exact e2
  | splicePayload d rb re => exact Sxb.splice_roomy hf h7 C d rb re hr.1 hr.2
  | insertPayload d i => exact Sxb.splice_roomy hf h7 C d (.included i) (.excluded i) (Nat.le_refl _) hr
  | appendPayload d =>
    show ∃ b', (Sxb.ops (.grow f)).append _ d = _ ∧ _
    unfold SxOps.append
    rw [hps]; exact happ d
  | appendByte v =>
    show ∃ b', (Sxb.ops (.grow f)).appendByte _ v = _ ∧ _
    unfold SxOps.appendByte
    rw [hps]; exact happ ⟨[v], 1, some 1⟩
  | setPayloadByte i v =>
    obtain ⟨r, rfl, _⟩ := C
    have := C45_bytes_set_payload_byte (raw (l.map e) (r.map e)) l (r.map e) (raw_eq l _) i hr v
    exact ⟨_, this, r, (raw_eq _ _).symm, fun _ h => by cases h⟩

/-- C62: over a byte buffer that may be larger than requested, and holds only bytes below `0x80`
where none were requested or where it grew, any sequence of in-range calls leaves the bytes that
the same calls make of a plain list, and `data()` is the message with these bytes. -/
theorem C62_roomy_bytes_history_partial (f : (w : Nat) → List (BitVec w) → Nat → List (BitVec w))
    (hf : Roomy (f 8)) (h7 : ClearsRest (f 8)) (b0 : Buf .bytes)
    (cs : List (SxCall .s7)) (hr : SxCall.AllInRange cs (0, [])) :
    ∃ b b', Sxb.newWithBufferOn (f 8) b0 = .ok b ∧ SxCall.execAllBytesOn (.grow f) cs b = .ok b' ∧
      HoldsBytes b' (SxCall.applyAll cs (0, [])).2 := by
  have key : ∀ (cs : List (SxCall .s7)) (s : BitVec 4 × List (BitVec 7)) (b : Buf .bytes),
      SxCall.AllInRange (k := .s7) cs s → Clean none b s.2 →
      ∃ b', SxCall.execAllBytesOn (.grow f) cs b = .ok b' ∧
        Clean none b' (SxCall.applyAll (k := .s7) cs s).2 := by
    intro cs
    induction cs with
    | nil => intro s b _ C; exact ⟨b, rfl, C⟩
    | cons c cs ih =>
      intro s b hr C
      obtain ⟨b1, e1, C1⟩ := roomy_exec_bytes hf h7 s.1 C c hr.1
      obtain ⟨b2, e2, C2⟩ := ih _ b1 hr.2 C1
      refine ⟨b2, ?_, C2⟩
      show (c.execBytesOn (.grow f) b >>= fun b => SxCall.execAllBytesOn (.grow f) cs b) = _
      rw [e1]
      exact e2
  obtain ⟨r, hr2⟩ := below_septets (l := (f 8 b0 2).drop 2) (by
    intro v hv
    obtain ⟨i, hi⟩ := List.mem_iff_getElem?.mp hv
    rw [List.getElem?_drop] at hi
    exact h7 _ _ _ v (.inl (by omega)) hi)
  have hnew : Sxb.newWithBufferOn (f 8) b0 = .ok (raw (([] : List (BitVec 7)).map e) (r.map e)) := by
    unfold Sxb.newWithBufferOn zeroPrefix
    rw [hr2]
    rfl
  obtain ⟨b', e1, r', rfl, _⟩ := key cs (0, []) _ hr ⟨r, rfl, fun _ h => by cases h⟩
  refine ⟨_, _, hnew, e1, ?_⟩
  rw [raw_eq]
  exact holdsBytes _ _

theorem growCleared_roomy (page w : Nat) (hp : 0 < page) : Roomy (growCleared page w) where
  length b n := by
    unfold growCleared
    rw [List.length_append, List.length_replicate, List.length_take]
    have h := Nat.div_add_mod (n + page - 1) page
    have := Nat.mod_lt (n + page - 1) hp
    rw [Nat.mul_comm] at h
    omega
  keeps b n i h1 h2 := by
    unfold growCleared
    rw [List.getElem?_append_left (by rw [List.length_take]; omega), List.getElem?_take_of_lt h1]

theorem growCleared_clears (page : Nat) : ClearsRest (growCleared page 8) := by
  intro b n i v hi h
  unfold growCleared at h
  rw [List.getElem?_append_right (by rw [List.length_take]; omega), List.getElem?_replicate] at h
  split at h
  · cases h; decide
  · cases h

-- C62: the calls of the violation, over pages of which the rest is cleared.
example : Roomy (growCleared 16 8) ∧ ClearsRest (growCleared 16 8) ∧
    SxCall.execAllBytesOn (.grow (growCleared 16))
      [.setPayload ⟨[1, 2, 3, 4, 5], 5, some 5⟩, .setPayload ⟨[7], 1, some 1⟩,
        .insertPayload ⟨[1, 2, 3, 4, 5, 6, 7, 8, 9], 9, some 9⟩ 0] [0xF0, 0xF7] =
      .ok [0xF0, 1, 2, 3, 4, 5, 6, 7, 8, 9, 7, 0xF7, 0, 0, 0, 0] :=
  ⟨growCleared_roomy _ _ (by decide), growCleared_clears _, by decide +kernel⟩

/-! ## Messages of fixed size and texts -/

theorem fixedTryResize_roomy {m : Fmt} {b : Buf m} {n : Nat} (h : n ≤ b.length) :
    fixedTryResize b n = .ok b := by
  unfold fixedTryResize
  rw [if_neg (by omega)]

theorem newWithBufferOn_roomy (d : MsgDesc) (m : Fmt) {f : Buf m → Nat → Buf m} (hf : Roomy f) (b : Buf m) :
    d.newWithBufferOn m f b = d.tryNewWithBuffer m (f b (d.minSize m)) := by
  unfold MsgDesc.newWithBufferOn MsgDesc.tryNewWithBuffer
  rw [fixedTryResize_roomy (hf.length _ _)]
  rfl

/-- C62: `new_with_buffer` over a buffer that may be larger than requested makes a fresh message
wherever there is room for the longest field; for stream messages nothing behind the message
may look like a stream packet (C08). -/
theorem C62_roomy_new_partial :
    (∀ d ∈ Msg.all, ∀ (f : Buf .ump → Nat → Buf .ump) (b : Buf .ump), Roomy f →
      d.room ≤ (f b (d.minSize .ump)).length →
      (d ∈ Msg.streamAll → Quiet ((f b (d.minSize .ump)).drop 4)) →
      ∃ x, d.newWithBufferOn .ump f b = .ok x ∧ x.length = (f b (d.minSize .ump)).length ∧
        d.Fresh .ump x) ∧
    (∀ d ∈ Msg.hybridAll, ∀ (f : Buf .bytes → Nat → Buf .bytes) (b : Buf .bytes), Roomy f →
      d.room8 ≤ (f b (d.minSize .bytes)).length →
      ∃ x, d.newWithBufferOn .bytes f b = .ok x ∧ x.length = (f b (d.minSize .bytes)).length ∧
        d.Fresh .bytes x) := by
  refine ⟨fun d hd f b hf hl hq => ?_, fun d hd f b hf hl => ?_⟩
  · obtain ⟨x, h1, h2, h3, _⟩ := C08_fixed_ump_partial hd _ hl hq
    exact ⟨x, (newWithBufferOn_roomy d _ hf b).trans h1, h2, h3⟩
  · obtain ⟨x, h1, h2, h3, _⟩ := C08_fixed_bytes_partial hd _ hl
    exact ⟨x, (newWithBufferOn_roomy d _ hf b).trans h1, h2, h3⟩

example : Msg.cv2NoteOn.newWithBufferOn .ump (growPages 3 0xFFFFFFFF 32) [7] =
    .ok [0x40900000, 0, 0xFFFFFFFF] ∧ Msg.cv2NoteOn.room ≤ 3 ∧ Msg.cv2NoteOn ∉ Msg.streamAll := by
  decide +kernel

theorem fieldAt_kept {f : Buf .ump → Nat → Buf .ump} (hf : Roomy f) (b : Buf .ump) (hb : 0 < b.length)
    (n : Nat) (hn : 0 < n) (p q : Nat) : fieldAt (f b n) 0 p q = fieldAt b 0 p q := by
  unfold fieldAt
  rw [hf.keeps b n 0 hn hb]

/-- C62: setting the text of a flex data message over a buffer that may be larger than requested:
`data()` is the encoding of the text, with the group and channel of before, and `text()` is the
text unless its last byte is the last of the buffer (C29). -/
theorem C62_roomy_flex_text (t : FlexText) (f : Buf .ump → Nat → Buf .ump) (hf : Roomy f) (b : Buf .ump)
    (B : t.Backs b) (s : String) :
    ∃ b' d g c, FlexText.setTextOn f b s = .ok b' ∧ FlexText.data b' = .ok d ∧
      t.IsEncoding d g (fun _ => c) s ∧ FlexText.group b = .ok g ∧ FlexText.group b' = .ok g ∧
      FlexText.channel b = .ok c ∧ FlexText.channel b' = .ok c ∧ t.Backs b' ∧
      (NulFree s → ((utf8 s).length % 12 ≠ 0 ∨ s = "" ∨
        4 * textPackets 12 (utf8 s).length + 4 ≤ b'.length) → FlexText.text b' = .ok s) := by
  have hsz := FlexText.sizeForStr_eq (strBytes s).length
  have hpos := textPackets_pos (cap := 12) (n := (strBytes s).length) (by omega)
  have hl := hf.length b (FlexText.sizeForStr (strBytes s).length)
  have hb := B.len
  have hk := fieldAt_kept hf b (by omega) (FlexText.sizeForStr (strBytes s).length) (by omega)
  have hw := hf.keeps b (FlexText.sizeForStr (strBytes s).length) 0 (by omega) (by omega)
  have B1 : t.Backs (f b (FlexText.sizeForStr (strBytes s).length)) :=
    ⟨by omega, by rw [hk]; exact B.type, by rw [hk]; exact B.bank, by rw [hk]; exact B.status⟩
  obtain ⟨b', d, g, c, h1, h2, h3, h4, h5, h6, h7, h8, h9⟩ := C30_try_wire_format t _ B1 s
    (by rw [strBytes_length, ← hsz]; exact hl)
  refine ⟨b', d, g, c, ?_, h3, h4, ?_, h6, ?_, h8, h9, fun hs hn => ?_⟩
  · unfold FlexText.trySetText at h1
    simp only [fixedTryResize_roomy hl] at h1
    exact h1
  · rw [← h5]
    unfold FlexText.group at'
    rw [hw]
  · rw [← h7]
    unfold FlexText.channel at'
    rw [hw]
  · rw [h2] at hn
    obtain ⟨b2, _, k1, _, k3, _⟩ := (C29_try_text_round_trip_partial t _ B1 s hs hn).1
      (by rw [strBytes_length, ← hsz]; exact hl)
    rw [h1] at k1
    cases k1
    exact k3

-- C62: pages of ten words.
example : FlexText.setTextOn (growPages 10 0xFFFFFFFF 32) [0xD0100104, 0, 0, 0] "abc" =
    .ok [0xD0100104, 0x61626300, 0, 0, 0xFFFFFFFF, 0, 0, 0, 0xFFFFFFFF, 0xFFFFFFFF] := by decide +kernel

theorem roomy_stream {t : StreamText} (K : t.Known) {f : Buf .ump → Nat → Buf .ump} (hf : Roomy f)
    {b : Buf .ump} (B : t.Backs b) (s : String) :
    t.Backs (f b (StreamText.sizeForStr t.offset (strBytes s).length)) ∧
    4 * textPackets (14 - t.offset) (strBytes s).length ≤
      (f b (StreamText.sizeForStr t.offset (strBytes s).length)).length ∧
    (f b (StreamText.sizeForStr t.offset (strBytes s).length))[0]? = b[0]? ∧
    t.trySetText (f b (StreamText.sizeForStr t.offset (strBytes s).length)) s = t.setTextOn f b s := by
  have hsz := StreamText.sizeForStr_eq K.off (strBytes s).length
  have hpos := textPackets_pos (cap := 14 - t.offset) (n := (strBytes s).length)
    (by have := K.off; omega)
  have hl := hf.length b (StreamText.sizeForStr t.offset (strBytes s).length)
  have hb := B.len
  have hk := fieldAt_kept hf b (by omega) (StreamText.sizeForStr t.offset (strBytes s).length) (by omega)
  refine ⟨⟨by omega, by rw [hk]; exact B.type, by rw [hk]; exact B.status⟩, by omega,
    hf.keeps _ _ 0 (by omega) (by omega), ?_⟩
  unfold StreamText.trySetText
  simp only [fixedTryResize_roomy hl]
  rfl

/-- C62: setting an endpoint name or a product instance id over such a buffer: `data()` is the
encoding of the text, which the parser takes and reads back. -/
theorem C62_roomy_stream_names (t : StreamText) (ht : t = .endpointName ∨ t = .productInstanceId)
    (f : Buf .ump → Nat → Buf .ump) (hf : Roomy f) (b : Buf .ump) (B : t.Backs b) (s : String) :
    ∃ b' d, t.setTextOn f b s = .ok b' ∧ t.Backs b' ∧ StreamText.data b' = .ok d ∧
      t.IsEncoding d (fun _ => 0) s ∧
      (NulFree s → t.text b' = .ok s ∧ t.tryFrom d = .ok d ∧ t.text d = .ok s) := by
  have K : t.Known := StreamText.known_of_mem (by rcases ht with h | h <;> rw [h] <;> simp [StreamText.all])
  have h0 : t.offset = 0 := by rcases ht with h | h <;> rw [h] <;> rfl
  obtain ⟨B1, hl, _, e⟩ := roomy_stream K hf B s
  rw [h0] at hl
  obtain ⟨b', d, h1, _, h3, h4, h5, h6⟩ := (C31_try_stream_text t ht _ B1 s).1
    (by rw [length_utf8, h0]; exact hl)
  exact ⟨b', d, e ▸ h1, h3, h4, h5, fun hs => ⟨(h6 hs).1, (h6 hs).2.2⟩⟩

/-- C62: setting a function block name over such a buffer: the text and the block are right; the
packets that are added get whatever block number the buffer contained. -/
theorem C62_roomy_block_name_partial (f : Buf .ump → Nat → Buf .ump) (hf : Roomy f) (b : Buf .ump)
    (B : StreamText.functionBlockName.Backs b) (s : String) :
    ∃ b' d bl, StreamText.functionBlockName.setTextOn f b s = .ok b' ∧
      StreamText.functionBlockName.Backs b' ∧ StreamText.data b' = .ok d ∧
      StreamText.functionBlockName.IsEncoding d bl s ∧
      StreamText.block b' = StreamText.block b ∧
      (∀ j, 4 * j < b.length → j < textPackets 13 (utf8 s).length →
        (bl j).toNat = octetVal b (16 * j + 2)) ∧
      (NulFree s → StreamText.functionBlockName.text b' = .ok s) := by
  have K : StreamText.functionBlockName.Known := StreamText.known_of_mem (by simp [StreamText.all])
  obtain ⟨B1, hl, hw, e⟩ := roomy_stream K hf B s
  obtain ⟨b', d, bl, h1, _, h3, h4, h5, h6, h7, h8⟩ := (C32_try_function_block_name_text _ B1 s).1
    (by rw [length_utf8]; exact hl)
  refine ⟨b', d, bl, e ▸ h1, h3, h4, h5, ?_, fun j hj hj2 => ?_, fun hs => (h8 hs).1⟩
  · rw [h7]
    unfold StreamText.block at'
    rw [hw]
  · rw [h6 j]
    have hsz := StreamText.sizeForStr_eq K.off (strBytes s).length
    rw [length_utf8] at hj2
    have hk := hf.keeps b (StreamText.sizeForStr StreamText.functionBlockName.offset (strBytes s).length)
      (4 * j) (by rw [hsz]; exact Nat.mul_lt_mul_of_pos_left hj2 (by omega)) hj
    unfold octetVal fieldAt
    rw [show (16 * j + 2) / 4 = 4 * j by omega, hk]

-- C62: a page of eight words of ones: the second packet is of block 255.
example : StreamText.functionBlockName.setTextOn (growPages 8 0xFFFFFFFF 32) [0xF0120300, 0, 0, 0]
    "abcdefghijklmn" = .ok [0xF4120361, 0x62636465, 0x66676869, 0x6A6B6C6D, 0xFC12FF6E, 0, 0, 0] := by
  decide +kernel

end Midi2
