import Verif.Lemmas.Custom
import Verif.Props.Construct
import Verif.Props.Sysex
import Verif.Props.SysexBytes
import Verif.Props.Text
import Verif.Props.TextStream

/-!
# C62: buffers written by the user

The library's traits let users bring their own buffers.  What holds of messages over `Vec`
should hold over any buffer whose `resize` gives the requested size and keeps the contents.
-/

namespace Midi2

open Sx Sxb

theorem growFilled_grows {w : Nat} (v : BitVec w) : Grows (growFilled v) where
  length b n := by
    unfold growFilled
    rw [List.length_append, List.length_take, List.length_replicate]; omega
  keeps b n i h1 h2 := by
    unfold growFilled
    rw [List.getElem?_append_left (by rw [List.length_take]; omega), List.getElem?_take, if_pos h1]

theorem tryGrowFilled_grows {w : Nat} (cap : Nat) (v : BitVec w) : TryGrows (tryGrowFilled cap v) cap where
  ok b n h := by unfold tryGrowFilled; rw [if_pos h]
  length b n h := by unfold tryGrowFilled; rw [if_pos h]; exact (growFilled_grows v).length b n
  keeps b n i h h1 h2 := by
    unfold tryGrowFilled; rw [if_pos h]; exact (growFilled_grows v).keeps b n i h1 h2
  full b n h := by unfold tryGrowFilled; rw [if_neg (by omega)]

-- C62: buffers that fill with ones, unlimited and of ten units.
example (w : Nat) : Grows (growAll 0xFFFFFFFF w) ∧ TryGrows (tryGrowAll 10 0xFFFFFFFF w) 10 :=
  ⟨growFilled_grows _, tryGrowFilled_grows _ _⟩

/-! ## Constructors -/

theorem zeroPrefix_sized {w : Nat} {b : List (BitVec w)} {n : Nat} (h : b.length = n) :
    zeroPrefix b n = List.replicate n 0 := by
  unfold zeroPrefix
  rw [List.drop_eq_nil_of_le (by omega), List.append_nil]

theorem vecResize_nil {w : Nat} (n : Nat) : vecResize ([] : List (BitVec w)) n = List.replicate n 0 := by
  unfold vecResize
  simp

/-- C62: `new_with_buffer` over any resizable buffer, whatever it contains and whatever it is
filled with when it grows, makes the message that `new()` makes over a `Vec`. -/
theorem C62_new_with_buffer :
    (∀ (d : MsgDesc) (m : Fmt) (f : Buf m → Nat → Buf m) (b : Buf m), Grows f →
      d.newWithBufferOn m f b = d.newVec m) ∧
    (∀ (k : Sx) (f : Buf .ump → Nat → Buf .ump) (b : Buf .ump), Grows f →
      k.newWithBufferOn f b = k.newVec) ∧
    (∀ (f : Buf .bytes → Nat → Buf .bytes) (b : Buf .bytes), Grows f →
      Sxb.newWithBufferOn f b = Sxb.newVec) ∧
    (∀ (t : FlexText) (f : Buf .ump → Nat → Buf .ump) (b : Buf .ump), Grows f →
      t.newWithBufferOn f b = t.newVec) ∧
    (∀ (t : StreamText) (f : Buf .ump → Nat → Buf .ump) (b : Buf .ump), Grows f →
      t.newWithBufferOn f b = t.newVec) := by
  refine ⟨fun d m f b hf => ?_, fun k f b hf => ?_, fun f b hf => ?_, fun t f b hf => ?_,
    fun t f b hf => ?_⟩
  · unfold MsgDesc.newWithBufferOn MsgDesc.newVec
    rw [zeroPrefix_sized (hf.length _ _), vecResize_nil]
  · unfold Sx.newWithBufferOn Sx.newVec
    rw [zeroPrefix_sized (hf.length _ _), vecResize_nil]
  · unfold Sxb.newWithBufferOn Sxb.newVec
    rw [zeroPrefix_sized (hf.length _ _), vecResize_nil]
  · unfold FlexText.newWithBufferOn FlexText.newVec
    rw [zeroPrefix_sized (hf.length _ _), vecResize_nil]
  · unfold StreamText.newWithBufferOn StreamText.newVec
    rw [zeroPrefix_sized (hf.length _ _), vecResize_nil]

example : Sx.s7.newWithBufferOn vecResize [1, 2, 3] = .ok [0x30000000, 0] := by decide +kernel

/-- C62: `try_new_with_buffer` over a buffer with a capacity does the same if the capacity
allows the smallest message, and fails otherwise. -/
theorem C62_try_new_with_buffer (cap : Nat) :
    (∀ (d : MsgDesc) (m : Fmt) (f : Buf m → Nat → Buf m × Bool) (b : Buf m), TryGrows f cap →
      d.tryNewWithBufferOn m f b =
        if d.minSize m ≤ cap then d.newVec m else .err .bufferOverflow) ∧
    (∀ (k : Sx) (f : Buf .ump → Nat → Buf .ump × Bool) (b : Buf .ump), TryGrows f cap →
      k.tryNewWithBufferOn f b = if k.layout.words ≤ cap then k.newVec else .err .bufferOverflow) := by
  refine ⟨fun d m f b hf => ?_, fun k f b hf => ?_⟩
  · unfold MsgDesc.tryNewWithBufferOn MsgDesc.newVec
    by_cases h : d.minSize m ≤ cap
    · rw [if_pos h]
      simp only [hf.ok b _ h, if_true]
      rw [zeroPrefix_sized (hf.length _ _ h), vecResize_nil]
    · rw [if_neg h]
      simp only [hf.full b _ (Nat.lt_of_not_le h), Bool.false_eq_true, if_false]
  · unfold Sx.tryNewWithBufferOn Sx.newVec
    rw [words_eq]
    by_cases h : k.stride ≤ cap
    · rw [if_pos h]
      simp only [hf.ok b _ h, if_true]
      rw [zeroPrefix_sized (hf.length _ _ h), vecResize_nil]
    · rw [if_neg h]
      simp only [hf.full b _ (Nat.lt_of_not_le h), Bool.false_eq_true, if_false]

-- C62: over a buffer of garbage.
example : Msg.cv2NoteOn.newWithBufferOn .ump (growAll 0xFFFFFFFF 32) [0x12345678] =
    .ok [0x40900000, 0] := by decide +kernel

/-- C62: `new()` does not clear what the buffer is filled with when it grows: reserved bits
stay set. -/
theorem C62_new_violation :
    Grows (growAll 0xFFFFFFFF 32) ∧
    Msg.cv1NoteOn.newOn .ump (growAll 0xFFFFFFFF 32) [] ≠ Msg.cv1NoteOn.newVec .ump :=
  ⟨growFilled_grows _, by decide +kernel⟩

/-! ## System exclusive messages over UMP -/

theorem strict_any {k : Sx} {dbg : Bool} {I : Buf .ump → Prop} {g : BitVec 4} {N : Option Nat}
    {b : Buf .ump} {l : List k.Byte} (S : Strict k dbg I g N b l) : Strict k dbg Any g N b l :=
  ⟨S.packed, ⟨S.whole.steady, trivial, S.whole.fixed⟩, S.pad, S.exact⟩

theorem strict_accepted {k : Sx} {dbg : Bool} {I : Buf .ump → Prop} {g : BitVec 4} {b : Buf .ump}
    {l : List k.Byte} (S : Strict k dbg I g none b l) (hk : k = .s7) : k.tryFrom b = .ok b := by
  have hlen := S.exact rfl
  rw [Sx.tryFrom_iff]
  exact S.packed.valid.accepts hlen fun h => by subst hk; cases h

/-- C62: any sequence of in-range calls on a message over any resizable buffer never panics,
and leaves the group and bytes that the same calls make of a plain list; the buffer is exactly
the message; and the parser takes it (for `Sysex8` see the violation). -/
theorem C62_sysex_history_partial (k : Sx) (dbg : Bool)
    (f : (w : Nat) → List (BitVec w) → Nat → List (BitVec w)) (hf : Grows (f 32)) (b0 : Buf .ump)
    (cs : List (SxCall k)) (hr : SxCall.AllInRange cs (0, [])) :
    ∃ b b', k.newWithBufferOn (f 32) b0 = .ok b ∧ SxCall.execAllOn (.grow f) dbg cs b = .ok b' ∧
      k.Holds b' (SxCall.applyAll cs (0, [])).1 (SxCall.applyAll cs (0, [])).2 ∧
      k.data b' = .ok b' ∧ (k = .s7 → k.tryFrom b' = .ok b') := by
  obtain ⟨b, e, S⟩ := newVec_strict k dbg
  obtain ⟨b', e', S'⟩ := grow_history hf cs b (0, []) hr (strict_any S)
  refine ⟨b, b', (C62_new_with_buffer.2.1 k (f 32) b0 hf).trans e, e', S'.holds, S'.data_self, ?_⟩
  exact strict_accepted S'

-- C62: a buffer that fills with `0x7F`.
example : SxCall.execAllOn (k := .s7) (.grow (growAll 0x7F7F7F7F)) true
    [.setGroup 3, .setPayload ⟨[1, 2, 3, 4, 5, 6, 7], 0, none⟩] [0x30000000, 0] =
    .ok [0x33160102, 0x03040506, 0x33310700, 0] := by decide +kernel

/-- C62: over a buffer that fills with ones, bytes of a grown `Sysex7` keep their top bit,
which is reserved: `87` is sent where `07` was set. -/
theorem C62_sysex7_top_bit_violation :
    Grows (growAll 0xFFFFFFFF 32) ∧
    SxCall.execAllOn (k := .s7) (.grow (growAll 0xFFFFFFFF)) true
      [.setPayload ⟨[1, 2, 3, 4, 5, 6, 7], 0, none⟩] [0x30000000, 0] =
      .ok [0x30160102, 0x03040506, 0x30318700, 0] ∧
    SxCall.execAll (k := .s7) true
      [.setPayload ⟨[1, 2, 3, 4, 5, 6, 7], 0, none⟩] [0x30000000, 0] =
      .ok [0x30160102, 0x03040506, 0x30310700, 0] :=
  ⟨growFilled_grows _, by decide +kernel, by decide +kernel⟩

/-- C62: growth over a buffer that fills with ones leaves the new packets of a `Sysex8` with
another stream id: the parser refuses the message's own data. -/
theorem C62_sysex8_stream_id_violation :
    ∃ (b b' : Buf .ump), Grows (growAll 0xFFFFFFFF 32) ∧
      Sx.s8.newWithBufferOn (growAll 0xFFFFFFFF 32) [] = .ok b ∧
      SxCall.execAllOn (k := .s8) (.grow (growAll 0xFFFFFFFF)) true
        [.setPayload ⟨List.replicate 14 5, 14, some 14⟩] b = .ok b' ∧
      Sx.s8.data b' = .ok b' ∧ Sx.s8.tryFrom b' = .err .invalidData :=
  ⟨[0x50010000, 0, 0, 0],
    [0x501E0005, 0x05050505, 0x05050505, 0x05050505, 0x5032FF05, 0, 0, 0], growFilled_grows _,
    by decide +kernel⟩

/-- C62: any sequence of fallible in-range calls, with iterators that announce how many items
they yield, on a message over a buffer of capacity `cap`: no panic, `BufferOverflow` and an
empty payload exactly when the wanted payload needs more than `cap` words, and otherwise the
wanted payload.  (Without exact announcements see `C62_any_hint` and the violation.) -/
theorem C62_sysex_try_history_partial (k : Sx) (dbg : Bool) (cap : Nat) (hcap : k.layout.words ≤ cap)
    (f : (w : Nat) → List (BitVec w) → Nat → List (BitVec w) × Bool) (hf : TryGrows (f 32) cap)
    (b0 : Buf .ump) (cs : List (SxTryCall k)) (hr : SxTryCall.AllInRange cap cs (0, []))
    (hh : ∀ c ∈ cs, c.ExactHint) :
    ∃ b b', k.tryNewWithBufferOn (f 32) b0 = .ok b ∧
      SxTryCall.execAllOn (.tryGrow f) dbg cs b = .ok (b', (SxTryCall.applyAll cap cs (0, [])).2) ∧
      k.Holds b' (SxTryCall.applyAll cap cs (0, [])).1.1 (SxTryCall.applyAll cap cs (0, [])).1.2 ∧
      b'.length ≤ cap ∧ k.data b' = .ok b' ∧ (k = .s7 → k.tryFrom b' = .ok b') := by
  obtain ⟨b, e, S⟩ := newVec_strict k dbg
  have hnew := (C62_try_new_with_buffer cap).2 k (f 32) b0 hf
  rw [if_pos hcap, e] at hnew
  rw [words_eq] at hcap
  have S0 : CapStrict k dbg 0 cap b [] := by
    refine ⟨strict_any S, ?_⟩
    rw [S.exact rfl]
    have : k.count ([] : List k.Byte).length = 1 := by cases k <;> rfl
    rw [this]
    omega
  obtain ⟨b', e', S'⟩ := cap_history hcap hf cs b (0, []) hr hh S0
  exact ⟨b, b', hnew, e', S'.1.holds, S'.2, S'.1.data_self, strict_accepted S'.1⟩

-- C62: one call that fits in eight words, and one that does not.
example : SxTryCall.execAllOn (k := .s7) (.tryGrow (tryGrowAll 8 0xFFFFFFFF)) true
    [.setPayload ⟨List.replicate 20 1, 20, some 20⟩, .appendPayload ⟨List.replicate 5 2, 5, some 5⟩]
      [0x30000000, 0] = .ok ([0x30000101, 0x01010101], [none, some .bufferOverflow]) ∧
    SxTryCall.AllInRange (k := .s7) 8
      [.setPayload ⟨List.replicate 20 1, 20, some 20⟩, .appendPayload ⟨List.replicate 5 2, 5, some 5⟩]
      (0, []) ∧
    ∀ c ∈ ([.setPayload ⟨List.replicate 20 1, 20, some 20⟩,
      .appendPayload ⟨List.replicate 5 2, 5, some 5⟩] : List (SxTryCall .s7)), c.ExactHint := by
  refine ⟨by decide +kernel, ⟨trivial, trivial, trivial⟩, ?_⟩
  intro c hc
  simp only [List.mem_cons, List.not_mem_nil, or_false] at hc
  rcases hc with rfl | rfl <;> rfl

/-- C62: whatever the iterators announce, setting, inserting and appending over a buffer with a
capacity is all or nothing: the wanted payload, or `BufferOverflow` and an empty payload; never
a panic or anything else. -/
theorem C62_any_hint (k : Sx) (dbg : Bool) (cap : Nat)
    (f : (w : Nat) → List (BitVec w) → Nat → List (BitVec w) × Bool) (hf : TryGrows (f 32) cap)
    (b0 b : Buf .ump) (hb0 : k.tryNewWithBufferOn (f 32) b0 = .ok b)
    (cs : List (SxTryCall k)) (hr : SxTryCall.AllInRange cap cs (0, [])) (hh : ∀ c ∈ cs, c.ExactHint)
    (c : SxTryCall k) (hc : c.InRange (SxTryCall.applyAll cap cs (0, [])).1.2) (hs : c.ExactSplice) :
    ∃ b1 es b2, SxTryCall.execAllOn (.tryGrow f) dbg cs b = .ok (b1, es) ∧
      ((c.execOn (.tryGrow f) dbg b1 = .ok (b2, none) ∧
          k.Holds b2 (c.group (SxTryCall.applyAll cap cs (0, [])).1.1)
            (c.wanted (SxTryCall.applyAll cap cs (0, [])).1.2)) ∨
        (c.execOn (.tryGrow f) dbg b1 = .ok (b2, some .bufferOverflow) ∧
          k.Holds b2 (c.group (SxTryCall.applyAll cap cs (0, [])).1.1) [])) := by
  obtain ⟨x, e, S⟩ := newVec_strict k dbg
  have hnew := (C62_try_new_with_buffer cap).2 k (f 32) b0 hf
  rw [words_eq, e, hb0] at hnew
  by_cases hcap : k.stride ≤ cap
  · rw [if_pos hcap] at hnew
    cases hnew
    have S0 : CapStrict k dbg 0 cap b [] := by
      refine ⟨strict_any S, ?_⟩
      rw [S.exact rfl]
      have : k.count ([] : List k.Byte).length = 1 := by cases k <;> rfl
      rw [this]
      omega
    obtain ⟨b', e', S'⟩ := cap_history hcap hf cs b (0, []) hr hh S0
    rcases cap_exec hcap hf S' c hc hs with ⟨b2, e2, S2⟩ | ⟨_, b2, e2, S2⟩
    · exact ⟨b', _, b2, e', .inl ⟨e2, S2.1.holds⟩⟩
    · exact ⟨b', _, b2, e', .inr ⟨e2, S2.1.holds⟩⟩
  · rw [if_neg hcap] at hnew
    cases hnew

example :
    let c : SxTryCall .s7 := .setPayload ⟨[1, 2, 3, 4, 5, 6, 7], 0, none⟩
    ∃ b1 es b2, SxTryCall.execAllOn (k := .s7) (.tryGrow (tryGrowAll 8 0xFFFFFFFF)) true
        [.setGroup 3] [0x30000000, 0] = .ok (b1, es) ∧
      ((c.execOn (.tryGrow (tryGrowAll 8 0xFFFFFFFF)) true b1 = .ok (b2, none) ∧
          Sx.s7.Holds b2 3 [1, 2, 3, 4, 5, 6, 7]) ∨
        (c.execOn (.tryGrow (tryGrowAll 8 0xFFFFFFFF)) true b1 = .ok (b2, some .bufferOverflow) ∧
          Sx.s7.Holds b2 3 [])) := by
  have h := C62_any_hint .s7 true 8 (tryGrowAll 8 0xFFFFFFFF) (tryGrowFilled_grows _ _)
    [0x30000000, 0] [0x30000000, 0] (by decide +kernel) [.setGroup 3] ⟨trivial, trivial⟩
    (fun c hc => by obtain rfl := List.mem_singleton.mp hc; trivial)
    (.setPayload ⟨[1, 2, 3, 4, 5, 6, 7], 0, none⟩) trivial trivial
  rw [show SxTryCall.applyAll (k := .s7) 8 [.setGroup 3] (0, []) = ((3, []), [none]) by
    decide +kernel] at h
  exact h

/-- C62: an iterator that announces nothing makes a payload that fits fail: 20 bytes in a buffer
of eight words; an array of eight words takes them. -/
theorem C62_no_hint_violation :
    TryGrows (tryGrowAll 8 0 32) 8 ∧
    (∃ b', SxTryCall.execOn (k := .s7) (.tryGrow (tryGrowAll 8 0)) true [0x30000000, 0]
      (.setPayload ⟨List.replicate 20 1, 0, none⟩) = .ok (b', some .bufferOverflow)) ∧
    (∃ b', SxTryCall.exec (k := .s7) true [0x30000000, 0, 0, 0, 0, 0, 0, 0]
      (.setPayload ⟨List.replicate 20 1, 0, none⟩) = .ok (b', none)) :=
  ⟨tryGrowFilled_grows _ _, ⟨[0x30000101, 0x01010101], by decide +kernel⟩,
    ⟨[0x30160101, 0x01010101, 0x30260101, 0x01010101, 0x30260101, 0x01010101, 0x30320101, 0],
      by decide +kernel⟩⟩

/-! ## `Sysex7` over bytes -/

theorem grow_exec_bytes {f : (w : Nat) → List (BitVec w) → Nat → List (BitVec w)} (hf : Grows (f 8))
    (h7 : GrowsSeptets (f 8)) (g : BitVec 4) (l : List (BitVec 7)) (c : SxCall .s7)
    (hr : SxCall.InRange (k := .s7) l c) :
    c.execBytesOn (.grow f) (raw (l.map e) []) =
      .ok (raw ((SxCall.apply (k := .s7) (g, l) c).2.map e) []) := by
  have hps : (Sxb.ops (.grow f)).payloadSize (raw (l.map e) []) = .ok l.length := by
    have := payloadSize_raw (rest := []) (end_notin l)
    rw [List.length_map] at this
    exact this
  have happ : ∀ d : Src (BitVec 7), (Sxb.ops (.grow f)).insert (raw (l.map e) []) d l.length =
      .ok (raw ((l ++ d.items).map e) []) := by
    intro d
    have := Sxb.splice_grow hf h7 l d (.included l.length) (.excluded l.length) (Nat.le_refl _) (Nat.le_refl _)
    rw [spliced_append] at this
    exact this
  cases c with
  | setGroup g' => rfl
  | setPayload d =>
    obtain ⟨l1, e1, h1, _⟩ := resizeGrow_exact hf h7 l [] 0
    have : l1 = [] := List.eq_nil_of_length_eq_zero h1
    subst this
    have e2 := Sxb.splice_grow hf h7 [] d (.included 0) (.excluded 0)
      (by simp [Bound.first, Bound.last]) (by simp [Bound.last])
    have hsp : spliced ([] : List (BitVec 7)) (Bound.included 0).first ((Bound.excluded 0).last ([] : List (BitVec 7)).length) d.items = d.items := by
      simp [spliced]
    rw [hsp] at e2
    show (Sxb.ops (.grow f)).setPayload (raw (l.map e) []) d = _
    unfold SxOps.setPayload
    show ((do return (← resizeGrow (f 8) (raw (l.map e) []) 0, none) : Res _) >>= fun x => _) = _
    rw [show resizeGrow (f 8) (raw (l.map e) []) 0 = _ from e1]
    exact e2
  | splicePayload d rb re => exact Sxb.splice_grow hf h7 l d rb re hr.1 hr.2
  | insertPayload d i => exact Sxb.splice_grow hf h7 l d (.included i) (.excluded i) (Nat.le_refl _) hr
  | appendPayload d =>
    show (Sxb.ops (.grow f)).append _ d = _
    unfold SxOps.append
    rw [hps]; exact happ d
  | appendByte v =>
    show (Sxb.ops (.grow f)).appendByte _ v = _
    unfold SxOps.appendByte
    rw [hps]; exact happ ⟨[v], 1, some 1⟩
  | setPayloadByte i v =>
    have := C45_bytes_set_payload_byte (raw (l.map e) []) l [] (raw_eq l []) i hr v
    rw [← raw_eq] at this
    exact this

/-- C62: any sequence of in-range calls on a byte message over a resizable buffer that fills with
bytes below `0x80` leaves exactly the message with the bytes that the same calls make of a list. -/
theorem C62_bytes_history_partial (f : (w : Nat) → List (BitVec w) → Nat → List (BitVec w))
    (hf : Grows (f 8)) (h7 : GrowsSeptets (f 8)) (b0 : Buf .bytes)
    (cs : List (SxCall .s7)) (hr : SxCall.AllInRange cs (0, [])) :
    ∃ b, Sxb.newWithBufferOn (f 8) b0 = .ok b ∧
      SxCall.execAllBytesOn (.grow f) cs b = .ok (sysexBytes (SxCall.applyAll cs (0, [])).2) ∧
      HoldsBytes (sysexBytes (SxCall.applyAll cs (0, [])).2) (SxCall.applyAll cs (0, [])).2 := by
  have key : ∀ (cs : List (SxCall .s7)) (s : BitVec 4 × List (BitVec 7)),
      SxCall.AllInRange (k := .s7) cs s → SxCall.execAllBytesOn (.grow f) cs (raw (s.2.map e) []) =
        .ok (raw ((SxCall.applyAll (k := .s7) cs s).2.map e) []) := by
    intro cs
    induction cs with
    | nil => intro s _; rfl
    | cons c cs ih =>
      intro s hr
      show (c.execBytesOn (.grow f) (raw (s.2.map e) []) >>= fun b => SxCall.execAllBytesOn (.grow f) cs b) = _
      rw [grow_exec_bytes hf h7 s.1 s.2 c hr.1]
      exact ih _ hr.2
  have k0 := key cs (0, []) hr
  rw [raw_eq, raw_eq, List.append_nil, List.append_nil] at k0
  exact ⟨_, (C62_new_with_buffer.2.2.1 (f 8) b0 hf).trans (C08_sysex7_bytes [] 0).1, k0, holdsBytes_nil _⟩

-- C62: a buffer that fills with `0x55`.
example : Grows (growAll 0x55 8) ∧ GrowsSeptets (growAll 0x55 8) ∧
    SxCall.execAllBytesOn (.grow (growAll 0x55)) [.setPayload ⟨[1, 2, 3], 9, none⟩, .appendByte 4]
      [0xF0, 0xF7] = .ok [0xF0, 1, 2, 3, 4, 0xF7] := by
  refine ⟨growFilled_grows _, ?_, by decide +kernel⟩
  intro b n i v hi hv
  unfold growAll growFilled at hv
  rw [List.getElem?_append_right (by rw [List.length_take]; omega), List.getElem?_replicate] at hv
  split at hv
  · cases hv; decide
  · cases hv

/-- C62: over a buffer that fills with `0xF7`, inserting loses the end of the payload, and an
iterator that announces too many items makes `set_payload` panic. -/
theorem C62_bytes_fill_violation :
    Grows (growAll 0xF7 8) ∧
    SxCall.execAllBytesOn (.grow (growAll 0xF7)) [.insertPayload ⟨[9, 9, 9], 3, some 3⟩ 1]
      [0xF0, 1, 2, 3, 4, 5, 6, 0xF7] = .ok [0xF0, 1, 9, 9, 9, 2, 3, 4, 0, 0xF7, 0xF7] ∧
    SxCall.execAllBytesOn (.grow (growAll 0xF7)) [.setPayload ⟨[1, 2, 3], 9, none⟩]
      [0xF0, 0xF7] = .panic :=
  ⟨growFilled_grows _, by decide +kernel, by decide +kernel⟩

/-- C62: over a byte buffer with a capacity, `try_set_payload` on a message with one byte
panics: `try_resize` erases the old terminator after the buffer has been cut in front of it
(sysex7.rs:566-569). -/
theorem C62_bytes_try_violation :
    TryGrows (tryGrowAll 16 0 8) 16 ∧
    Sxb.tryFrom [0xF0, 1, 0xF7] = .ok [0xF0, 1, 0xF7] ∧
    (Sxb.ops (.tryGrow (tryGrowAll 16 0))).trySetPayload [0xF0, 1, 0xF7] ⟨[2], 1, some 1⟩ = .panic :=
  ⟨tryGrowFilled_grows _ _, by decide +kernel, by decide +kernel⟩

/-! ## Text -/

/-- The words of a buffer that has been resized from `b`. -/
theorem kept_octet {b b1 : Buf .ump} {n a : Nat} (hk : ∀ i, i < n → i < b.length → b1[i]? = b[i]?)
    (h1 : a < 4 * n) (h2 : a < 4 * b.length) : octetAt b1 a = octetAt b a :=
  octetAt_kept hk h2 h1

theorem flex_on {b b1 : Buf .ump} (hb : b ≠ []) (s : String)
    (hl : b1.length = FlexText.sizeForStr (strBytes s).length)
    (hk : ∀ i, i < FlexText.sizeForStr (strBytes s).length → i < b.length → b1[i]? = b[i]?) :
    (do let b ← FlexText.growBuffer (FlexText.clearPayload b1) (FlexText.sizeForStr (strBytes s).length)
        FlexText.writeText b (strBytes s)) = FlexText.setText b s := by
  have hsz := FlexText.sizeForStr_eq (strBytes s).length
  have hpos := textPackets_pos (cap := 12) (n := (strBytes s).length) (by omega)
  have hb0 : 0 < b.length := List.length_pos_iff.mpr hb
  obtain ⟨w, hw⟩ : ∃ w, b[0]? = some w := ⟨b[0], List.getElem?_eq_getElem hb0⟩
  have hw1 : b1[0]? = some w := by rw [hk 0 (by omega) hb0, hw]
  have hv : ∀ i, i < FlexText.sizeForStr (strBytes s).length → i < b.length →
      (vecResize b (FlexText.sizeForStr (strBytes s).length))[i]? = b[i]? := by
    intro i h1 h2
    unfold vecResize
    rw [List.getElem?_append_left (by rw [List.length_take]; omega), List.getElem?_take, if_pos h1]
  have hlv : (vecResize b (FlexText.sizeForStr (strBytes s).length)).length =
      FlexText.sizeForStr (strBytes s).length := Sxb.vecResize_length _ _
  obtain ⟨x, e1, l1, o1⟩ := FlexText.fill_eq hw1 (strBytes s) (by omega)
  obtain ⟨y, e2, l2, o2⟩ := FlexText.fill_eq (b := vecResize b (FlexText.sizeForStr (strBytes s).length))
    (w := w) (by rw [hv 0 (by omega) hb0, hw]) (strBytes s) (by omega)
  unfold FlexText.setText
  rw [e1]
  refine Eq.trans ?_ e2.symm
  congr 1
  apply eq_of_octetAt (by omega)
  intro a ha
  have ha' : a / 16 < b1.length / 4 := by omega
  rw [o1 a ha', o2 a (by omega)]
  have hlt : a / 16 < textPackets 12 (strBytes s).length := by omega
  rw [if_pos hlt, if_pos hlt]

/-- C62: `set_text` over any resizable buffer does what it does over a `Vec`; `try_set_text` over
a buffer with a capacity too, or fails and leaves the message as it was. -/
theorem C62_flex_text (b : Buf .ump) (hb : b ≠ []) (s : String) :
    (∀ f, Grows f → FlexText.setTextOn f b s = FlexText.setText b s) ∧
    (∀ f cap, TryGrows f cap → FlexText.trySetTextOn f b s =
      if 4 * textPackets 12 (strBytes s).length ≤ cap then
        (FlexText.setText b s).bind fun b => .ok (b, none)
      else .ok (b, some .bufferOverflow)) := by
  rw [← FlexText.sizeForStr_eq]
  refine ⟨fun f hf => flex_on hb s (hf.length _ _) (hf.keeps _ _), fun f cap hf => ?_⟩
  by_cases h : FlexText.sizeForStr (strBytes s).length ≤ cap
  · rw [if_pos h, ← flex_on (b1 := (f b (FlexText.sizeForStr (strBytes s).length)).1) hb s
      (hf.length _ _ h) (fun i => hf.keeps b _ i h)]
    unfold FlexText.trySetTextOn
    simp only [hf.ok b _ h, if_true]
    cases FlexText.growBuffer (FlexText.clearPayload (f b (FlexText.sizeForStr (strBytes s).length)).1)
      (FlexText.sizeForStr (strBytes s).length) with
    | ok c => rfl
    | err _ => rfl
    | panic => rfl
  · rw [if_neg h]
    unfold FlexText.trySetTextOn
    simp only [hf.full b _ (Nat.lt_of_not_le h), Bool.false_eq_true, if_false]
    rfl

example : FlexText.trySetTextOn (tryGrowAll 4 0xFFFFFFFF 32) [0xD5030103, 0, 0, 0] "abcdefghijklm" =
    .ok ([0xD5030103, 0, 0, 0], some .bufferOverflow) := by
  rw [(C62_flex_text [0xD5030103, 0, 0, 0] (List.cons_ne_nil _ _) _).2 (tryGrowAll 4 0xFFFFFFFF 32) 4
    (tryGrowFilled_grows _ _)]
  decide +kernel

theorem stream_on {t : StreamText} (ht : t ∈ StreamText.all) {b b1 : Buf .ump} (hb : b ≠ []) (s : String)
    (hl : b1.length = StreamText.sizeForStr t.offset (strBytes s).length)
    (hk : ∀ i, i < StreamText.sizeForStr t.offset (strBytes s).length → i < b.length → b1[i]? = b[i]?) :
    ∃ x y, (do
        let b ← StreamText.clearPayload t.offset b1
        let b ← StreamText.writeHeader b (StreamText.sizeForStr t.offset (strBytes s).length)
        let b ← setFormatFields b
        StreamText.writeText t.offset b (strBytes s)) = .ok x ∧ t.setText b s = .ok y ∧
      x.length = y.length ∧
      ∀ a, (t.offset = 1 ∧ a % 16 = 2 ∧ 4 * b.length ≤ a) ∨ octetAt x a = octetAt y a := by
  have ho : t.offset < 2 := by
    have : t.offset = 0 ∨ t.offset = 1 := by
      simp only [StreamText.all, List.mem_cons, List.not_mem_nil, or_false] at ht
      rcases ht with rfl | rfl | rfl <;> simp [StreamText.endpointName, StreamText.productInstanceId, StreamText.functionBlockName]
    omega
  have hsz := StreamText.sizeForStr_eq ho (n := (strBytes s).length)
  have hpos := textPackets_pos (cap := 14 - t.offset) (n := (strBytes s).length) (by omega)
  have hb0 : 0 < b.length := List.length_pos_iff.mpr hb
  obtain ⟨w, hw⟩ : ∃ w, b[0]? = some w := ⟨b[0], List.getElem?_eq_getElem hb0⟩
  have hw1 : b1[0]? = some w := by rw [hk 0 (by omega) hb0, hw]
  have hv : ∀ i, i < StreamText.sizeForStr t.offset (strBytes s).length → i < b.length →
      (vecResize b (StreamText.sizeForStr t.offset (strBytes s).length))[i]? = b[i]? := by
    intro i h1 h2
    unfold vecResize
    rw [List.getElem?_append_left (by rw [List.length_take]; omega), List.getElem?_take, if_pos h1]
  have hlv : (vecResize b (StreamText.sizeForStr t.offset (strBytes s).length)).length =
      StreamText.sizeForStr t.offset (strBytes s).length := Sxb.vecResize_length _ _
  obtain ⟨x, e1, l1, o1⟩ := StreamText.fill_eq ho hw1 (strBytes s) (by omega)
  obtain ⟨y, e2, l2, o2⟩ := StreamText.fill_eq ho
    (b := vecResize b (StreamText.sizeForStr t.offset (strBytes s).length))
    (w := w) (by rw [hv 0 (by omega) hb0, hw]) (strBytes s) (by omega)
  refine ⟨x, y, e1, e2, by omega, ?_⟩
  intro a
  by_cases ha : a < 4 * x.length
  · rw [o1 a (by omega), o2 a (by omega)]
    have hlt : a / 16 < textPackets (14 - t.offset) (strBytes s).length := by omega
    simp only [hlt, if_true]
    by_cases h2 : a % 16 < 2
    · rw [if_pos h2, if_pos h2]; exact .inr rfl
    · rw [if_neg h2, if_neg h2]
      by_cases h3 : a % 16 < 2 + t.offset
      · by_cases h4 : 4 * b.length ≤ a
        · exact .inl ⟨by omega, by omega, h4⟩
        · rw [octetAt_kept hk (by omega) (by omega), octetAt_kept hv (by omega) (by omega)]
          exact .inr rfl
      · rw [if_neg h3, if_neg h3]; exact .inr rfl
  · right
    unfold octetAt
    rw [List.getElem?_eq_none (by omega), List.getElem?_eq_none (by omega)]

/-- C62: setting the text of a stream message over any resizable buffer does what it does over a
`Vec`, except that packets added to a `FunctionBlockName` have a number that is left from the
filling (octet 2 of the packet). -/
theorem C62_stream_text_partial (t : StreamText) (ht : t ∈ StreamText.all) (b : Buf .ump) (hb : b ≠ [])
    (s : String) (f : Buf .ump → Nat → Buf .ump) (hf : Grows f) :
    ∃ x y, t.setTextOn f b s = .ok x ∧ t.setText b s = .ok y ∧ x.length = y.length ∧
      ∀ a, (t = StreamText.functionBlockName ∧ a % 16 = 2 ∧ 4 * b.length ≤ a) ∨
        octetAt x a = octetAt y a := by
  obtain ⟨x, y, h1, h2, h3, h4⟩ := stream_on ht hb s (hf.length _ _) (hf.keeps b _)
  refine ⟨x, y, h1, h2, h3, fun a => (h4 a).imp (fun h => ⟨?_, h.2⟩) id⟩
  have h1 := h.1
  simp only [StreamText.all, List.mem_cons, List.not_mem_nil, or_false] at ht
  rcases ht with rfl | rfl | rfl
  · simp [StreamText.endpointName] at h1
  · simp [StreamText.productInstanceId] at h1
  · rfl

example : ∃ x y, StreamText.endpointName.setTextOn (growAll 0xFFFFFFFF 32) [0xF0030000, 0, 0, 0]
      "abcdefghijklmnop" = .ok x ∧
    StreamText.endpointName.setText [0xF0030000, 0, 0, 0] "abcdefghijklmnop" = .ok y ∧
    x.length = y.length ∧ ∀ a, octetAt x a = octetAt y a := by
  obtain ⟨x, y, h1, h2, h3, h4⟩ := C62_stream_text_partial .endpointName (by decide +kernel)
    [0xF0030000, 0, 0, 0] (List.cons_ne_nil _ _) "abcdefghijklmnop" (growAll 0xFFFFFFFF 32)
    (growFilled_grows _)
  exact ⟨x, y, h1, h2, h3, fun a => (h4 a).resolve_left (fun h => absurd h.1 (by decide))⟩

/-- C62: the names without a number are exactly those of a `Vec`; with a capacity, or fail and
leave the message as it was. -/
theorem C62_stream_names (t : StreamText) (ht : t = .endpointName ∨ t = .productInstanceId)
    (b : Buf .ump) (hb : b ≠ []) (s : String) :
    (∀ f, Grows f → t.setTextOn f b s = t.setText b s) ∧
    (∀ f cap, TryGrows f cap → t.trySetTextOn f b s =
      if 4 * textPackets 14 (strBytes s).length ≤ cap then
        (t.setText b s).bind fun b => .ok (b, none)
      else .ok (b, some .bufferOverflow)) := by
  have hm : t ∈ StreamText.all := by
    simp only [StreamText.all, List.mem_cons]
    exact ht.imp id Or.inl
  have h14 : 4 * textPackets 14 (strBytes s).length = StreamText.sizeForStr t.offset (strBytes s).length := by
    have h0 : t.offset = 0 := by rcases ht with rfl | rfl <;> rfl
    rw [StreamText.sizeForStr_eq (by omega), h0]
  rw [h14]
  have ho : t.offset ≠ 1 := by rcases ht with rfl | rfl <;> simp [StreamText.endpointName, StreamText.productInstanceId]
  have key : ∀ b1 : Buf .ump, b1.length = StreamText.sizeForStr t.offset (strBytes s).length →
      (∀ i, i < StreamText.sizeForStr t.offset (strBytes s).length → i < b.length → b1[i]? = b[i]?) →
      ∃ y, (do
        let b ← StreamText.clearPayload t.offset b1
        let b ← StreamText.writeHeader b (StreamText.sizeForStr t.offset (strBytes s).length)
        let b ← setFormatFields b
        StreamText.writeText t.offset b (strBytes s)) = .ok y ∧ t.setText b s = .ok y := by
    intro b1 hl hk
    obtain ⟨x, y, h1, h2, h3, h4⟩ := stream_on hm hb s hl hk
    have : x = y := eq_of_octetAt h3 fun a _ => (h4 a).resolve_left fun h => ho h.1
    subst this
    exact ⟨x, h1, h2⟩
  refine ⟨fun f hf => ?_, fun f cap hf => ?_⟩
  · obtain ⟨y, h1, h2⟩ := key _ (hf.length _ _) (hf.keeps b _)
    rw [h2]; exact h1
  · by_cases h : StreamText.sizeForStr t.offset (strBytes s).length ≤ cap
    · obtain ⟨y, h1, h2⟩ := key _ (hf.length b _ h) (fun i => hf.keeps b _ i h)
      rw [if_pos h, h2]
      unfold StreamText.trySetTextOn
      simp only [hf.ok b _ h, if_true]
      revert h1
      cases StreamText.clearPayload t.offset (f b (StreamText.sizeForStr t.offset (strBytes s).length)).1 with
      | err _ => intro h1; cases h1
      | panic => intro h1; cases h1
      | ok c =>
        simp only [Res.ok_bind]
        cases StreamText.writeHeader c (StreamText.sizeForStr t.offset (strBytes s).length) with
        | err _ => intro h1; cases h1
        | panic => intro h1; cases h1
        | ok c =>
          simp only [Res.ok_bind]
          cases setFormatFields c with
          | err _ => intro h1; cases h1
          | panic => intro h1; cases h1
          | ok c =>
            simp only [Res.ok_bind]
            intro h1
            rw [h1]; rfl
    · rw [if_neg h]
      unfold StreamText.trySetTextOn
      simp only [hf.full b _ (Nat.lt_of_not_le h), Bool.false_eq_true, if_false]
      rfl

-- C62: two packets over a buffer that fills with ones.
example : (FlexText.setTextOn (growAll 0xFFFFFFFF 32) [0xD5030103, 0, 0, 0] "abcdefghijklm") =
    .ok [0xD5430103, 0x61626364, 0x65666768, 0x696A6B6C, 0xD5C30103, 0x6D000000, 0, 0] := by
  decide +kernel

/-- C62: over a buffer that fills with ones, a fresh `FunctionBlockName` that is given a long
name is refused by the parser. -/
theorem C62_function_block_name_violation :
    ∃ b x : Buf .ump, Grows (growAll 0xFFFFFFFF 32) ∧
      StreamText.functionBlockName.newWithBufferOn (growAll 0xFFFFFFFF 32) [] = .ok b ∧
      StreamText.functionBlockName.setTextOn (growAll 0xFFFFFFFF 32) b "abcdefghijklmn" = .ok x ∧
      StreamText.data x = .ok x ∧
      StreamText.functionBlockName.tryFrom x = .err .invalidData :=
  ⟨[0xF0120000, 0, 0, 0], [0xF4120061, 0x62636465, 0x66676869, 0x6A6B6C6D, 0xFC12FF6E, 0, 0, 0],
    growFilled_grows _, by decide +kernel, by decide +kernel, by decide +kernel, by decide +kernel⟩

end Midi2
