import Verif.Lemmas.Construct
import Verif.Spec.Defaults

/-!
# C08, C14, C46: construction and rebuffering of fixed-size messages
-/

namespace Midi2

theorem Fld.default_fresh (f : Fld) : f.default = f.freshValue := by
  cases f
  case hybrid r _ _ => cases r <;> rfl
  case schema r _ => cases r <;> rfl
  all_goals rfl

theorem freshOk_spec {d : MsgDesc} {m : Fmt} (h : d.freshOk m = true) :
    ∃ b, d.newVec m = .ok b ∧ b.length = d.minSize m ∧ d.tryFrom m b = .ok b ∧
      ∀ n f, (n, f) ∈ d.props → f.accessible m = true → f.read m b = .ok f.freshValue := by
  unfold MsgDesc.freshOk at h
  split at h
  · next b e =>
    simp only [Bool.and_eq_true, decide_eq_true_eq, List.all_eq_true, Bool.or_eq_true,
      Bool.not_eq_true'] at h
    refine ⟨b, e, h.1.2, h.1.1, fun n f hf ha => ?_⟩
    rcases h.2 _ hf with h | h
    · rw [ha] at h; cases h
    · rw [h, Fld.default_fresh]
  · cases h

theorem newWithBuffer_eq (d : MsgDesc) (m : Fmt) (b : Buf m) :
    d.newWithBuffer m b = d.newVec m := by
  unfold MsgDesc.newWithBuffer MsgDesc.newVec
  congr 1
  unfold zeroPrefix vecResize
  rw [List.drop_eq_nil_of_le (by simp; omega)]
  simp

theorem take_data {d : MsgDesc} {m : Fmt} {p s : Buf m} (hp : p.length = d.minSize m) :
    d.data m (p ++ s) = .ok p := by
  rw [data_ok (by rw [List.length_append]; omega), ← hp, List.take_left]

/-! ## C08 -/

/-- C08 over resizable UMP buffers: `new()` and `new_with_buffer(b)`, whatever `b`
contained, give a valid message holding the defaults.  (All types but
`FunctionBlockDiscovery`, see the violation below.) -/
theorem C08_vec_ump_partial {d : MsgDesc} (hd : d ∈ Msg.all)
    (hn : d.name ≠ "ump_stream::FunctionBlockDiscovery") (b : Buf .ump) :
    ∃ x, d.newVec .ump = .ok x ∧ d.newWithBuffer .ump b = .ok x ∧ x.length = d.umpSize ∧
      d.Fresh .ump x := by
  have h := List.all_eq_true.mp table_fresh_ump d hd
  simp only [Bool.or_eq_true, beq_iff_eq, hn, false_or] at h
  obtain ⟨x, h1, h2, h3, h4⟩ := freshOk_spec h
  refine ⟨x, h1, by rw [newWithBuffer_eq, h1], h2, ⟨x, ?_, h3⟩, h4⟩
  rw [data_ok (Nat.le_of_eq h2.symm), ← h2, List.take_length]

example : ∃ x, Msg.cv2NoteOn.newVec .ump = .ok x ∧ Msg.cv2NoteOn.newWithBuffer .ump [7, 7, 7] = .ok x ∧
    x.length = 2 ∧ Msg.cv2NoteOn.Fresh .ump x :=
  C08_vec_ump_partial (d := Msg.cv2NoteOn) (by decide +kernel) (by decide) [7, 7, 7]

/-- C08 over resizable byte buffers.  (All types but `SongPositionPointer`.) -/
theorem C08_vec_bytes_partial {d : MsgDesc} (hd : d ∈ Msg.hybridAll)
    (hn : d.name ≠ "system_common::SongPositionPointer") (b : Buf .bytes) :
    ∃ x, d.newVec .bytes = .ok x ∧ d.newWithBuffer .bytes b = .ok x ∧
      x.length = d.minSize .bytes ∧ d.Fresh .bytes x := by
  have h := List.all_eq_true.mp table_fresh_bytes d hd
  simp only [Bool.or_eq_true, beq_iff_eq, hn, false_or] at h
  obtain ⟨x, h1, h2, h3, h4⟩ := freshOk_spec h
  refine ⟨x, h1, by rw [newWithBuffer_eq, h1], h2, ⟨x, ?_, h3⟩, h4⟩
  rw [data_ok (Nat.le_of_eq h2.symm), ← h2, List.take_length]

example : ∃ x, Msg.cv1NoteOn.newVec .bytes = .ok x ∧ Msg.cv1NoteOn.newWithBuffer .bytes [7] = .ok x ∧
    x.length = 3 ∧ Msg.cv1NoteOn.Fresh .bytes x :=
  C08_vec_bytes_partial (d := Msg.cv1NoteOn) (by decide +kernel) (by decide) [7]

/-- C08: `try_new_with_buffer` and `try_new` fail with `BufferOverflow` exactly when the
buffer is shorter than the minimum (they never return another error). -/
theorem C08_fixed_too_short (d : MsgDesc) (m : Fmt) (b : Buf m) (size : Nat) :
    (b.length < d.minSize m → d.tryNewWithBuffer m b = .err .bufferOverflow) ∧
    (size < d.minSize m → d.tryNew m size = .err .bufferOverflow) := by
  constructor <;> intro h
  · unfold MsgDesc.tryNewWithBuffer fixedTryResize
    rw [if_pos h]; rfl
  · unfold MsgDesc.tryNew fixedTryResize
    rw [if_pos (by simpa using h)]; rfl

example : Msg.cv2NoteOn.tryNewWithBuffer .ump [7] = .err .bufferOverflow ∧
    Msg.cv2NoteOn.tryNew .ump 1 = .err .bufferOverflow := by decide +kernel

theorem newArray_eq (d : MsgDesc) (m : Fmt) (size : Nat) (h : d.minSize m ≤ size) :
    d.newArray m size = d.tryNewWithBuffer m (List.replicate size 0) ∧
    d.tryNew m size = d.tryNewWithBuffer m (List.replicate size 0) := by
  have hz : zeroPrefix (List.replicate size (0 : BitVec m.w)) (d.minSize m) =
      List.replicate size 0 := by
    unfold zeroPrefix
    rw [List.drop_replicate, List.replicate_append_replicate]
    congr 1; omega
  unfold MsgDesc.newArray MsgDesc.tryNew MsgDesc.tryNewWithBuffer fixedTryResize
  rw [if_neg (by omega), if_neg (by simp; omega)]
  simp only [Res.ok_bind, hz]
  exact ⟨trivial, trivial⟩

theorem fbd_init (x y z : BitVec 32) :
    initProps .ump Msg.streamFunctionBlockDiscovery.props [0, x, y, z] =
      .ok [0xF0100000, x, y, z] := by
  have e1 : Fld.write .ump (.umpType 0xF) [0, x, y, z] () = .ok [0xF0000000, x, y, z] := rfl
  have e2 : Fld.write .ump (.streamStatus 0x10) [0xF0000000, x, y, z] () =
      .ok [0xF0100000, x, y, z] := by
    show Res.ok (onChunksExact 4 [_, x, y, z] _) = _
    rw [onChunks4]; rfl
  have e3 : Fld.write .ump .streamFormats [0xF0100000, x, y, z] () =
      .ok [0xF0100000, x, y, z] := by
    show setFormatFields [_, x, y, z] = _
    unfold setFormatFields
    rw [ch4]
    have e : [[0xF0100000#32, x, y, z]].takeWhile
        (fun p : List (BitVec 32) => U32.nibble (head0 p) 0 == 0xF#4) =
        [[0xF0100000#32, x, y, z]] := by
      have : (U32.nibble (head0 [0xF0100000#32, x, y, z]) 0 == 0xF#4) = true := by
        show (U32.nibble 0xF0100000#32 0 == 0xF#4) = true
        decide
      rw [List.takeWhile_cons, this]; rfl
    show (match setFormatPackets ([[0xF0100000#32, x, y, z]].takeWhile _) with
      | none => Res.panic
      | some ps => .ok (onChunksExact 4 [0xF0100000#32, x, y, z]
          (fun cs => ps ++ cs.drop ps.length))) = _
    rw [e]
    show Res.ok (onChunksExact 4 [0xF0100000#32, x, y, z] _) = _
    rw [onChunks4]; rfl
  simp only [Msg.streamFunctionBlockDiscovery, initProps, Fld.default, e1, Res.ok_bind, e2, e3]
  rfl

/-- The number of words the constructor of a type needs: its minimum size, and four for
`FunctionBlockDiscovery`. -/
def MsgDesc.room (d : MsgDesc) : Nat :=
  if d.name = "ump_stream::FunctionBlockDiscovery" then 4 else d.umpSize

/-- C08 over fixed UMP buffers: `try_new_with_buffer(b)` gives a valid message holding the
defaults, whatever `b` contained, and touches nothing behind the message.  For stream
messages the words behind the message must not look like another stream packet
(see `C08_dirty_buffer_violation`). -/
theorem C08_fixed_ump_partial {d : MsgDesc} (hd : d ∈ Msg.all) (b : Buf .ump)
    (hl : d.room ≤ b.length) (hq : d ∈ Msg.streamAll → Quiet (b.drop 4)) :
    ∃ x, d.tryNewWithBuffer .ump b = .ok x ∧ x.length = b.length ∧ d.Fresh .ump x ∧
      (d ∉ Msg.streamAll → x.drop d.umpSize = b.drop d.umpSize) := by
  have hfit := List.all_eq_true.mp table_ump_fits d hd
  have hsmall := List.all_eq_true.mp (List.all_eq_true.mp table_smallStatus d hd)
  have hstream : ∀ d ∈ Msg.all, d ∉ Msg.streamAll → ∀ q ∈ d.props, q.2.walks = false := by
    decide +kernel
  have hmin : d.umpSize ≤ b.length := by
    have : ∀ d ∈ Msg.all, d.umpSize ≤ d.room := by decide +kernel
    exact Nat.le_trans (this d hd) hl
  have hres : d.tryNewWithBuffer .ump b =
      initProps .ump d.props (List.replicate d.umpSize 0 ++ b.drop d.umpSize) := by
    unfold MsgDesc.tryNewWithBuffer fixedTryResize
    rw [if_neg (show ¬ d.minSize .ump > b.length from by show ¬ d.umpSize > b.length; omega)]
    rfl
  -- common end: given the initialised front
  have fin : ∀ p p' s : Buf .ump, List.replicate d.umpSize 0 ++ b.drop d.umpSize = p ++ s →
      ((∃ q ∈ d.props, q.2.walks = true) → p.length = 4 ∧ Quiet s) →
      initProps .ump d.props p = .ok p' → d.umpSize ≤ p.length →
      d.tryFrom .ump (p'.take d.umpSize) = .ok (p'.take d.umpSize) →
      (∀ n f, (n, f) ∈ d.props → f.accessible .ump = true →
        f.read .ump p' = .ok f.freshValue) →
      (p.length = d.umpSize ∨ d ∈ Msg.streamAll) →
      ∃ x, d.tryNewWithBuffer .ump b = .ok x ∧ x.length = b.length ∧ d.Fresh .ump x ∧
        (d ∉ Msg.streamAll → x.drop d.umpSize = b.drop d.umpSize) := by
    intro p p' s e hw hi hlp hv hr hor
    obtain ⟨s', i1, i2, i3, i4⟩ := initProps_app d.props hsmall hw hi
    refine ⟨p' ++ s', by rw [hres, e, i1], ?_, ⟨⟨p'.take d.umpSize, ?_, hv⟩, ?_⟩, ?_⟩
    · have := congrArg List.length e
      simp only [List.length_append, List.length_replicate, List.length_drop] at this ⊢
      omega
    · rw [data_ok (m := .ump) (d := d) (show d.umpSize ≤ (p' ++ s').length by
        rw [List.length_append]; omega)]
      show Res.ok ((p' ++ s').take d.umpSize) = _
      rw [List.take_append_of_le_length (by omega)]
    · intro n f hf ha
      rw [Fld.read_append (MsgDesc.fits_mem hfit hf) (by omega) s']
      exact hr n f hf ha
    · intro hns
      rcases hor with h | h
      · have h5 := congrArg (List.drop d.umpSize) e
        rw [List.drop_left' (by simp), List.drop_left' h] at h5
        rw [i4 (hstream d hd hns), List.drop_left' (by omega), h5]
      · exact absurd h hns
  by_cases hn : d.name = "ump_stream::FunctionBlockDiscovery"
  · have hdd : d = Msg.streamFunctionBlockDiscovery := by
      have : ∀ d ∈ Msg.all, d.name = "ump_stream::FunctionBlockDiscovery" →
          d = Msg.streamFunctionBlockDiscovery := by decide +kernel
      exact this d hd hn
    subst hdd
    have hq := hq (by simp [Msg.streamAll])
    have hl : 4 ≤ b.length := hl
    match b, hl with
    | w :: x :: y :: z :: s, _ =>
      exact fin [0, x, y, z] _ s rfl (fun _ => ⟨rfl, hq⟩) (fbd_init x y z)
        (by show 1 ≤ 4; omega) (by
          show Msg.streamFunctionBlockDiscovery.tryFrom .ump [0xF0100000] = .ok [0xF0100000]
          decide +kernel)
        (by
          intro n f hf ha
          simp only [Msg.streamFunctionBlockDiscovery, List.mem_cons, Prod.mk.injEq,
            List.not_mem_nil, or_false] at hf
          rcases hf with ⟨_, rfl⟩ | ⟨_, rfl⟩ | ⟨_, rfl⟩ | ⟨_, rfl⟩ | ⟨_, rfl⟩ | ⟨_, rfl⟩ <;>
            first | rfl | cases ha)
        (.inr (by simp [Msg.streamAll]))
  · obtain ⟨x, h1, _, h2, h3⟩ := C08_vec_ump_partial hd hn b
    have h1 : initProps .ump d.props (List.replicate d.umpSize 0) = .ok x := by
      have := h1
      unfold MsgDesc.newVec vecResize at this
      simp only [List.take_nil, List.nil_append, List.length_nil, Nat.sub_zero] at this
      exact this
    have hx : x.take d.umpSize = x := by rw [← h2, List.take_length]
    obtain ⟨y, hy1, hy2⟩ := h3.valid
    rw [data_ok (m := .ump) (d := d) (show d.umpSize ≤ x.length by omega)] at hy1
    have hy1 : Res.ok (x.take d.umpSize) = Res.ok y := hy1
    rw [hx] at hy1; cases hy1
    refine fin (List.replicate d.umpSize 0) x (b.drop d.umpSize) rfl ?_ h1 (by simp)
      (by rw [hx]; exact hy2) h3.defaults (.inl (by simp))
    rintro ⟨q, hq1, hq2⟩
    have hw := List.all_eq_true.mp (List.all_eq_true.mp table_walks d hd) q hq1
    simp only [hq2, Bool.not_true, Bool.false_or, Bool.or_eq_true, beq_iff_eq, hn, or_false]
      at hw
    refine ⟨by simp [hw], ?_⟩
    rw [hw]
    refine hq ?_
    by_cases h : d ∈ Msg.streamAll
    · exact h
    · rw [hstream d hd h q hq1] at hq2; cases hq2

/-- C08: array `new()` and `try_new()` with a large enough array, in UMP form. -/
theorem C08_array_ump {d : MsgDesc} (hd : d ∈ Msg.all) (size : Nat) (hl : d.room ≤ size) :
    ∃ x, d.newArray .ump size = .ok x ∧ d.tryNew .ump size = .ok x ∧ x.length = size ∧
      d.Fresh .ump x := by
  have hmin : d.umpSize ≤ size := by
    have : ∀ d ∈ Msg.all, d.umpSize ≤ d.room := by decide +kernel
    exact Nat.le_trans (this d hd) hl
  obtain ⟨e1, e2⟩ := newArray_eq d .ump size hmin
  obtain ⟨x, h1, h2, h3, _⟩ := C08_fixed_ump_partial hd (List.replicate size 0) (by simpa using hl)
    (by
      intro _ h
      have : head0 ((List.replicate size (0 : BitVec 32)).drop 4) = 0 := by
        rw [List.drop_replicate]
        cases size - 4 <;> rfl
      show U32.nibble (head0 ((List.replicate size (0 : BitVec 32)).drop 4)) 0 ≠ 0xF#4
      rw [this]; decide)
  exact ⟨x, by rw [e1, h1], by rw [e2, h1], by simpa using h2, h3⟩

example : ∃ x, Msg.flexSetTempo.newArray .ump 6 = .ok x ∧ Msg.flexSetTempo.tryNew .ump 6 = .ok x ∧
    x.length = 6 ∧ Msg.flexSetTempo.Fresh .ump x :=
  C08_array_ump (d := Msg.flexSetTempo) (by decide +kernel) 6 (by decide)

/-- The number of bytes the constructor of a type needs. -/
def MsgDesc.room8 (d : MsgDesc) : Nat :=
  if d.name = "system_common::SongPositionPointer" then 3 else d.minSize .bytes

theorem spp_init (x : BitVec 8) :
    initProps .bytes Msg.sysSongPositionPointer.props [0, 0, x] =
      .ok [0xF2, 0, U8.setSeptet x 0] := rfl

/-- C08 over fixed byte buffers. -/
theorem C08_fixed_bytes_partial {d : MsgDesc} (hd : d ∈ Msg.hybridAll) (b : Buf .bytes)
    (hl : d.room8 ≤ b.length) :
    ∃ x, d.tryNewWithBuffer .bytes b = .ok x ∧ x.length = b.length ∧ d.Fresh .bytes x ∧
      x.drop d.room8 = b.drop d.room8 := by
  have hmin : d.minSize .bytes ≤ d.room8 := by
    have : ∀ d ∈ Msg.hybridAll, d.minSize .bytes ≤ d.room8 := by decide +kernel
    exact this d hd
  have hfit : d.fits .bytes d.room8 = true := by
    have : ∀ d ∈ Msg.hybridAll, d.fits .bytes d.room8 = true := by decide +kernel
    exact this d hd
  have hres : d.tryNewWithBuffer .bytes b =
      initProps .bytes d.props (List.replicate (d.minSize .bytes) 0 ++ b.drop (d.minSize .bytes)) := by
    unfold MsgDesc.tryNewWithBuffer fixedTryResize
    rw [if_neg (by omega)]
    rfl
  have fin : ∀ p p' s : Buf .bytes,
      List.replicate (d.minSize .bytes) 0 ++ b.drop (d.minSize .bytes) = p ++ s →
      initProps .bytes d.props p = .ok p' → p.length = d.room8 →
      d.tryFrom .bytes (p'.take (d.minSize .bytes)) = .ok (p'.take (d.minSize .bytes)) →
      (∀ n f, (n, f) ∈ d.props → f.accessible .bytes = true →
        f.read .bytes p' = .ok f.freshValue) →
      ∃ x, d.tryNewWithBuffer .bytes b = .ok x ∧ x.length = b.length ∧ d.Fresh .bytes x ∧
        x.drop d.room8 = b.drop d.room8 := by
    intro p p' s e hi hlp hv hr
    obtain ⟨i1, i3⟩ := initProps_app8 d.props hi s
    have hlen := congrArg List.length e
    simp only [List.length_append, List.length_replicate, List.length_drop] at hlen
    refine ⟨p' ++ s, by rw [hres, e, i1], ?_, ⟨⟨p'.take (d.minSize .bytes), ?_, hv⟩, ?_⟩, ?_⟩
    · rw [List.length_append]; omega
    · rw [data_ok (by rw [List.length_append]; omega),
        List.take_append_of_le_length (by omega)]
    · intro n f hf ha
      rw [Fld.read_append (MsgDesc.fits_mem hfit hf) (by omega) s]
      exact hr n f hf ha
    · have h2 := congrArg (List.drop d.room8) e
      rw [List.drop_append, List.drop_left' hlp] at h2
      rw [List.drop_left' (by omega), ← h2, List.drop_eq_nil_of_le (by simp; omega),
        List.length_replicate, List.drop_drop]
      simp
      congr 1; omega
  by_cases hn : d.name = "system_common::SongPositionPointer"
  · have hdd : d = Msg.sysSongPositionPointer := by
      have : ∀ d ∈ Msg.hybridAll, d.name = "system_common::SongPositionPointer" →
          d = Msg.sysSongPositionPointer := by decide +kernel
      exact this d hd hn
    subst hdd
    have hl : 3 ≤ b.length := hl
    match b, hl with
    | u :: w :: x :: s, _ =>
      exact fin [0, 0, x] _ s rfl (spp_init x) rfl (by
          show Msg.sysSongPositionPointer.tryFrom .bytes [0xF2, 0] = .ok [0xF2, 0]
          decide +kernel)
        (by
          intro n f hf ha
          simp only [Msg.sysSongPositionPointer, List.mem_cons, Prod.mk.injEq,
            List.not_mem_nil, or_false] at hf
          have key : bytesRead .u14 ⟨0, 0x7F, 0x7F⟩ [0xF2, 0, U8.setSeptet x 0] = .ok 0 := by
            show Res.ok (u14FromU7s (U8.septet 0) (U8.septet (U8.setSeptet x 0))) = _
            rw [U8.septet_eq, U8.septet_eq, U8.setSeptet_eq, ext_ins_same _ _ _ (by omega)]
            rfl
          rcases hf with ⟨_, rfl⟩ | ⟨_, rfl⟩ | ⟨_, rfl⟩ | ⟨_, rfl⟩ <;>
            first | exact key | cases ha)
  · have hroom : d.room8 = d.minSize .bytes := if_neg hn
    obtain ⟨x, h1, _, h2, h3⟩ := C08_vec_bytes_partial hd hn b
    have h1 : initProps .bytes d.props (List.replicate (d.minSize .bytes) 0) = .ok x := by
      have := h1
      unfold MsgDesc.newVec vecResize at this
      simpa using this
    have hx : x.take (d.minSize .bytes) = x := by rw [← h2, List.take_length]
    obtain ⟨y, hy1, hy2⟩ := h3.valid
    rw [data_ok (by omega), hx] at hy1
    cases hy1
    exact fin (List.replicate (d.minSize .bytes) 0) x _ rfl h1 (by rw [hroom]; simp)
      (by rw [hx]; exact hy2) h3.defaults

example : ∃ x, Msg.sysSongPositionPointer.tryNewWithBuffer .bytes [9, 9, 9, 9] = .ok x ∧ x.length = 4 ∧
    Msg.sysSongPositionPointer.Fresh .bytes x ∧ x.drop 3 = [9] :=
  C08_fixed_bytes_partial (d := Msg.sysSongPositionPointer) (by decide +kernel) [9, 9, 9, 9] (by decide)

/-- C08: array `new()` and `try_new()` in byte form. -/
theorem C08_array_bytes {d : MsgDesc} (hd : d ∈ Msg.hybridAll) (size : Nat)
    (hl : d.room8 ≤ size) :
    ∃ x, d.newArray .bytes size = .ok x ∧ d.tryNew .bytes size = .ok x ∧ x.length = size ∧
      d.Fresh .bytes x := by
  have hmin : d.minSize .bytes ≤ d.room8 := by
    have : ∀ d ∈ Msg.hybridAll, d.minSize .bytes ≤ d.room8 := by decide +kernel
    exact this d hd
  obtain ⟨e1, e2⟩ := newArray_eq d .bytes size (Nat.le_trans hmin hl)
  obtain ⟨x, h1, h2, h3, _⟩ := C08_fixed_bytes_partial hd (List.replicate size 0)
    (by simpa using hl)
  exact ⟨x, by rw [e1, h1], by rw [e2, h1], by simpa using h2, h3⟩

example : ∃ x, Msg.cv1PitchBend.newArray .bytes 5 = .ok x ∧ Msg.cv1PitchBend.tryNew .bytes 5 = .ok x ∧
    x.length = 5 ∧ Msg.cv1PitchBend.Fresh .bytes x :=
  C08_array_bytes (d := Msg.cv1PitchBend) (by decide +kernel) 5 (by decide)

/-- C08 is violated by `SongPositionPointer` over `Vec<u8>` and by `FunctionBlockDiscovery`
over buffers of one to three words: the constructors panic. -/
theorem C08_constructor_panics :
    Msg.sysSongPositionPointer.newVec .bytes = .panic ∧
    Msg.streamFunctionBlockDiscovery.newVec .ump = .panic ∧
    Msg.streamFunctionBlockDiscovery.newArray .ump 1 = .panic ∧
    Msg.streamFunctionBlockDiscovery.newArray .ump 3 = .panic := by
  decide +kernel

/-- C08 is violated by stream messages placed in front of an older stream packet: the new
message is marked as the first packet of a longer sequence and `data()` is rejected. -/
theorem C08_dirty_buffer_violation :
    ∃ x, Msg.streamEndOfClip.tryNewWithBuffer .ump
      [1, 2, 3, 4, 0xF0210000, 0, 0, 0] = .ok x ∧
    ∃ y, Msg.streamEndOfClip.data .ump x = .ok y ∧
      Msg.streamEndOfClip.tryFrom .ump y = .err .invalidData :=
  ⟨[0xF4210000, 0, 0, 0, 0xFC210000, 0, 0, 0], by decide +kernel, _, rfl, by decide +kernel⟩

/-- Non-trivial instances of the hypotheses: dirty buffers. -/
example : ∃ x, Msg.cv2NoteOn.tryNewWithBuffer .ump [0xFFFFFFFF, 0xFFFFFFFF, 7] = .ok x ∧
    x.length = 3 ∧ Msg.cv2NoteOn.Fresh .ump x := by
  obtain ⟨x, h1, h2, h3, _⟩ := C08_fixed_ump_partial (d := Msg.cv2NoteOn)
    (by simp [Msg.all, Msg.cv2All]) [0xFFFFFFFF, 0xFFFFFFFF, 7] (by decide)
    (fun h => absurd h (by decide))
  exact ⟨x, h1, h2, h3⟩
example : ∃ x, Msg.streamFunctionBlockInfo.tryNewWithBuffer .ump
    [1, 2, 3, 4, 0x40000000, 6, 7, 8] = .ok x ∧ Msg.streamFunctionBlockInfo.Fresh .ump x := by
  obtain ⟨x, h1, _, h3, _⟩ := C08_fixed_ump_partial (d := Msg.streamFunctionBlockInfo)
    (by simp [Msg.all, Msg.streamAll]) [1, 2, 3, 4, 0x40000000, 6, 7, 8] (by decide)
    (fun _ _ => by decide)
  exact ⟨x, h1, h3⟩

/-! ## C14 -/

/-- C14: `rebuffer_into`, `try_rebuffer_into` an array and `array_rebuffer_into` of a
fixed-size message give a message with the same `data()`. -/
theorem C14_fixed_rebuffer (d : MsgDesc) (m : Fmt) (b : Buf m) (size : Nat)
    (hb : d.minSize m ≤ b.length) :
    (∃ x, d.rebufferFrom m b = .ok x ∧ d.data m x = d.data m b) ∧
    (b.length ≤ size → ∃ x, d.tryRebufferArray m size b = .ok x ∧ x.length = size ∧
      d.data m x = d.data m b) ∧
    (size < b.length → d.tryRebufferArray m size b = .err .bufferOverflow) ∧
    (d.minSize m ≤ size → ∃ x, d.arrayRebuffer m size b = .ok x ∧ x.length = size ∧
      d.data m x = d.data m b) := by
  refine ⟨⟨b, rfl, rfl⟩, ?_, ?_, ?_⟩
  · intro h
    refine ⟨_, if_neg (by omega), by simp; omega, ?_⟩
    rw [data_ok (by simp; omega), data_ok hb, List.take_append_of_le_length hb]
  · intro h; exact if_pos h
  · intro h
    have hl : (b.take (d.minSize m)).length = d.minSize m := by rw [List.length_take]; omega
    refine ⟨b.take (d.minSize m) ++ List.replicate (size - (b.take (d.minSize m)).length) 0,
      ?_, by rw [List.length_append, List.length_replicate, hl]; omega, ?_⟩
    · unfold MsgDesc.arrayRebuffer
      rw [if_neg (by omega), data_ok hb]
      show (if _ then _ else _) = _
      rw [if_pos (by omega)]; rfl
    · rw [take_data hl, data_ok hb]

/-- C14: the properties survive rebuffering as well (UMP form). -/
theorem C14_fixed_rebuffer_reads {d : MsgDesc} (hd : d ∈ Msg.all) (b x : Buf .ump) (size : Nat)
    (hb : d.umpSize ≤ b.length)
    (hx : d.tryRebufferArray .ump size b = .ok x ∨ d.arrayRebuffer .ump size b = .ok x)
    {n : String} {f : Fld} (hf : (n, f) ∈ d.props) : f.read .ump x = f.read .ump b := by
  have hfit := List.all_eq_true.mp table_ump_fits d hd
  have hl : (b.take d.umpSize).length = d.umpSize := by rw [List.length_take]; omega
  rcases hx with hx | hx
  · unfold MsgDesc.tryRebufferArray at hx
    split at hx
    · cases hx
    · cases hx
      exact Fld.read_append (MsgDesc.fits_mem hfit hf) hb _
  · unfold MsgDesc.arrayRebuffer at hx
    rw [data_ok (m := .ump) hb] at hx
    split at hx
    · cases hx
    · next hs =>
      have hs : ¬ size < d.umpSize := hs
      have hx : (if (b.take d.umpSize).length ≤ size then
        (pure (b.take d.umpSize ++ List.replicate (size - (b.take d.umpSize).length) 0) :
          Res (Buf .ump)) else .panic) = .ok x := hx
      rw [if_pos (by omega)] at hx
      cases hx
      rw [Fld.read_append (MsgDesc.fits_mem hfit hf) (Nat.le_of_eq hl.symm)]
      have := Fld.read_append (MsgDesc.fits_mem hfit hf) (Nat.le_of_eq hl.symm)
        (b.drop d.umpSize)
      rw [List.take_append_drop] at this
      exact this.symm

example : ∃ x, Msg.cv2NoteOn.tryRebufferArray .ump 5 [0x4A926003, 0x12345678, 9] = .ok x ∧
    x.length = 5 ∧ Msg.cv2NoteOn.data .ump x = .ok [0x4A926003, 0x12345678] :=
  (C14_fixed_rebuffer Msg.cv2NoteOn .ump [0x4A926003, 0x12345678, 9] 5 (by decide)).2.1 (by decide)

/-! ## C46 -/

/-- C46 (Vec): `resize(n)` yields exactly `n` units: the old ones as far as they go, zeros
afterwards. -/
theorem C46_vec_resize {w : Nat} (b : List (BitVec w)) (n : Nat) :
    (vecResize b n).length = n ∧
    ∀ i, i < n → (vecResize b n)[i]? = some (b[i]?.getD 0) := by
  have hl : (vecResize b n).length = n := by unfold vecResize; simp; omega
  refine ⟨hl, fun i hi => ?_⟩
  unfold vecResize
  by_cases h : i < b.length
  · rw [List.getElem?_append_left (by rw [List.length_take]; omega), List.getElem?_take_of_lt hi,
      List.getElem?_eq_getElem h]
    rfl
  · rw [List.getElem?_append_right (by rw [List.length_take]; omega),
      List.getElem?_replicate, if_pos (by rw [List.length_take]; omega),
      List.getElem?_eq_none (by omega)]
    rfl

example : vecResize [1, 2, (3 : BitVec 32)] 5 = [1, 2, 3, 0, 0] ∧
    vecResize [1, 2, (3 : BitVec 32)] 2 = [1, 2] := by decide

/-- C46 (arrays and mutable slices): `try_resize(n)` fails exactly when `n` exceeds the
length and never modifies the contents. -/
theorem C46_fixed_resize {w : Nat} (b : List (BitVec w)) (n : Nat) :
    (n ≤ b.length → fixedTryResize b n = .ok b) ∧
    (b.length < n → fixedTryResize b n = .err .bufferOverflow) :=
  ⟨fun h => if_neg (by omega), fun h => if_pos h⟩

example : (vecResize [1#8, 2, 3] 5) = [1, 2, 3, 0, 0] ∧ vecResize [1#8, 2, 3] 2 = [1, 2] := by
  decide

end Midi2
