import Verif.Model.CustomAny
import Verif.Props.ConstructExact

/-!
# C62: constructors over buffers whose `resize` does anything
-/

namespace Midi2


theorem zeroSlice_eq {w : Nat} (b : List (BitVec w)) (n : Nat) :
    zeroSlice b n = if n ≤ b.length then .ok (zeroPrefix b n) else .panic := by
  unfold zeroSlice sliceTo zeroPrefix
  split
  · rename_i h
    show Res.ok _ = _
    rw [List.map_const', List.length_take, Nat.min_eq_left h]
  · rfl

/-- The general form: any `resize`, any initialisation. -/
theorem newWithBufferAny_eq {w : Nat} (sz : Nat) (init : List (BitVec w) → Res (List (BitVec w)))
    (f : List (BitVec w) → Nat → List (BitVec w)) (b : List (BitVec w)) :
    newWithBufferAny sz init f b = if (f b sz).length < sz then .panic
      else (fixedTryResize (f b sz) sz >>= fun b => init (zeroPrefix b sz)) := by
  unfold newWithBufferAny fixedTryResize
  rw [zeroSlice_eq]
  by_cases h : sz ≤ (f b sz).length
  · rw [if_pos h, if_neg (by omega), if_neg (by omega)]; rfl
  · rw [if_neg h, if_pos (by omega)]; rfl

theorem tryNewWithBufferAny_eq {w : Nat} (sz : Nat) (init : List (BitVec w) → Res (List (BitVec w)))
    (f : List (BitVec w) → Nat → List (BitVec w) × Bool) (b : List (BitVec w)) :
    tryNewWithBufferAny sz init f b = if (f b sz).2 = false then .err .bufferOverflow
      else if (f b sz).1.length < sz then .panic
      else (fixedTryResize (f b sz).1 sz >>= fun b => init (zeroPrefix b sz)) := by
  unfold tryNewWithBufferAny fixedTryResize
  cases hf : (f b sz).2 with
  | false => simp [hf]
  | true =>
    simp only [hf, if_true, Bool.true_eq_false, if_false]
    rw [zeroSlice_eq]
    by_cases h : sz ≤ (f b sz).1.length
    · rw [if_pos h, if_neg (by omega), if_neg (by omega)]; rfl
    · rw [if_neg h, if_pos (by omega)]; rfl

/-- C62: whatever the `resize` of a buffer does, `new_with_buffer` panics if the buffer is then too
short for the smallest message, and otherwise makes the message that `try_new_with_buffer` makes in
an array with the contents of the buffer (C08). -/
theorem C62_new_any_buffer :
    (∀ (d : MsgDesc) (m : Fmt) (f : Buf m → Nat → Buf m) (b : Buf m), d.newWithBufferAny m f b =
      if (f b (d.minSize m)).length < d.minSize m then .panic
      else d.tryNewWithBuffer m (f b (d.minSize m))) ∧
    (∀ (k : Sx) (f : Buf .ump → Nat → Buf .ump) (b : Buf .ump), k.newWithBufferAny f b =
      if (f b k.stride).length < k.stride then .panic else k.tryNewWithBuffer (f b k.stride)) ∧
    (∀ (f : Buf .bytes → Nat → Buf .bytes) (b : Buf .bytes), Sxb.newWithBufferAny f b =
      if (f b 2).length < 2 then .panic else Sxb.tryNewWithBuffer (f b 2)) ∧
    (∀ (t : FlexText) (f : Buf .ump → Nat → Buf .ump) (b : Buf .ump), t.newWithBufferAny f b =
      if (f b 4).length < 4 then .panic else t.tryNewWithBuffer (f b 4)) ∧
    (∀ (t : StreamText) (f : Buf .ump → Nat → Buf .ump) (b : Buf .ump), t.newWithBufferAny f b =
      if (f b 4).length < 4 then .panic else t.tryNewWithBuffer (f b 4)) :=
  ⟨fun _ _ _ _ => newWithBufferAny_eq .., fun _ _ _ => newWithBufferAny_eq ..,
    fun _ _ => newWithBufferAny_eq .., fun _ _ _ => newWithBufferAny_eq ..,
    fun _ _ _ => newWithBufferAny_eq ..⟩

/-- C62: the same of `try_new_with_buffer`; it fails exactly if `try_resize` does. -/
theorem C62_try_new_any_buffer :
    (∀ (d : MsgDesc) (m : Fmt) (f : Buf m → Nat → Buf m × Bool) (b : Buf m),
      d.tryNewWithBufferAny m f b = if (f b (d.minSize m)).2 = false then .err .bufferOverflow
        else if (f b (d.minSize m)).1.length < d.minSize m then .panic
        else d.tryNewWithBuffer m (f b (d.minSize m)).1) ∧
    (∀ (k : Sx) (f : Buf .ump → Nat → Buf .ump × Bool) (b : Buf .ump),
      k.tryNewWithBufferAny f b = if (f b k.stride).2 = false then .err .bufferOverflow
        else if (f b k.stride).1.length < k.stride then .panic
        else k.tryNewWithBuffer (f b k.stride).1) ∧
    (∀ (f : Buf .bytes → Nat → Buf .bytes × Bool) (b : Buf .bytes),
      Sxb.tryNewWithBufferAny f b = if (f b 2).2 = false then .err .bufferOverflow
        else if (f b 2).1.length < 2 then .panic else Sxb.tryNewWithBuffer (f b 2).1) ∧
    (∀ (t : FlexText) (f : Buf .ump → Nat → Buf .ump × Bool) (b : Buf .ump),
      t.tryNewWithBufferAny f b = if (f b 4).2 = false then .err .bufferOverflow
        else if (f b 4).1.length < 4 then .panic else t.tryNewWithBuffer (f b 4).1) ∧
    (∀ (t : StreamText) (f : Buf .ump → Nat → Buf .ump × Bool) (b : Buf .ump),
      t.tryNewWithBufferAny f b = if (f b 4).2 = false then .err .bufferOverflow
        else if (f b 4).1.length < 4 then .panic else t.tryNewWithBuffer (f b 4).1) :=
  ⟨fun _ _ _ _ => tryNewWithBufferAny_eq .., fun _ _ _ => tryNewWithBufferAny_eq ..,
    fun _ _ => tryNewWithBufferAny_eq .., fun _ _ _ => tryNewWithBufferAny_eq ..,
    fun _ _ _ => tryNewWithBufferAny_eq ..⟩

/-- C62, spelled out for fixed-size messages: over any buffer at all, `new_with_buffer` either panics,
exactly if the resized buffer is too short, or gives a message in which every getter returns its
default. -/
theorem C62_fixed_any_buffer {d : MsgDesc} (hd : d ∈ Msg.all) (f : Buf .ump → Nat → Buf .ump)
    (b : Buf .ump) :
    ((f b d.umpSize).length < d.room → d.newWithBufferAny .ump f b = .panic) ∧
    (d.room ≤ (f b d.umpSize).length → ∃ x, d.newWithBufferAny .ump f b = .ok x ∧
      x.length = (f b d.umpSize).length ∧
      ∀ n g, (n, g) ∈ d.props → g.accessible .ump = true → g.read .ump x = .ok g.freshValue) := by
  have hmin : ∀ d ∈ Msg.all, d.umpSize ≤ d.room := by decide +kernel
  have hmin := hmin d hd
  obtain ⟨-, h2, h3⟩ := C08_fixed_ump_exactly hd (f b d.umpSize)
  have e := C62_new_any_buffer.1 d .ump f b
  rw [show d.minSize .ump = d.umpSize from rfl] at e
  refine ⟨fun h => ?_, fun h => ?_⟩
  · rw [e]
    split
    · rfl
    · exact h2 (by omega) h
  · rw [e, if_neg (by omega)]
    obtain ⟨x, a1, a2, a3, -⟩ := h3 h
    exact ⟨x, a1, a2, a3⟩

/-- `new()` does not look at the length: over a buffer that grows to one word less it makes a
`PerNoteManagement` of one word, whose `data()` panics and which the parser refuses. -/
theorem C62_new_short_violation :
    Msg.cv2PerNoteManagement.newOn .ump (fun _ n => List.replicate (n - 1) 0) [] = .ok [0x40F00000] ∧
    Msg.cv2PerNoteManagement.data .ump [0x40F00000] = .panic ∧
    Msg.cv2PerNoteManagement.tryFrom .ump [0x40F00000] = .err .invalidData ∧
    Msg.cv2PerNoteManagement.newWithBufferAny .ump (fun _ n => List.replicate (n - 1) 0) [] = .panic := by
  decide +kernel

-- A buffer that never grows, and one that gives a word too many.
example : Msg.cv2NoteOn.newWithBufferAny .ump (fun b _ => b) [7] = .panic ∧
    Msg.cv2NoteOn.newWithBufferAny .ump (fun b _ => b) [7, 8, 9] = .ok [0x40900000, 0, 9] ∧
    Msg.cv2NoteOn.tryNewWithBufferAny .ump (fun b _ => (b, true)) [7] = .panic ∧
    Msg.cv2NoteOn.tryNewWithBufferAny .ump (fun b _ => (b, false)) [7, 8] = .err .bufferOverflow ∧
    Sxb.newWithBufferAny (fun b _ => b.take 1) [1, 2, 3] = .panic := by decide +kernel

end Midi2
