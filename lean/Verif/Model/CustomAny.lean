import Verif.Model.Custom

/-!
# Constructors over any user-written buffer

`Model/Custom.lean` takes for granted that a buffer has the length that was asked for.  Here
`resize` and `try_resize` are any functions, and slicing a buffer that is too short panics.
-/

namespace Midi2

/-- `for b in &mut buffer[..sz] { *b = zero }` (generate_message.rs:516-518, 546-548): slicing panics
if the buffer is shorter. -/
def zeroSlice {w : Nat} (b : List (BitVec w)) (n : Nat) : Res (List (BitVec w)) := do
  let front ← sliceTo b n
  return front.map (fun _ => 0) ++ b.drop n

/-- `new_with_buffer(buffer)` (generate_message.rs:497-525). -/
def newWithBufferAny {w : Nat} (sz : Nat) (init : List (BitVec w) → Res (List (BitVec w)))
    (f : List (BitVec w) → Nat → List (BitVec w)) (b : List (BitVec w)) : Res (List (BitVec w)) := do
  init (← zeroSlice (f b sz) sz)

/-- `try_new_with_buffer(buffer)` (generate_message.rs:527-555). -/
def tryNewWithBufferAny {w : Nat} (sz : Nat) (init : List (BitVec w) → Res (List (BitVec w)))
    (f : List (BitVec w) → Nat → List (BitVec w) × Bool) (b : List (BitVec w)) :
    Res (List (BitVec w)) := do
  let (b, fits) := f b sz
  if fits then init (← zeroSlice b sz) else .err .bufferOverflow

/-- `new_with_buffer` of a fixed-size message (generate_message.rs:497-525). -/
def MsgDesc.newWithBufferAny (d : MsgDesc) (m : Fmt) (f : Buf m → Nat → Buf m) (b : Buf m) :
    Res (Buf m) := Midi2.newWithBufferAny (d.minSize m) (initProps m d.props) f b

/-- `try_new_with_buffer` of a fixed-size message (generate_message.rs:527-555). -/
def MsgDesc.tryNewWithBufferAny (d : MsgDesc) (m : Fmt) (f : Buf m → Nat → Buf m × Bool) (b : Buf m) :
    Res (Buf m) := Midi2.tryNewWithBufferAny (d.minSize m) (initProps m d.props) f b

/-- `new_with_buffer` of system exclusive messages (generate_message.rs:497-525). -/
def Sx.newWithBufferAny (k : Sx) (f : Buf .ump → Nat → Buf .ump) (b : Buf .ump) : Res (Buf .ump) :=
  Midi2.newWithBufferAny k.stride k.init f b

/-- `try_new_with_buffer` of system exclusive messages (generate_message.rs:527-555). -/
def Sx.tryNewWithBufferAny (k : Sx) (f : Buf .ump → Nat → Buf .ump × Bool) (b : Buf .ump) :
    Res (Buf .ump) := Midi2.tryNewWithBufferAny k.stride k.init f b

/-- `new_with_buffer` of `Sysex7` over bytes (generate_message.rs:497-525). -/
def Sxb.newWithBufferAny (f : Buf .bytes → Nat → Buf .bytes) (b : Buf .bytes) : Res (Buf .bytes) :=
  Midi2.newWithBufferAny 2 Sxb.init f b

/-- `try_new_with_buffer` of `Sysex7` over bytes (generate_message.rs:527-555). -/
def Sxb.tryNewWithBufferAny (f : Buf .bytes → Nat → Buf .bytes × Bool) (b : Buf .bytes) :
    Res (Buf .bytes) := Midi2.tryNewWithBufferAny 2 Sxb.init f b

/-- `new_with_buffer` of flex data texts (generate_message.rs:497-525). -/
def FlexText.newWithBufferAny (t : FlexText) (f : Buf .ump → Nat → Buf .ump) (b : Buf .ump) :
    Res (Buf .ump) := Midi2.newWithBufferAny 4 t.init f b

/-- `try_new_with_buffer` of flex data texts (generate_message.rs:527-555). -/
def FlexText.tryNewWithBufferAny (t : FlexText) (f : Buf .ump → Nat → Buf .ump × Bool) (b : Buf .ump) :
    Res (Buf .ump) := Midi2.tryNewWithBufferAny 4 t.init f b

/-- `new_with_buffer` of stream texts (generate_message.rs:497-525). -/
def StreamText.newWithBufferAny (t : StreamText) (f : Buf .ump → Nat → Buf .ump) (b : Buf .ump) :
    Res (Buf .ump) := Midi2.newWithBufferAny 4 t.init f b

/-- `try_new_with_buffer` of stream texts (generate_message.rs:527-555). -/
def StreamText.tryNewWithBufferAny (t : StreamText) (f : Buf .ump → Nat → Buf .ump × Bool)
    (b : Buf .ump) : Res (Buf .ump) := Midi2.tryNewWithBufferAny 4 t.init f b

/-- `new()` of system exclusive messages (generate_message.rs:470-495), with the contents of the default
constructed buffer: nothing is cleared. -/
def Sx.newOn (k : Sx) (f : Buf .ump → Nat → Buf .ump) (default : Buf .ump) : Res (Buf .ump) :=
  k.init (f default k.stride)

/-- `new()` of flex data text messages (generate_message.rs:470-495). -/
def FlexText.newOn (t : FlexText) (f : Buf .ump → Nat → Buf .ump) (default : Buf .ump) :
    Res (Buf .ump) := t.init (f default 4)

/-- `new()` of stream text messages (generate_message.rs:470-495). -/
def StreamText.newOn (t : StreamText) (f : Buf .ump → Nat → Buf .ump) (default : Buf .ump) :
    Res (Buf .ump) := t.init (f default 4)

end Midi2
