import Verif.Model.SysexBytes
import Verif.Model.Text
import Verif.Model.Ci

/-!
# Messages over buffers written by the user

/repo/midi2/src/buffer.rs:1-106 invites users to implement the buffer traits
(buffer.rs:128-168) for their own types.  What `resize` does to the contents is a parameter
here (`f`).  The methods of `Sysex` over such buffers are `SxOps` with `Sx.Mem.grow` and
`Sx.Mem.tryGrow`.  Not modelled: `buffer()` and `buffer_mut()` that return different slices.
-/

namespace Midi2

/-- `new()` (/repo/midi2_proc/src/generate_message.rs:470-495), with the contents of the
default constructed buffer (buffer.rs:145-147). -/
def MsgDesc.newOn (d : MsgDesc) (m : Fmt) (f : Buf m → Nat → Buf m) (default : Buf m) :
    Res (Buf m) :=
  initProps m d.props (f default (d.minSize m))

/-- `new_with_buffer(buffer)` (generate_message.rs:497-525). -/
def MsgDesc.newWithBufferOn (d : MsgDesc) (m : Fmt) (f : Buf m → Nat → Buf m) (b : Buf m) :
    Res (Buf m) :=
  initProps m d.props (zeroPrefix (f b (d.minSize m)) (d.minSize m))

/-- `new_with_buffer(buffer)` (generate_message.rs:497-525). -/
def Sx.newWithBufferOn (k : Sx) (f : Buf .ump → Nat → Buf .ump) (b : Buf .ump) : Res (Buf .ump) :=
  k.init (zeroPrefix (f b k.stride) k.stride)

/-- `new_with_buffer(buffer)` (generate_message.rs:497-525). -/
def Sxb.newWithBufferOn (f : Buf .bytes → Nat → Buf .bytes) (b : Buf .bytes) : Res (Buf .bytes) :=
  init (zeroPrefix (f b 2) 2)

/-- `new_with_buffer(buffer)` (generate_message.rs:497-525). -/
def FlexText.newWithBufferOn (t : FlexText) (f : Buf .ump → Nat → Buf .ump) (b : Buf .ump) :
    Res (Buf .ump) :=
  t.init (zeroPrefix (f b 4) 4)

/-- `new_with_buffer(buffer)` (generate_message.rs:497-525). -/
def StreamText.newWithBufferOn (t : StreamText) (f : Buf .ump → Nat → Buf .ump) (b : Buf .ump) :
    Res (Buf .ump) :=
  t.init (zeroPrefix (f b 4) 4)

/-- `set_text` (/repo/midi2/src/flex_data/text.rs:42-50, generate_message.rs:185-188). -/
def FlexText.setTextOn (f : Buf .ump → Nat → Buf .ump) (b : Buf .ump) (s : String) :
    Res (Buf .ump) := do
  let size := sizeForStr (strBytes s).length
  let b := f b size
  let b ← growBuffer (clearPayload b) size
  writeText b (strBytes s)

/-- `try_set_text` (text.rs:52-61, generate_message.rs:191-196): the buffer afterwards and
the error. -/
def FlexText.trySetTextOn (f : Buf .ump → Nat → Buf .ump × Bool) (b : Buf .ump) (s : String) :
    Res (Buf .ump × Option Error) := do
  let size := sizeForStr (strBytes s).length
  let (b, fits) := f b size
  if fits then
    let b ← growBuffer (clearPayload b) size
    return (← writeText b (strBytes s), none)
  else return (b, some .bufferOverflow)

/-- `set_name` / `set_id` (/repo/midi2/src/ump_stream.rs:225-235, generate_message.rs:185-188). -/
def StreamText.setTextOn (t : StreamText) (f : Buf .ump → Nat → Buf .ump) (b : Buf .ump)
    (s : String) : Res (Buf .ump) := do
  let size := sizeForStr t.offset (strBytes s).length
  let b := f b size
  let b ← clearPayload t.offset b
  let b ← writeHeader b size
  let b ← setFormatFields b
  writeText t.offset b (strBytes s)

/-- `try_set_name` / `try_set_id` (ump_stream.rs:237-249, generate_message.rs:191-196): the
buffer afterwards and the error. -/
def StreamText.trySetTextOn (t : StreamText) (f : Buf .ump → Nat → Buf .ump × Bool) (b : Buf .ump)
    (s : String) : Res (Buf .ump × Option Error) := do
  let size := sizeForStr t.offset (strBytes s).length
  let (b, fits) := f b size
  if fits then
    let b ← clearPayload t.offset b
    let b ← writeHeader b size
    let b ← setFormatFields b
    return (← writeText t.offset b (strBytes s), none)
  else return (b, some .bufferOverflow)

/-- `try_new_with_buffer(buffer)` (generate_message.rs:527-555). -/
def MsgDesc.tryNewWithBufferOn (d : MsgDesc) (m : Fmt) (f : Buf m → Nat → Buf m × Bool) (b : Buf m) :
    Res (Buf m) :=
  let (b, fits) := f b (d.minSize m)
  if fits then initProps m d.props (zeroPrefix b (d.minSize m)) else .err .bufferOverflow

/-- `try_new_with_buffer(buffer)` (generate_message.rs:527-555). -/
def Sx.tryNewWithBufferOn (k : Sx) (f : Buf .ump → Nat → Buf .ump × Bool) (b : Buf .ump) :
    Res (Buf .ump) :=
  let (b, fits) := f b k.stride
  if fits then k.init (zeroPrefix b k.stride) else .err .bufferOverflow

/-- `try_new_with_buffer(buffer)` (generate_message.rs:527-555). -/
def Sxb.tryNewWithBufferOn (f : Buf .bytes → Nat → Buf .bytes × Bool) (b : Buf .bytes) :
    Res (Buf .bytes) :=
  let (b, fits) := f b 2
  if fits then init (zeroPrefix b 2) else .err .bufferOverflow

/-- `try_new_with_buffer(buffer)` (generate_message.rs:527-555). -/
def FlexText.tryNewWithBufferOn (t : FlexText) (f : Buf .ump → Nat → Buf .ump × Bool)
    (b : Buf .ump) : Res (Buf .ump) :=
  let (b, fits) := f b 4
  if fits then t.init (zeroPrefix b 4) else .err .bufferOverflow

/-- `try_new_with_buffer(buffer)` (generate_message.rs:527-555). -/
def StreamText.tryNewWithBufferOn (t : StreamText) (f : Buf .ump → Nat → Buf .ump × Bool)
    (b : Buf .ump) : Res (Buf .ump) :=
  let (b, fits) := f b 4
  if fits then t.init (zeroPrefix b 4) else .err .bufferOverflow

/-- `new()` (generate_message.rs:470-495), with the contents of the default constructed buffer. -/
def Sxb.newOn (f : Buf .bytes → Nat → Buf .bytes) (default : Buf .bytes) : Res (Buf .bytes) :=
  init (f default 2)

/-- `try_new()` (generate_message.rs:592-617), with the contents of the default constructed buffer. -/
def Sxb.tryNewOn (f : Buf .bytes → Nat → Buf .bytes × Bool) (default : Buf .bytes) : Res (Buf .bytes) :=
  let (b, fits) := f default 2
  if fits then init b else .err .bufferOverflow

/-- The tail of `DiscoveryQuery::new` and `new_with_buffer` (generate_ci.rs:316-325, 343-352):
the payload is resized, the version written, the properties are initialised. -/
def Ci.finishOn (f : Buf .bytes → Nat → Buf .bytes) (v : BitVec 8) (b : Buf .bytes) :
    Res (Buf .bytes) := do
  let b ← Sxb.resizeGrow f b (minSize v - 2)
  let b ← writeVersion v b
  init v b

/-- `DiscoveryQuery::new()` (generate_ci.rs:303-329). -/
def Ci.newOn (f : Buf .bytes → Nat → Buf .bytes) (v : BitVec 8) (default : Buf .bytes) :
    Res (Buf .bytes) := do finishOn f v (← Sxb.newOn f default)

/-- `DiscoveryQuery::new_with_buffer(buffer)` (generate_ci.rs:331-356). -/
def Ci.newWithBufferOn (f : Buf .bytes → Nat → Buf .bytes) (v : BitVec 8) (b : Buf .bytes) :
    Res (Buf .bytes) := do finishOn f v (← Sxb.newWithBufferOn f b)

/-- The tail of `DiscoveryQuery::try_new` and `try_new_with_buffer` (generate_ci.rs:371-378,
396-403). -/
def Ci.tryFinishOn (f : Buf .bytes → Nat → Buf .bytes × Bool) (v : BitVec 8) (b : Buf .bytes) :
    Res (Buf .bytes) := do
  let (b, e) ← Sxb.tryResizeGrow f b (minSize v - 2)
  match e with
  | some _ => .err .bufferOverflow
  | none => do
    let b ← modifyAt b 5 fun _ => v
    init v b

/-- `DiscoveryQuery::try_new()` (generate_ci.rs:358-382). -/
def Ci.tryNewOn (f : Buf .bytes → Nat → Buf .bytes × Bool) (v : BitVec 8) (default : Buf .bytes) :
    Res (Buf .bytes) := do tryFinishOn f v (← Sxb.tryNewOn f default)

/-- `DiscoveryQuery::try_new_with_buffer(buffer)` (generate_ci.rs:384-407). -/
def Ci.tryNewWithBufferOn (f : Buf .bytes → Nat → Buf .bytes × Bool) (v : BitVec 8) (b : Buf .bytes) :
    Res (Buf .bytes) := do tryFinishOn f v (← Sxb.tryNewWithBufferOn f b)

end Midi2
