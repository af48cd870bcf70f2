import Verif.Spec.Text

/-!
# C73: histories of text messages that begin anywhere

A message that somebody made or received, in a buffer that grows or in an array or slice, goes
through any number of calls.  A call that does not fit reports `BufferOverflow` and changes
nothing.
-/

namespace Midi2

namespace FlexText

/-- One call and what it reports (flex text.rs:42-61, flex_data.rs:1025-1029, 1138-1146;
generate_message.rs:188-199).  `try_set_text` returns before it writes if the buffer is too
small. -/
def Op.exec (fixed : Bool) (b : Buf .ump) : Op → Res (Buf .ump × Option Error)
  | .setText s =>
    if fixed then
      match trySetText b s with
      | .ok b' => .ok (b', none)
      | .err e => .ok (b, some e)
      | .panic => .panic
    else FlexText.setText b s >>= fun b' => .ok (b', none)
  | .setGroup g => .ok (FlexText.setGroup b g, none)
  | .setChannel c => FlexText.setChannel b c >>= fun b' => .ok (b', none)

/-- Calls one after the other. -/
def Op.execAll (fixed : Bool) : List Op → Buf .ump → Res (Buf .ump × List (Option Error))
  | [], b => .ok (b, [])
  | o :: os, b => o.exec fixed b >>= fun x =>
    Op.execAll fixed os x.1 >>= fun y => .ok (y.1, x.2 :: y.2)

/-- Whether a call has room in a buffer; `none` is a buffer that grows. -/
def Op.Fits (room : Option Nat) : Op → Bool
  | .setText s =>
    match room with
    | none => true
    | some n => decide (4 * textPackets 12 (utf8 s).length ≤ n)
  | _ => true

/-- What a call reports. -/
def Op.report (room : Option Nat) (o : Op) : Option Error :=
  if o.Fits room then none else some .bufferOverflow

/-- What `text()` gives for a text in a buffer of some packets: NUL characters are passed over,
and so is the last octet of the last packet. -/
def readBack (packets : Nat) (s : String) : Option String :=
  if (utf8 s).length = 12 * packets then withoutLastOctet s else some (withoutNul s)

end FlexText

namespace StreamText

/-- One call and what it reports (ump_stream.rs:225-249, function_block_name.rs:76-81;
generate_message.rs:188-199). -/
def Op.exec (t : StreamText) (fixed : Bool) (b : Buf .ump) : Op → Res (Buf .ump × Option Error)
  | .setText s =>
    if fixed then
      match t.trySetText b s with
      | .ok b' => .ok (b', none)
      | .err e => .ok (b, some e)
      | .panic => .panic
    else t.setText b s >>= fun b' => .ok (b', none)
  | .setBlock n => .ok (StreamText.setBlock b n, none)

/-- Calls one after the other. -/
def Op.execAll (t : StreamText) (fixed : Bool) :
    List Op → Buf .ump → Res (Buf .ump × List (Option Error))
  | [], b => .ok (b, [])
  | o :: os, b => o.exec t fixed b >>= fun x =>
    Op.execAll t fixed os x.1 >>= fun y => .ok (y.1, x.2 :: y.2)

/-- Whether a call has room in a buffer; `none` is a buffer that grows. -/
def Op.Fits (t : StreamText) (room : Option Nat) : Op → Bool
  | .setText s =>
    match room with
    | none => true
    | some n => decide (4 * textPackets t.capacity (utf8 s).length ≤ n)
  | _ => true

/-- What a call reports. -/
def Op.report (t : StreamText) (room : Option Nat) (o : Op) : Option Error :=
  if o.Fits t room then none else some .bufferOverflow

/-- The function block numbers in a buffer and the number of its whole packets. -/
structure Numbers where
  packets : Nat
  blocks : Nat → BitVec 8

/-- `set_function_block` reaches every packet of the buffer.  Setting the text keeps the numbers
of the packets that the text needs and puts 0 in all others; a buffer that grows has then just
these packets. -/
def Numbers.step (t : StreamText) (fixed : Bool) (st : Numbers) : Op → Numbers
  | .setText s =>
    ⟨if fixed then st.packets else textPackets t.capacity (utf8 s).length,
     fun j => if j < textPackets t.capacity (utf8 s).length then st.blocks j else 0⟩
  | .setBlock n => ⟨st.packets, fun j => if j < st.packets then n else st.blocks j⟩

/-- Of a buffer. -/
def numbersOf (b : List (BitVec 32)) : Numbers :=
  ⟨b.length / 4, fun j => BitVec.ofNat 8 (octetVal b (16 * j + 2))⟩

/-- The last text of some calls. -/
def lastText : List Op → Option String
  | [] => none
  | .setText s :: os => (lastText os).or (some s)
  | _ :: os => lastText os

end StreamText

end Midi2
