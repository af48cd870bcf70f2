import Verif.Model.Basic

/-!
# Splicing a sysex payload

Model of /repo/midi2/src/detail/helpers.rs:92-254 and of the provided methods of the
`Sysex` trait (/repo/midi2/src/traits.rs:526-662), over an arbitrary implementation of
`SysexInternal` (traits.rs:667-704).
-/

namespace Midi2

/-- Unsigned subtraction with the overflow check on: panics below zero.
E.g. helpers.rs:219-238, sysex8.rs:310. -/
def usub (a b : Nat) : Res Nat := if b ≤ a then .ok (a - b) else .panic

/-- The methods of `SysexInternal` plus `payload_size` (traits.rs:547, 667-704), as used
by the splice.  `resize` stands for the closure passed to the splice (helpers.rs:102,
128-131); it returns the mutated message and, for `Err(SysexTryResizeError(sz))`,
`some sz`. -/
structure SxOps (S β : Type) where
  compact : S → Res S
  payloadSize : S → Res Nat
  moveTail : S → Nat → Nat → Res S
  writeDatum : S → β → Nat → Res S
  resize : S → Nat → Res (S × Option Nat)

/-- The data iterator: the items it yields and what `size_hint` says before iteration.
Simplifications: the iterator is finite, and does not panic;
`size_hint` is only called once (helpers.rs:173), so its initial value is enough.
`Model/Lazy.lean` runs the same code on iterators that may panic or go on for ever, and C70 says
that it is this on iterators that end. -/
structure Src (β : Type) where
  items : List β
  lower : Nat
  upper : Option Nat

/-- `Bound<usize>`. (std) The bounds of the `range` of helpers.rs:161-170. -/
inductive Bound where
  | included (n : Nat)
  | excluded (n : Nat)
  | unbounded

/-- helpers.rs:161-165 -/
def Bound.spliceBegin : Bound → Nat
  | .included v => v
  | .excluded v => v + 1
  | .unbounded => 0

/-- helpers.rs:166-170 -/
def Bound.spliceEnd (initialSize : Nat) : Bound → Nat
  | .included v => v + 1
  | .excluded v => v
  | .unbounded => initialSize

/-- helpers.rs:173-177 -/
def Src.estimate {β : Type} (d : Src β) : Nat :=
  match d.upper with
  | some u => u
  | none => d.lower

/-- The inner loop, helpers.rs:198-208.  Returns the message, the remaining data, the
number of items written so far and whether the iterator ran out (`break 'main`). -/
def SxOps.fill {S β : Type} (ops : SxOps S β) (begin est : Nat) :
    List β → S → Nat → Res (S × List β × Nat × Bool)
  | [], s, w => .ok (s, [], w, decide (w < est))
  | v :: rest, s, w =>
    if w < est then do
      let s ← ops.writeDatum s v (begin + w)
      ops.fill begin est rest s (w + 1)
    else .ok (s, v :: rest, w, false)

/-- How the main loop ends: `break` with the message, the count written and the position
of the tail, or `return Err(BufferOverflow)`. helpers.rs:197-245. -/
inductive LoopEnd (S : Type) where
  | done (s : S) (written tail : Nat)
  | overflow (s : S)

/-- The growth before the loop, helpers.rs:182-192: the new message and estimate. -/
def SxOps.firstGrow {S β : Type} (ops : SxOps S β) (s : S) (end' initial spliceSize est : Nat) :
    Res (S × Nat) := do
  let grown ← usub (end' + est) spliceSize
  if end' < grown then
    let n ← usub (est + initial) spliceSize
    let r ← ops.resize s n
    match r with
    | (s, some sz) => do
      let kept ← usub initial spliceSize
      .ok (s, sz - kept)
    | (s, none) => .ok (s, est)
  else .ok (s, est)

/-- The growth inside the loop, helpers.rs:219-238: the new message, estimate and
destination of the tail. -/
def SxOps.growMore {S β : Type} (ops : SxOps S β) (s : S)
    (begin tail initial spliceSize est : Nat) : Res (S × Nat × Nat) :=
  if tail < begin + est then do
    let n ← usub (est + initial) spliceSize
    let r ← ops.resize s n
    match r with
    | (s, some sz) => do
      let kept ← usub initial spliceSize
      let to ← usub (begin + (sz - kept)) spliceSize
      .ok (s, sz - kept, to)
    | (s, none) => .ok (s, est, begin + est)
  else .ok (s, est, begin + est)

/-- The main loop, helpers.rs:197-245.  `fuel` bounds the number of turns; every turn
after the first consumes at least one item, so `items.length + 1` turns are enough (running
out of fuel is `panic`, which the theorems exclude). -/
def SxOps.mainLoop {S β : Type} (ops : SxOps S β) (begin initial spliceSize : Nat) :
    Nat → S → List β → Nat → Nat → Nat → Nat → Res (LoopEnd S)
  | 0, _, _, _, _, _, _ => .panic
  | fuel + 1, s, data, written, est, add, tail => do
    let (s, data, written, exhausted) ← ops.fill begin est data s written
    if exhausted then return .done s written tail
    Res.assert (written == est)
    if data.isEmpty then return .done s written tail
    let (s, est, to) ← ops.growMore s begin tail initial spliceSize (est + add)
    let s ← ops.moveTail s tail to
    let tail := begin + est
    if written ≥ est then return .overflow s
    ops.mainLoop begin initial spliceSize fuel s data written est (add * 2) tail

/-- `detail::try_splice_sysex_data` (helpers.rs:142-254).  The result is the mutated
message and `some bufferOverflow` for `Err(BufferOverflow)`. -/
def SxOps.trySpliceDetail {S β : Type} (ops : SxOps S β) (s : S) (d : Src β)
    (rb re : Bound) : Res (S × Option Error) := do
  let s ← ops.compact s
  let initial ← ops.payloadSize s
  let begin := rb.spliceBegin
  let end' := re.spliceEnd initial
  let spliceSize ← usub end' begin
  let est := d.estimate
  let (s, est) ← ops.firstGrow s end' initial spliceSize est
  let tail ← usub (end' + est) spliceSize
  let s ← ops.moveTail s end' tail
  match ← ops.mainLoop begin initial spliceSize (d.items.length + 1) s d.items 0 est 1 tail with
  | .overflow s => return (s, some .bufferOverflow)
  | .done s written tail => do
    let s ← ops.moveTail s tail (begin + written)
    let (s, r) ← ops.resize s (← usub (written + initial) spliceSize)
    return (s, r.map fun _ => .bufferOverflow)

/-- `try_splice_sysex_data` (helpers.rs:92-113): a failed splice empties the payload. -/
def SxOps.trySplice {S β : Type} (ops : SxOps S β) (s : S) (d : Src β) (rb re : Bound) :
    Res (S × Option Error) := do
  match ← ops.trySpliceDetail s d rb re with
  | (s, some e) => do
    let (s, r) ← ops.resize s 0
    return (s, match r with
      | some _ => some .bufferOverflow
      | none => some e)
  | (s, none) => return (s, none)

/-- `splice_sysex_data` (helpers.rs:115-135): resizable buffers. -/
def SxOps.splice {S β : Type} (ops : SxOps S β) (s : S) (d : Src β) (rb re : Bound) :
    Res S := do
  match ← ops.trySpliceDetail s d rb re with
  | (_, some _) => .panic
  | (s, none) => return s

/-- `insert_payload` (traits.rs:561-567): the range `index..index`. -/
def SxOps.insert {S β : Type} (ops : SxOps S β) (s : S) (d : Src β) (index : Nat) : Res S :=
  ops.splice s d (.included index) (.excluded index)

/-- `try_insert_payload` (traits.rs:578-588). -/
def SxOps.tryInsert {S β : Type} (ops : SxOps S β) (s : S) (d : Src β) (index : Nat) :
    Res (S × Option Error) :=
  ops.trySplice s d (.included index) (.excluded index)

/-- `append_payload` (traits.rs:592-598). -/
def SxOps.append {S β : Type} (ops : SxOps S β) (s : S) (d : Src β) : Res S := do
  ops.insert s d (← ops.payloadSize s)

/-- `try_append_payload` (traits.rs:606-615). -/
def SxOps.tryAppend {S β : Type} (ops : SxOps S β) (s : S) (d : Src β) :
    Res (S × Option Error) := do
  ops.tryInsert s d (← ops.payloadSize s)

/-- `append_byte` (traits.rs:640-645): `core::iter::once` has the exact size hint 1. -/
def SxOps.appendByte {S β : Type} (ops : SxOps S β) (s : S) (v : β) : Res S := do
  ops.insert s ⟨[v], 1, some 1⟩ (← ops.payloadSize s)

/-- `try_append_byte` (traits.rs:653-661). -/
def SxOps.tryAppendByte {S β : Type} (ops : SxOps S β) (s : S) (v : β) :
    Res (S × Option Error) := do
  ops.tryInsert s ⟨[v], 1, some 1⟩ (← ops.payloadSize s)

/-- `set_payload` (/repo/midi2/src/sysex7.rs:449-456, sysex8.rs:352-359). -/
def SxOps.setPayload {S β : Type} (ops : SxOps S β) (s : S) (d : Src β) : Res S := do
  let (s, r) ← ops.resize s 0
  match r with
  | some _ => .panic
  | none => ops.insert s d 0

/-- `try_set_payload` (sysex7.rs:458-468, sysex8.rs:360-370): the `?` converts
`SysexTryResizeError` to `BufferOverflow`. -/
def SxOps.trySetPayload {S β : Type} (ops : SxOps S β) (s : S) (d : Src β) :
    Res (S × Option Error) := do
  let (s, r) ← ops.resize s 0
  match r with
  | some _ => return (s, some .bufferOverflow)
  | none => ops.tryInsert s d 0

end Midi2
