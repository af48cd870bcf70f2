import Verif.Model.Splice

/-!
# Splicing data from the caller's iterator, call by call

`Verif/Model/Splice.lean` takes the data of a splice as a finite list.  The code takes it from
an iterator the caller wrote, one call of `next` at a time.  Such an iterator may panic, never
end, or go on after saying `None`.  Here is the same code
(/repo/midi2/src/detail/helpers.rs:92-254) with every call of the iterator in its place.

When the iterator panics, the unwinding leaves the message as it was at that moment.  The caller
sees that message again with `catch_unwind`, or in a destructor.  So a panic of the iterator
comes with the message it leaves behind.

Simplification: the iterator cannot see the message, which is mutably borrowed, so its answers
depend only on how often it was called.
-/

namespace Midi2

/-- What one call of the iterator's `next` does: it returns `Some(v)`, returns `None`, or
panics. The iterator is the argument `data` of helpers.rs:142-254. -/
inductive Poll (β : Type) where
  | item (v : β)
  | none
  | panic

/-- The caller's iterator: what `size_hint` returns, or nothing if it panics, and what the call
number `n` of `next` does, counted from zero.
The iterator is the argument `data` of helpers.rs:142-254; `size_hint` is called at
helpers.rs:173-177. -/
structure Feed (β : Type) where
  hint : Option (Nat × Option Nat)
  poll : Nat → Poll β

/-- The outcome of code that calls the iterator.
* `ok`: a value.
* `err`: never produced by the splice itself; what `Res.err` becomes.
* `panic`: a panic of the library.
* `crashed s calls`: the iterator panicked, in the call of `next` number `calls` counted from
  one, or in `size_hint` if `calls` is zero; the message is left as `s`.
* `running`: the bound on the number of turns is used up.
For the functions of helpers.rs:92-254. -/
inductive Run (S α : Type) where
  | ok (a : α)
  | err (e : Error)
  | panic
  | crashed (s : S) (calls : Nat)
  | running
  deriving DecidableEq

namespace Run

/-- Run one computation after another.
As the statements of helpers.rs:142-254 follow each other. -/
def bind {S α γ : Type} : Run S α → (α → Run S γ) → Run S γ
  | .ok a, f => f a
  | .err e, _ => .err e
  | .panic, _ => .panic
  | .crashed s c, _ => .crashed s c
  | .running, _ => .running

/-- Sequencing as `do` notation, for the statements of helpers.rs:142-254. -/
instance {S : Type} : Monad (Run S) where
  pure := .ok
  bind := bind

/-- Code that does not call the iterator. E.g. helpers.rs:182-192 and helpers.rs:249-251. -/
def of {S α : Type} : Res α → Run S α
  | .ok a => .ok a
  | .err e => .err e
  | .panic => .panic

end Run

/-- The state of `Peekable`: how often the iterator's `next` was called, and the value peeked at
but not yet taken. (std; made at helpers.rs:142-254 from the argument `data`). -/
structure Peek (β : Type) where
  calls : Nat
  peeked : Option (Option β)

/-- `Peekable::next`: the value peeked at, or else a call of the iterator.
(std; helpers.rs:198-208.) -/
def Feed.next {β : Type} (f : Feed β) (p : Peek β) : Poll β × Peek β :=
  match p.peeked with
  | some (some v) => (.item v, ⟨p.calls, none⟩)
  | some none => (.none, ⟨p.calls, none⟩)
  | none => (f.poll p.calls, ⟨p.calls + 1, none⟩)

/-- `Peekable::peek`: calls the iterator unless there is a value already peeked at, and keeps
what it returned. (std; helpers.rs:197-245.) -/
def Feed.peek {β : Type} (f : Feed β) (p : Peek β) : Poll β × Peek β :=
  match p.peeked with
  | some (some v) => (.item v, p)
  | some none => (.none, p)
  | none =>
    match f.poll p.calls with
    | .item v => (.item v, ⟨p.calls + 1, some (some v)⟩)
    | .none => (.none, ⟨p.calls + 1, some none⟩)
    | .panic => (.panic, ⟨p.calls + 1, none⟩)

variable {S β : Type}

/-- The inner loop, helpers.rs:198-208, with `n` items still to be written to reach the
estimate.  Returns the message, the iterator, the number of items written so far and whether the
iterator said `None` (`break 'main`). -/
def SxOps.feedFill (ops : SxOps S β) (f : Feed β) (begin : Nat) :
    Nat → S → Nat → Peek β → Run S (S × Peek β × Nat × Bool)
  | 0, s, w, p => .ok (s, p, w, false)
  | n + 1, s, w, p =>
    match f.next p with
    | (.item v, p) => do
      let s ← Run.of (ops.writeDatum s v (begin + w))
      ops.feedFill f begin n s (w + 1) p
    | (.none, p) => .ok (s, p, w, true)
    | (.panic, p) => .crashed s p.calls

/-- The main loop, helpers.rs:197-245, cut off after `turns` turns.  Returns how it ended and how
often the iterator's `next` was called. -/
def SxOps.feedLoop (ops : SxOps S β) (f : Feed β) (begin initial spliceSize : Nat) :
    Nat → S → Peek β → Nat → Nat → Nat → Nat → Run S (LoopEnd S × Nat)
  | 0, _, _, _, _, _, _ => .running
  | turns + 1, s, p, written, est, add, tail => do
    let (s, p, written, exhausted) ← ops.feedFill f begin (est - written) s written p
    if exhausted then return (.done s written tail, p.calls)
    Run.of (Res.assert (written == est))
    match f.peek p with
    | (.none, p) => return (.done s written tail, p.calls)
    | (.panic, p) => .crashed s p.calls
    | (.item _, p) => do
      let (s, est, to) ← Run.of (ops.growMore s begin tail initial spliceSize (est + add))
      let s ← Run.of (ops.moveTail s tail to)
      let tail := begin + est
      if written ≥ est then return (.overflow s, p.calls)
      ops.feedLoop f begin initial spliceSize turns s p written est (add * 2) tail

/-- helpers.rs:173-177: the estimate taken from `size_hint`. -/
def hintEstimate (h : Nat × Option Nat) : Nat :=
  match h with
  | (_, some upper) => upper
  | (lower, none) => lower

/-- `detail::try_splice_sysex_data` (helpers.rs:142-254).  Returns the mutated message,
`some bufferOverflow` for `Err(BufferOverflow)`, and how often `next` was called. -/
def SxOps.feedDetail (ops : SxOps S β) (turns : Nat) (s : S) (f : Feed β) (rb re : Bound) :
    Run S (S × Option Error × Nat) := do
  let s ← Run.of (ops.compact s)
  let initial ← Run.of (ops.payloadSize s)
  let begin := rb.spliceBegin
  let end' := re.spliceEnd initial
  let spliceSize ← Run.of (usub end' begin)
  match f.hint with
  | none => .crashed s 0
  | some h => do
    let (s, est) ← Run.of (ops.firstGrow s end' initial spliceSize (hintEstimate h))
    let tail ← Run.of (usub (end' + est) spliceSize)
    let s ← Run.of (ops.moveTail s end' tail)
    let (e, calls) ← ops.feedLoop f begin initial spliceSize turns s ⟨0, none⟩ 0 est 1 tail
    match e with
    | .overflow s => return (s, some .bufferOverflow, calls)
    | .done s written tail => do
      let s ← Run.of (ops.moveTail s tail (begin + written))
      let n ← Run.of (usub (written + initial) spliceSize)
      let (s, r) ← Run.of (ops.resize s n)
      return (s, r.map fun _ => .bufferOverflow, calls)

/-- `try_splice_sysex_data` (helpers.rs:92-113): a failed splice empties the payload; a panic of
the iterator goes past that. -/
def SxOps.feedTrySplice (ops : SxOps S β) (turns : Nat) (s : S) (f : Feed β) (rb re : Bound) :
    Run S (S × Option Error × Nat) := do
  let (s, r, calls) ← ops.feedDetail turns s f rb re
  match r with
  | some e => do
    let (s, r) ← Run.of (ops.resize s 0)
    return (s, (match r with
      | some _ => some .bufferOverflow
      | none => some e), calls)
  | none => return (s, none, calls)

/-- `splice_sysex_data` (helpers.rs:115-135): resizable buffers. -/
def SxOps.feedSplice (ops : SxOps S β) (turns : Nat) (s : S) (f : Feed β) (rb re : Bound) :
    Run S (S × Nat) := do
  let (s, r, calls) ← ops.feedDetail turns s f rb re
  match r with
  | some _ => .panic
  | none => return (s, calls)

/-- `insert_payload` (/repo/midi2/src/traits.rs:561-567). -/
def SxOps.feedInsert (ops : SxOps S β) (turns : Nat) (s : S) (f : Feed β) (index : Nat) :
    Run S (S × Nat) :=
  ops.feedSplice turns s f (.included index) (.excluded index)

/-- `try_insert_payload` (traits.rs:578-588). -/
def SxOps.feedTryInsert (ops : SxOps S β) (turns : Nat) (s : S) (f : Feed β) (index : Nat) :
    Run S (S × Option Error × Nat) :=
  ops.feedTrySplice turns s f (.included index) (.excluded index)

/-- `append_payload` (traits.rs:592-598). -/
def SxOps.feedAppend (ops : SxOps S β) (turns : Nat) (s : S) (f : Feed β) : Run S (S × Nat) := do
  let n ← Run.of (ops.payloadSize s)
  ops.feedInsert turns s f n

/-- `try_append_payload` (traits.rs:606-615). -/
def SxOps.feedTryAppend (ops : SxOps S β) (turns : Nat) (s : S) (f : Feed β) :
    Run S (S × Option Error × Nat) := do
  let n ← Run.of (ops.payloadSize s)
  ops.feedTryInsert turns s f n

/-- `set_payload` (/repo/midi2/src/sysex7.rs:449-456, sysex8.rs:352-359). -/
def SxOps.feedSetPayload (ops : SxOps S β) (turns : Nat) (s : S) (f : Feed β) :
    Run S (S × Nat) := do
  let (s, r) ← Run.of (ops.resize s 0)
  match r with
  | some _ => .panic
  | none => ops.feedInsert turns s f 0

/-- `try_set_payload` (sysex7.rs:458-468, sysex8.rs:360-370). -/
def SxOps.feedTrySetPayload (ops : SxOps S β) (turns : Nat) (s : S) (f : Feed β) :
    Run S (S × Option Error × Nat) := do
  let (s, r) ← Run.of (ops.resize s 0)
  match r with
  | some _ => return (s, some .bufferOverflow, 0)
  | none => ops.feedTryInsert turns s f 0

end Midi2
