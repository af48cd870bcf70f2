import Verif.Model.Splice
import Verif.Spec.SysexOps

/-!
# The work done by a splice

Users can write the buffer under a message, and the tail of a payload can be long, so how often
the buffer is resized and the tail is moved can be observed.  A message together with a record of
what was done to it: every operation of the message does what it does, and notes it.
-/

namespace Midi2

/-- What was done to a message so far: the payload sizes the buffer was resized for, from where to
where the tail was moved, and the number of bytes written.  Each resize of the message resizes its
buffer once (/repo/midi2/src/sysex7.rs:535, 543, 562, 574, 749, sysex8.rs:424, 437, 506). -/
structure Effort where
  resizes : List Nat := []
  moves : List (Nat × Nat) := []
  writes : Nat := 0
  deriving DecidableEq

/-- The operations of a message, with a record. -/
def SxOps.logged {S β : Type} (ops : SxOps S β) : SxOps (S × Effort) β where
  compact x := do return (← ops.compact x.1, x.2)
  payloadSize x := ops.payloadSize x.1
  moveTail x tail to := do
    return (← ops.moveTail x.1 tail to, { x.2 with moves := x.2.moves ++ [(tail, to)] })
  writeDatum x v i := do
    return (← ops.writeDatum x.1 v i, { x.2 with writes := x.2.writes + 1 })
  resize x n := do
    let (s, r) ← ops.resize x.1 n
    return ((s, { x.2 with resizes := x.2.resizes ++ [n] }), r)

/-- How often the estimate grows before it covers the items: it grows by 1, 2, 4, …, and not at
all if the size hint covers them. -/
def Src.growths {β : Type} (d : Src β) : Nat :=
  if d.items.length ≤ d.upper.getD d.lower then 0
  else (d.items.length - d.upper.getD d.lower).log2 + 1

/-- The estimates made when `est` items are not enough: each is larger than the one before by
`add + 1`, by twice that, and so on, until one covers the items. -/
def guesses (items est add : Nat) : List Nat :=
  if est < items then (est + (add + 1)) :: guesses items (est + (add + 1)) (2 * add + 1) else []
termination_by items - est

/-- From each place to the next. -/
def hops : Nat → List Nat → List (Nat × Nat)
  | _, [] => []
  | a, b :: l => (a, b) :: hops b l

/-- The whole work of putting `d` in place of the bytes `first..last` of a payload of `size` bytes
in a growable buffer.  The buffer is resized for what is kept and each estimate, though not for the
first one if it is no more than what is replaced, and at last for the new payload.  The tail follows
the estimates. -/
def Src.work {β : Type} (d : Src β) (size first last : Nat) : Effort :=
  let est := d.upper.getD d.lower
  let more := guesses d.items.length est 0
  let kept := size - (last - first)
  { resizes := (if last - first < est then [kept + est] else []) ++
      (more ++ [d.items.length]).map (kept + ·)
    moves := hops last (((est :: more) ++ [d.items.length]).map (first + ·))
    writes := d.items.length }

/-- The same for a buffer of fixed size that has room for `room` items beside the `kept` bytes.
`back` is the number of bytes replaced.  The work from the estimate `est` on, which the buffer has
room for, and whether the items fit.  An estimate with no room is refused, and all the room is taken
instead; the tail is then moved short of that by `back`.  If all the room was taken already, the
message is emptied. -/
def follow (room kept first back items est add : Nat) : Effort × Bool :=
  if items ≤ est then
    ({ resizes := [kept + items], moves := [(first + est, first + items)], writes := items }, true)
  else if est + (add + 1) ≤ room then
    let x := follow room kept first back items (est + (add + 1)) (2 * add + 1)
    ({ x.1 with resizes := (kept + (est + (add + 1))) :: x.1.resizes
                moves := (first + est, first + (est + (add + 1))) :: x.1.moves }, x.2)
  else if est < room then
    let x := follow room kept first back items room (2 * add + 1)
    ({ x.1 with resizes := (kept + (est + (add + 1))) :: x.1.resizes
                moves := (first + est, first + room - back) :: x.1.moves }, x.2)
  else
    ({ resizes := [kept + (est + (add + 1)), 0], moves := [(first + est, first + room - back)],
       writes := est }, false)
termination_by items - est

/-- The whole work of putting `d` in place of the bytes `first..last` of a payload of `size` bytes
in a buffer with room for `cap` bytes, and whether the items fit. -/
def Src.tryWork {β : Type} (d : Src β) (cap size first last : Nat) : Effort × Bool :=
  let est := d.upper.getD d.lower
  let back := last - first
  let kept := size - back
  let start := min est (cap - kept)
  let x := follow (cap - kept) kept first back d.items.length start 0
  ({ x.1 with resizes := (if back < est then [kept + est] else []) ++ x.1.resizes
              moves := (last, first + start) :: x.1.moves }, x.2)

end Midi2
