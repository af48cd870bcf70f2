import Verif.Spec.Effort

/-!
# What a splice leaves when an iterator yields more than it says

On a buffer of fixed size the estimates of C71 can be more than there is room for.  Then the rest
of the payload is put at the wrong place.
-/

namespace Midi2

/-- The last estimate there is room for. -/
def granted (room : Nat) : Nat → List Nat → Nat
  | est, [] => est
  | est, n :: l => if n ≤ room then granted room n l else est

/-- The bytes from `tail` on copied to `to`, in a list that does not change its length. -/
def shifted {β : Type} (l : List β) (tail to : Nat) : List β :=
  (l.take to ++ l.drop tail ++ l.drop (to + (l.length - tail))).take l.length

/-- What replaces the bytes `first..last` of the payload `l`, and what follows it, if there is room
for `room` items but not for every estimate: the items up to the last estimate there is room for are
written, the rest of the payload and the `junk` behind it are copied to where only `room` less the
bytes that are replaced would have been in front of them, the other items are written, and what lies
behind `room` items is taken for the rest of the payload. -/
def Src.misplaced {β : Type} (d : Src β) (l : List β) (first last room : Nat) (junk : List β) :
    List β :=
  let hint := d.upper.getD d.lower
  let est := granted room hint (guesses d.items.length hint 0)
  let s := shifted (l.take first ++ d.items.take est ++ l.drop last ++ junk) (first + est)
    (first + room - (last - first))
  s.take (first + est) ++ d.items.drop est ++ s.drop (first + room)

end Midi2
