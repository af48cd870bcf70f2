import Verif.Spec.Behind
import Verif.Spec.Effort

/-!
# C77: what setting a payload from an iterator with a wrong size hint does to the rest of an array
-/

namespace Midi2

/-- The number of bytes that setting a payload makes room for at most: the size hint, or the last of
the estimates that follow it when it is too low (C71), but no more than `room` bytes. -/
def Src.madeRoomFor {β : Type} (d : Src β) (room : Nat) : Nat :=
  let hint := d.upper.getD d.lower
  min room ((guesses d.items.length hint 0).getLastD hint)

/-- What making room for `r` bytes has made of the words of the array `b` from `used` on: every
packet that would be needed has the type, the group, the status and the size it would have in a
message of `r` bytes, and zeros behind its last byte; nothing else changes. -/
def RoomBehind (L : SysexLayout) (group r used : Nat) (b x : List (BitVec 32)) : Prop :=
  x.length = b.length ∧
  (∀ i, used ≤ i → L.words * (L.fill r).length ≤ i → x[i]? = b[i]?) ∧
  ∀ j size, used ≤ L.words * j → (L.fill r)[j]? = some size → ∀ o, o < 4 * L.words →
    octetVal x (4 * L.words * j + o) =
      if o = 0 then L.type * 16 + group
      else if o = 1 then statusCode (L.fill r).length j * 16 + (size + L.extra)
      else if o < L.first + size then octetVal b (4 * L.words * j + o)
      else 0

/-- What a payload that does not fit makes of the words of the array `b` behind the first packet: as
many whole packets as there is room for are full packets of one message of this group, with the
first bytes of the payload in them; nothing else changes. -/
def SpilledBehind (L : SysexLayout) (group : Nat) (items : List Nat) (b x : List (BitVec 32)) : Prop :=
  x.length = b.length ∧
  (∀ i, L.words * (b.length / L.words) ≤ i → x[i]? = b[i]?) ∧
  ∀ j, 0 < j → j < b.length / L.words →
    octetVal x (4 * L.words * j) = L.type * 16 + group ∧
    octetVal x (4 * L.words * j + 1) =
      statusCode (b.length / L.words) j * 16 + (L.capacity + L.extra) ∧
    (∀ o, 2 ≤ o → o < L.first → octetVal x (4 * L.words * j + o) = octetVal b (4 * L.words * j + o)) ∧
    ∀ i, i < L.capacity → items[L.capacity * j + i]? =
      some (octetVal x (4 * L.words * j + L.first + i) % L.values)

end Midi2
