import Verif.Spec.Reassembly
import Verif.Model.Enums

/-!
# A router that moves packets to other groups

It looks at one packet at a time and sets its group with `set_group` of the packet.  It never puts a
message together.
-/

namespace Midi2.Rx

/-- `set_group(g)` of the message: that of the enums for messages of fixed size, of `Sysex7` and
`Sysex8`, and of flex data text.  Messages of the utility and stream types have no such method. -/
def withGroup (g : BitVec 4) : UmpKind × List (BitVec 32) → Res (UmpKind × List (BitVec 32))
  | (.fixed d, b) => do return asUmp (← FixedEnum.setGroup g (d, b))
  | (.sysex k, b) => .ok (.sysex k, k.setGroup b g)
  | (.flexText t, b) => .ok (.flexText t, FlexText.setGroup b g)
  | (.streamText _, _) => .panic

/-- Packets of the lane have a group: they are no utility and no stream packets. -/
def Grouped (l : Lane) : Prop := l.1 ≠ 0 ∧ l.1 ≠ 15 ∧ l.2.1 < 16

instance (l : Lane) : Decidable (Grouped l) := by unfold Grouped; infer_instance

/-- Where the packets of a lane go. -/
def moveLane (f : BitVec 4 → BitVec 4) (l : Lane) : Lane :=
  if Grouped l then (l.1, (f (BitVec.ofNat 4 l.2.1)).toNat, l.2.2) else l

/-- What the router puts out for a slice: the packet with its new group; nothing if the slice is no
packet. -/
def route (f : BitVec 4 → BitVec 4) (x : List (BitVec 32)) : Res (List (List (BitVec 32))) :=
  match Packet.tryFrom x with
  | .panic => .panic
  | .err _ => .ok []
  | .ok (.utility, p) => .ok [p]
  | .ok (.umpStream, p) => .ok [p]
  | .ok (_, p) => do return [← Packet.setGroup p (f (← Packet.group p))]

/-- The same for one slice after the other. -/
def routeAll (f : BitVec 4 → BitVec 4) : List (List (BitVec 32)) → Res (List (List (BitVec 32)))
  | [] => .ok []
  | x :: s => do
    let ys ← route f x
    let zs ← routeAll f s
    return ys ++ zs

/-- A message of the lane with `set_group` called on it, if it has a group. -/
def move (f : BitVec 4 → BitVec 4) (l : Lane) (m : UmpKind × List (BitVec 32)) :
    Res (UmpKind × List (BitVec 32)) :=
  if Grouped l then withGroup (f (BitVec.ofNat 4 l.2.1)) m else .ok m

/-- The same for one message after the other. -/
def moveAll (f : BitVec 4 → BitVec 4) (l : Lane) : List (UmpKind × List (BitVec 32)) →
    Res (List (UmpKind × List (BitVec 32)))
  | [] => .ok []
  | m :: ms => do
    let m' ← move f l m
    let ms' ← moveAll f l ms
    return m' :: ms'

end Midi2.Rx
