import Verif.Spec.Pieces
import Verif.Spec.Reassembly

/-!
# C81: packets the library does not know

The standard gives every message type a number of words, those it has not defined yet included.  So
a reader can go on behind a packet that `Packet::try_from` refuses.
-/

namespace Midi2

/-- The words of one packet by the standard's table, whatever is in them. -/
def Frame (x : List (BitVec 32)) : Prop :=
  ∃ w t, x = w :: t ∧ x.length = standardWords (field w 0 4)

/-- A stream is these packets, and the beginning of another that has not arrived. -/
structure FramesOf (b : List (BitVec 32)) (xs : List (List (BitVec 32))) (rest : List (BitVec 32)) :
    Prop where
  words : b = xs.flatten ++ rest
  frames : ∀ x ∈ xs, Frame x
  stop : ∀ x, Frame x → ¬ x <+: rest

/-- Of these packets those that are packets to the library, and what they are to it. -/
inductive Picked : (xs : List (List (BitVec 32))) → (ps : List (PacketKind × List (BitVec 32))) → Prop
  | nil : Picked [] []
  | known {x xs ps} (k : PacketKind) : k.Accepts x → Picked xs ps → Picked (x :: xs) ((k, x) :: ps)
  | unknown {x xs ps} : (∀ k : PacketKind, ¬ k.Accepts x) → Picked xs ps → Picked (x :: xs) ps

/-- Takes packets off the front: once the words that the first one announces are there,
`Packet::try_from`, and on by the length of the packet; behind what is refused on by `skip` of its
message type.  `fuel` bounds the number of packets. -/
def skipPackets (skip : Nat → Nat) : (fuel : Nat) → List (BitVec 32) →
    Res (List (PacketKind × List (BitVec 32)) × List (BitVec 32))
  | 0, b => .ok ([], b)
  | n + 1, b =>
    if !frontArrived b then .ok ([], b)
    else
      match Packet.tryFrom b with
      | .ok p => skipPackets skip n (b.drop p.2.length) >>= fun x => .ok (p :: x.1, x.2)
      | .err _ => skipPackets skip n (b.drop (skip (field (b.headD 0) 0 4)))
      | .panic => .panic

/-- What the reader has taken after each piece, and the words it still has at the end. -/
def skipRead (skip : Nat → Nat) : List (List (BitVec 32)) → List (BitVec 32) →
    Res (List (List (PacketKind × List (BitVec 32))) × List (BitVec 32))
  | [], r => .ok ([], r)
  | p :: ps, r => skipPackets skip (r ++ p).length (r ++ p) >>= fun x =>
    skipRead skip ps x.2 >>= fun y => .ok (x.1 :: y.1, y.2)

/-- The far side of a line: the reader that skips what it does not know, and behind it the receiver
of Spec/Reassembly.lean, which puts messages together. -/
def skipLine (keep : Bool) (h : Rx.Lane → List (BitVec 32)) (pieces : List (List (BitVec 32))) :
    Res (List Rx.Got) := do
  let x ← skipRead standardWords pieces []
  Rx.receive keep h (x.1.flatten.map Prod.snd)

end Midi2
