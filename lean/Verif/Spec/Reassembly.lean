import Verif.Model.Packet
import Verif.Spec.Packet

/-!
# Putting messages together from packets

A transport carries packets of several senders mixed with each other.  The receiver below is the
program a user writes with `Packet::try_from`, `group()`, `stream_id()`, `status()`, `format()` and
`UmpMessage::try_from`; the sender is a loop over `packets()`.
-/

namespace Midi2.Rx

/-- What tells the messages on their way apart: message type, group and stream id, 0 where the
packet has none. -/
abbrev Lane := Nat × Nat × Nat

/-- The same on the wire (M2-104-UM: the type in bits 0 to 3, the group in bits 4 to 7, the stream
id of system exclusive 8 in bits 16 to 23). -/
def laneAt (b : List (BitVec 32)) : Lane :=
  (field (b.headD 0) 0 4,
    if field (b.headD 0) 0 4 = 0 ∨ field (b.headD 0) 0 4 = 15 then 0 else field (b.headD 0) 4 4,
    if field (b.headD 0) 0 4 = 5 then field (b.headD 0) 16 8 else 0)

/-- The getters of the packet. -/
def lane : Packet → Res Lane
  | (.utility, _) => .ok (0, 0, 0)
  | (.umpStream, _) => .ok (15, 0, 0)
  | (.sysex8, p) => do return (5, (← Packet.group p).toNat, (← Packet.streamId p).toNat)
  | (k, p) => do return (k.code, (← Packet.group p).toNat, 0)

/-- `status()` of system exclusive packets, `format()` of flex data and stream packets.  The other
packets are complete messages. -/
def part : Packet → Res PacketStatus
  | (.sysex7, p) => Packet.sysexStatus .s7 p
  | (.sysex8, p) => Packet.sysexStatus .s8 p
  | (.flexData, p) => Packet.flexFormat p
  | (.umpStream, p) => Packet.streamFormat p
  | _ => .ok .complete

/-- A map from lanes with one entry changed. -/
def put {α : Type} (h : Lane → α) (l : Lane) (x : α) : Lane → α := fun l' => if l' = l then x else h l'

/-- A received message: where it came in, its variant and its buffer. -/
abbrev Got := Lane × UmpKind × List (BitVec 32)

/-- `UmpMessage::try_from` on collected words; what it refuses is dropped. -/
def deliver (l : Lane) (b : List (BitVec 32)) : Res (List Got) :=
  match UmpMessage.tryFrom b with
  | .ok m => .ok [(l, m)]
  | .err _ => .ok []
  | .panic => .panic

/-- The receiver takes a slice off the line.  It keeps for every lane the words of the unfinished
message.  What is no packet is dropped; a packet that starts a message drops what is unfinished.
`keep` says what to do with a message that ends with `UnexpectedEnd(Valid)`: to keep it, as this
status suggests, or to drop it. -/
def step (keep : Bool) (h : Lane → List (BitVec 32)) (x : List (BitVec 32)) :
    Res (List Got × (Lane → List (BitVec 32))) :=
  match Packet.tryFrom x with
  | .panic => .panic
  | .err _ => .ok ([], h)
  | .ok p => do
    let l ← lane p
    let st ← part p
    match st with
    | .complete => do return (← deliver l p.2, put h l [])
    | .start => return ([], put h l p.2)
    | .continue_ => return ([], put h l (h l ++ p.2))
    | .end_ => do return (← deliver l (h l ++ p.2), put h l [])
    | .unexpectedEnd valid =>
      if keep = true ∧ valid = true then do return (← deliver l (h l ++ p.2), put h l [])
      else return ([], put h l [])

/-- The messages received. -/
def receive (keep : Bool) (h : Lane → List (BitVec 32)) : List (List (BitVec 32)) → Res (List Got)
  | [] => .ok []
  | x :: xs => do
    let (g, h) ← step keep h x
    let gs ← receive keep h xs
    return g ++ gs

/-- `Packet::try_from(..).unwrap()` on every slice, as the iterator of `packets()` does; the words
that go out. -/
def pack : List (List (BitVec 32)) → Res (List (List (BitVec 32)))
  | [] => .ok []
  | c :: cs => do
    let p ← (Packet.tryFrom c).unwrap
    let ps ← pack cs
    return p.2 :: ps

/-- `for p in message.packets() { send(&p) }`. -/
def send (m : UmpKind × List (BitVec 32)) : Res (List (List (BitVec 32))) := do
  pack (← UmpMessage.packets m)

/-- The same for one message after the other. -/
def sendAll : List (UmpKind × List (BitVec 32)) → Res (List (List (BitVec 32)))
  | [] => .ok []
  | m :: ms => do
    let ps ← send m
    let qs ← sendAll ms
    return ps ++ qs

/-- The words are a message, the whole of it and nothing else, that goes over the lane. -/
structure Sent (l : Lane) (m : UmpKind × List (BitVec 32)) : Prop where
  parsed : UmpMessage.tryFrom m.2 = .ok m
  whole : UmpMessage.data m = .ok m.2
  onLane : laneAt m.2 = l

/-- A transport with the senders' packets `f` still to come carries the slices `s`, and leaves `f'`.
At every point it takes the next packet of any sender, or any words at all that belong to nobody
of interest; it may stop at any point. -/
inductive Mixed (A : Lane → Prop) : (f : Lane → List (List (BitVec 32))) →
    (s : List (List (BitVec 32))) → (f' : Lane → List (List (BitVec 32))) → Prop
  | stop {f} : Mixed A f [] f
  | next {f s f'} (l : Lane) (x : List (BitVec 32)) (r : List (List (BitVec 32))) : A l →
      f l = x :: r → Mixed A (put f l r) s f' → Mixed A f (x :: s) f'
  | other {f s f'} (x : List (BitVec 32)) : ¬ A (laneAt x) → Mixed A f s f' → Mixed A f (x :: s) f'

/-- A `Sysex8` of several packets the last of which has no payload and nothing but zeros behind the
stream id. -/
def EmptyEnd (m : UmpKind × List (BitVec 32)) : Prop :=
  m.1 = .sysex .s8 ∧ ∃ x w, x ≠ [] ∧ m.2 = x ++ [w, 0, 0, 0] ∧ field w 12 4 = 1 ∧ field w 24 8 = 0

/-- The packets `r` are what is left to send of the messages `u`: at least the last packet of the
first of them, and all of the others. -/
def Left : (u : List (UmpKind × List (BitVec 32))) → (r : List (List (BitVec 32))) → Prop
  | [], r => r = []
  | m :: u, r => ∃ d r₁ r₂, r₁ ≠ [] ∧ send m = .ok (d ++ r₁) ∧ sendAll u = .ok r₂ ∧ r = r₁ ++ r₂

/-- What is received of the messages `t` sent over a lane: each of them in turn, of the same variant
and with the same `data()`, except those with an empty last packet, which are lost if the receiver
does not keep what ends with `UnexpectedEnd(Valid)`. -/
inductive Received (keep : Bool) (l : Lane) : (t : List (UmpKind × List (BitVec 32))) → (out : List Got) → Prop
  | nil : Received keep l [] []
  | got {m t out} {b : List (BitVec 32)} : ¬ (keep = false ∧ EmptyEnd m) → UmpMessage.data (m.1, b) = .ok m.2 →
      Received keep l t out → Received keep l (m :: t) ((l, m.1, b) :: out)
  | lost {m t out} : keep = false → EmptyEnd m → Received keep l t out → Received keep l (m :: t) out

/-- What of the list belongs to the lane. -/
def onLane (l : Lane) (out : List Got) : List Got := out.filter fun g => decide (g.1 = l)

end Midi2.Rx
