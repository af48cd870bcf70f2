import Verif.Spec.Packet
import Verif.Spec.Dispatch

/-!
# C76: words that arrive in pieces

A transport delivers the words of a stream in pieces of any size.  A reader puts every piece behind
the words it still has, and takes packets, or messages, off the front as long as the parser accepts
what is there.
-/

namespace Midi2

/-- Words of a packet of some message type, reserved ones included (M2-104-UM table 4). -/
def standardWords : Nat → Nat
  | 0 | 1 | 2 | 6 | 7 => 1
  | 3 | 4 | 8 | 9 | 10 => 2
  | 11 | 12 => 3
  | _ => 4

/-- The words that the first one announces are there. -/
def frontArrived : List (BitVec 32) → Bool
  | [] => false
  | w :: t => decide (standardWords (field w 0 4) ≤ t.length + 1)

/-- Takes packets off the front: `Packet::try_from`, and on by the length of the packet.  A careful
reader first looks whether the packet has arrived.  `fuel` bounds the number of packets. -/
def takePackets (careful : Bool) : (fuel : Nat) → List (BitVec 32) →
    Res (List (PacketKind × List (BitVec 32)) × List (BitVec 32))
  | 0, b => .ok ([], b)
  | n + 1, b =>
    if careful && !frontArrived b then .ok ([], b)
    else
      match Packet.tryFrom b with
      | .ok p => takePackets careful n (b.drop p.2.length) >>= fun x => .ok (p :: x.1, x.2)
      | .err _ => .ok ([], b)
      | .panic => .panic

/-- What the reader has taken after each piece, and the words it still has at the end. -/
def readPackets (careful : Bool) : List (List (BitVec 32)) → List (BitVec 32) →
    Res (List (List (PacketKind × List (BitVec 32))) × List (BitVec 32))
  | [], r => .ok ([], r)
  | p :: ps, r => takePackets careful (r ++ p).length (r ++ p) >>= fun x =>
    readPackets careful ps x.2 >>= fun y => .ok (x.1 :: y.1, y.2)

/-- A packet of the length the standard gives it. -/
structure PacketKind.Whole (p : PacketKind × List (BitVec 32)) : Prop where
  accepted : p.1.Accepts p.2
  length : p.2.length = p.1.words

/-- The packets of a stream up to the first that is no packet or not complete. -/
structure PacketsOf (b : List (BitVec 32)) (ps : List (PacketKind × List (BitVec 32)))
    (rest : List (BitVec 32)) : Prop where
  words : b = (ps.map Prod.snd).flatten ++ rest
  whole : ∀ p ∈ ps, PacketKind.Whole p
  stop : ∀ p, PacketKind.Whole p → ¬ p.2 <+: rest

/-- The first words of a packet that the parser takes for a packet, though the others are missing. -/
structure PacketKind.Torn (k : PacketKind) (r : List (BitVec 32)) : Prop where
  kind : k = .channelVoice2 ∨ k = .flexData ∨ k = .umpStream
  type : fieldAt r 0 0 4 = some k.code
  long : k = .flexData → 2 ≤ r.length
  short : r.length < k.words

/-- No piece ends within such a packet. -/
def NeverTorn (ps : List (List (BitVec 32))) : Prop :=
  ∀ pre post, ps = pre ++ post → ∀ qs r, PacketsOf pre.flatten qs r →
    ∀ k : PacketKind, ¬ k.Torn r

/-! ## Messages -/

/-- Takes messages off the front: `UmpMessage::try_from`, and on by the length of `data()`. -/
def takeMessages : (fuel : Nat) → List (BitVec 32) →
    Res (List (UmpKind × List (BitVec 32)) × List (BitVec 32))
  | 0, b => .ok ([], b)
  | n + 1, b =>
    match UmpMessage.tryFrom b with
    | .ok x => UmpMessage.data x >>= fun d =>
      takeMessages n (b.drop d.length) >>= fun y => .ok ((x.1, d) :: y.1, y.2)
    | .err _ => .ok ([], b)
    | .panic => .panic

/-- What the reader has taken after each piece, and the words it still has at the end. -/
def readMessages : List (List (BitVec 32)) → List (BitVec 32) →
    Res (List (List (UmpKind × List (BitVec 32))) × List (BitVec 32))
  | [], r => .ok ([], r)
  | p :: ps, r => takeMessages (r ++ p).length (r ++ p) >>= fun x =>
    readMessages ps x.2 >>= fun y => .ok (x.1 :: y.1, y.2)

/-- The first `n` words of the message `m` end within its last packet, which is not its first; and
of a text message, the text of the packets before it is a text by itself. -/
def UmpKind.CutInLast (m : List (BitVec 32)) (n : Nat) : UmpKind → Prop
  | .fixed _ => False
  | .sysex s => s.layout.words ≤ n ∧ m.length < n + s.layout.words
  | .flexText _ => 4 ≤ n ∧ m.length < n + 4 ∧
    ∃ s : String, utf8 s = (FlexText.slots (m.take n)).dropLast.filter (· ≠ 0)
  | .streamText t => 4 ≤ n ∧ m.length < n + 4 ∧
    ∃ s : String, utf8 s = (t.slots (m.take n)).filter (· ≠ 0)

/-- The words `w`, the beginning of a stream of messages, end within the last packet of a message
in the way of `CutInLast`. -/
def TornMessage (ms : List (UmpKind × Buf .ump)) (w : Buf .ump) : Prop :=
  ∃ done m post n, ms = done ++ m :: post ∧ n < m.2.length ∧
    w = (done.map Prod.snd).flatten ++ m.2.take n ∧ m.1.CutInLast m.2 n

end Midi2
