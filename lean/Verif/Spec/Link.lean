import Verif.Spec.Pieces
import Verif.Spec.PiecesBytes
import Verif.Spec.Reassembly
import Verif.Spec.Gateway

/-!
# C78: a line

The programs of Spec/Pieces.lean, Spec/Reassembly.lean and Spec/Gateway.lean behind each other.  One
side sends messages of any kind, one after the other, packet by packet; a transport cuts the words
into pieces; the other side takes packets off the pieces and puts messages together from them.
-/

namespace Midi2.Rx

/-- The far side of the line: packets are taken off the pieces as they come in, and put together to
messages, those that end with `UnexpectedEnd(Valid)` included.  `h` is what it has in its buffers
from before. -/
def line (careful : Bool) (h : Lane → List (BitVec 32)) (pieces : List (List (BitVec 32))) :
    Res (List (UmpKind × List (BitVec 32))) := do
  let x ← readPackets careful pieces []
  let got ← receive true h (x.1.flatten.map Prod.snd)
  return got.map Prod.snd

/-- Of the messages `ms`, sent in this order, those that are complete once the words `w` have come
in: the packets of `t` are there, those of the next one are not all there. -/
def Arrived (ms : List (UmpKind × List (BitVec 32))) (w : List (BitVec 32))
    (t : List (UmpKind × List (BitVec 32))) : Prop :=
  ∃ u p, ms = t ++ u ∧ sendAll t = .ok p ∧ p.flatten <+: w ∧
    ∀ m u', u = m :: u' → ∃ q, sendAll (t ++ [m]) = .ok q ∧ ¬ q.flatten <+: w

/-- A message as its packets have it: `FunctionBlockDiscovery`, of which `data()` has one word, in a
packet of four words. -/
def inPackets (m : UmpKind × List (BitVec 32)) : UmpKind × List (BitVec 32) :=
  if m.1 = .fixed Msg.streamFunctionBlockDiscovery then (m.1, m.2 ++ [0, 0, 0]) else m

end Midi2.Rx
