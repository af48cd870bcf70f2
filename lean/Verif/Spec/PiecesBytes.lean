import Verif.Spec.Dispatch

/-!
# C76 over bytes

A reader of MIDI 1.0 bytes that arrive in pieces, as Spec/Pieces.lean has it for words.
-/

namespace Midi2

/-- Takes messages off the front: `BytesMessage::try_from`, and on by the length of `data()`. -/
def takeBytes : (fuel : Nat) → List (BitVec 8) →
    Res (List (BytesKind × List (BitVec 8)) × List (BitVec 8))
  | 0, b => .ok ([], b)
  | n + 1, b =>
    match BytesMessage.tryFrom b with
    | .ok x => BytesMessage.data x >>= fun d =>
      takeBytes n (b.drop d.length) >>= fun y => .ok ((x.1, d) :: y.1, y.2)
    | .err _ => .ok ([], b)
    | .panic => .panic

/-- What the reader has taken after each piece, and the bytes it still has at the end. -/
def readBytePieces : List (List (BitVec 8)) → List (BitVec 8) →
    Res (List (List (BytesKind × List (BitVec 8))) × List (BitVec 8))
  | [], r => .ok ([], r)
  | p :: ps, r => takeBytes (r ++ p).length (r ++ p) >>= fun x =>
    readBytePieces ps x.2 >>= fun y => .ok (x.1 :: y.1, y.2)

/-- A message by itself: it is read, and `data()` is all of it. -/
def BytesKind.Alone (m : BytesKind × List (BitVec 8)) : Prop :=
  BytesMessage.tryFrom m.2 = .ok m ∧ BytesMessage.data m = .ok m.2

/-- The messages of a stream up to the first that is no message or not complete. -/
structure BytesOf (b : List (BitVec 8)) (ms : List (BytesKind × List (BitVec 8)))
    (rest : List (BitVec 8)) : Prop where
  bytes : b = (ms.map Prod.snd).flatten ++ rest
  alone : ∀ m ∈ ms, BytesKind.Alone m
  stop : ∀ m, BytesKind.Alone m → ¬ m.2 <+: rest

end Midi2
