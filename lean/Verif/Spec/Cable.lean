import Verif.Spec.Gateway
import Verif.Spec.PiecesBytes

/-!
# C82: a MIDI 1.0 cable

On a MIDI 1.0 cable the status byte may be left out if it is that of the message before (running
status), and system real time messages, of one byte, may stand anywhere, within other messages too
(MIDI 1.0 detailed specification).  The crate has neither; so an application puts the bytes of a
message together itself, and asks `BytesMessage::try_from` behind every byte whether it has one.
-/

namespace Midi2.Cable

/-- Running status holds behind channel voice messages, and no other system message than real time
leaves it. -/
def running (s : BitVec 8) : Option (BitVec 8) := if s.toNat < 0xF0 then some s else none

/-- What the reader has: the running status, and the bytes of a message that is not complete. -/
abbrev State := Option (BitVec 8) × List (BitVec 8)

/-- Another byte, no real time message: `F7` behind `F0` ends system exclusive; another status byte
begins a message; a data byte belongs to what is there, or begins a message of running status. -/
def take (s : State) (x : BitVec 8) : State :=
  if x = 0xF7 ∧ s.2.head? = some 0xF0 then (s.1, s.2 ++ [x])
  else if 0x80 ≤ x.toNat then (running x, [x])
  else match s with
    | (some st, []) => (some st, [st, x])
    | (none, []) => (none, [])
    | (r, y :: p) => (r, y :: p ++ [x])

/-- One byte off the cable: the message it completes, if any. -/
def step (s : State) (x : BitVec 8) : Res (List (BytesKind × List (BitVec 8)) × State) :=
  if 0xF8 ≤ x.toNat then
    match BytesMessage.tryFrom [x] with
    | .ok m => .ok ([m], s)
    | .err _ => .ok ([], s)
    | .panic => .panic
  else
    match BytesMessage.tryFrom (take s x).2 with
    | .ok m => .ok ([m], ((take s x).1, []))
    | .err _ => .ok ([], take s x)
    | .panic => .panic

/-- The messages read off the cable, and what the reader has then. -/
def read (s : State) : List (BitVec 8) → Res (List (BytesKind × List (BitVec 8)) × State)
  | [] => .ok ([], s)
  | x :: xs => do
    let (g, s) ← step s x
    let (gs, s) ← read s xs
    return (g ++ gs, s)

/-- The message is complete with its last byte. -/
def emit (m d : List (BitVec 8)) (out : List (List (BitVec 8))) : List (List (BitVec 8)) :=
  if d = [] then m :: out else out

/-- What may stand on a cable, and the messages in it in the order of their last bytes.  `run` is
the running status, `d` the bytes of `m` that are still to come.  `P` are the messages that are
sent. -/
inductive On (P : List (BitVec 8) → Prop) : (run : Option (BitVec 8)) → (m d : List (BitVec 8)) →
    (w : List (BitVec 8)) → (out : List (List (BitVec 8))) → Prop
  /-- The cable is pulled, at any point. -/
  | stop {run m d} : On P run m d [] []
  /-- A real time message, at any point. -/
  | clock {run m d w out} (x : BitVec 8) : 0xF8 ≤ x.toNat → P [x] → On P run m d w out →
      On P run m d (x :: w) ([x] :: out)
  /-- Of those two are undefined. -/
  | noClock {run m d w out} (x : BitVec 8) : x = 0xF9 ∨ x = 0xFD → On P run m d w out →
      On P run m d (x :: w) out
  /-- A message begins; what is not complete is lost. -/
  | status {run m d w out} (s : BitVec 8) (e : List (BitVec 8)) : s.toNat < 0xF8 → P (s :: e) →
      On P (running s) (s :: e) e w out → On P run m d (s :: w) (emit (s :: e) e out)
  /-- A message begins without its status byte. -/
  | again {m w out} (s x : BitVec 8) (e : List (BitVec 8)) : P (s :: x :: e) →
      On P (some s) (s :: x :: e) e w out → On P (some s) m [] (x :: w) (emit (s :: x :: e) e out)
  /-- The next byte of the message. -/
  | byte {run m w out} (x : BitVec 8) (e : List (BitVec 8)) : On P run m e w out →
      On P run m (x :: e) (x :: w) (emit m e out)
  /-- A status byte that is undefined, or that ends no system exclusive message. -/
  | undefined {run m d w out} (x : BitVec 8) : x = 0xF4 ∨ x = 0xF5 ∨ x = 0xF7 ∧ d = [] →
      On P none m [] w out → On P run m d (x :: w) out
  /-- A data byte that belongs to nothing. -/
  | stray {m w out} (x : BitVec 8) : x.toNat < 0x80 → On P none m [] w out →
      On P none m [] (x :: w) out

/-- A message of MIDI 1.0 other than time code quarter frame, song position pointer and tune
request (C49). -/
structure Plain (m : List (BitVec 8)) : Prop where
  midi1 : Gateway.Midi1 m
  notTimeCode : m.head? ≠ some 0xF1
  notSongPosition : m.head? ≠ some 0xF2
  notTuneRequest : m.head? ≠ some 0xF6

end Midi2.Cable
