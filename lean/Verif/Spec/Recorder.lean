import Verif.Spec.Link
import Verif.Spec.History

/-!
# C85: a recorder and a player

Programs of a user.  The recorder writes, before each message, `DeltaClockstamp` messages for the
ticks since the message before.  The player reads messages, adds up the ticks of the
`DeltaClockstamp` messages and gives out the others with the time at which they are due.
-/

namespace Midi2.Rx

open Gateway

/-- `DeltaClockstamp::<Vec<u32>>::new()`, `set_time_data(ticks)`, and the words to be sent,
`data()`. -/
def stamp (ticks : BitVec 20) : Res (UmpKind × List (BitVec 32)) := do
  let b ← Msg.utilDeltaClockstamp.newVec .ump
  let b ← Fld.u20Data.write .ump b ticks
  return (.fixed Msg.utilDeltaClockstamp, ← Msg.utilDeltaClockstamp.data .ump b)

/-- The stamps for a gap of any number of ticks: as many with the highest number of ticks as fit in,
and one with the rest. -/
def stamps (gap : Nat) : Res (List (UmpKind × List (BitVec 32))) :=
  each stamp (List.replicate (gap / 0xFFFFF) 0xFFFFF#20 ++ [BitVec.ofNat 20 (gap % 0xFFFFF)])

/-- The recorder: messages with the ticks since the message before. -/
def record : List (Nat × (UmpKind × List (BitVec 32))) → Res (List (UmpKind × List (BitVec 32)))
  | [] => .ok []
  | e :: es => do
    let s ← stamps e.1
    let r ← record es
    return s ++ e.2 :: r

/-- The player, at the time `now`. -/
def play (now : Nat) :
    List (UmpKind × List (BitVec 32)) → Res (List (Nat × (UmpKind × List (BitVec 32))))
  | [] => .ok []
  | m :: ms =>
    if m.1 = .fixed Msg.utilDeltaClockstamp then do
      let ticks : BitVec 20 ← Fld.u20Data.read .ump m.2
      play (now + ticks.toNat) ms
    else do
      let es ← play now ms
      return (now, m) :: es

/-- The messages with the times at which they are due, if the first gap begins at `now`. -/
def timeline (now : Nat) : List (Nat × (UmpKind × List (BitVec 32))) →
    List (Nat × (UmpKind × List (BitVec 32)))
  | [] => []
  | e :: es => (now + e.1, e.2) :: timeline (now + e.1) es

/-- The words `w` begin with a recording of `es`. -/
def Recorded (es : List (Nat × (UmpKind × List (BitVec 32)))) (w : List (BitVec 32)) : Prop :=
  ∃ ms ps, record es = .ok ms ∧ sendAll ms = .ok ps ∧ ps.flatten <+: w

end Midi2.Rx
