import Verif.Model.Packet
import Verif.Spec.SysexOps
import Verif.Spec.Dispatch

/-!
# Packets: what they are

Numbers of the UMP specification; none of the model's accessors.
-/

namespace Midi2

namespace PacketKind

/-- Message type. -/
def code : PacketKind → Nat
  | utility => 0 | systemCommon => 1 | channelVoice1 => 2 | sysex7 => 3
  | channelVoice2 => 4 | sysex8 => 5 | flexData => 13 | umpStream => 15

/-- Words of a packet (M2-104-UM table 4). -/
def words : PacketKind → Nat
  | utility | systemCommon | channelVoice1 => 1
  | sysex7 | channelVoice2 => 2
  | sysex8 | flexData | umpStream => 4

/-- Words the slice must have at least; the rest of the packet is filled with zeros. -/
def least : PacketKind → Nat
  | utility | systemCommon | channelVoice1 | channelVoice2 | umpStream => 1
  | sysex7 | flexData => 2
  | sysex8 => 4

/-- The slice begins with a packet. -/
structure Accepts (k : PacketKind) (b : List (BitVec 32)) : Prop where
  len : k.least ≤ b.length
  type : fieldAt b 0 0 4 = some k.code
  status : k = sysex7 ∨ k = sysex8 → ∃ s, fieldAt b 0 8 4 = some s ∧ s ≤ 3
  size : k = sysex7 → ∃ s, fieldAt b 0 12 4 = some s ∧ s ≤ 6

end PacketKind

/-- The status or format with a code. -/
def statusOfCode : Nat → Option PacketStatus
  | 0 => some .complete
  | 1 => some .start
  | 2 => some .continue_
  | 3 => some .end_
  | _ => none

/-- The bits of two words agree outside of `pos .. pos + width`. -/
def agreeOutside (w w' : BitVec 32) (pos width : Nat) : Prop :=
  ∀ i, i < 32 → (i < pos ∨ pos + width ≤ i) → w'.getMsbD i = w.getMsbD i

/-- `p'` is `p` with the given field of the first word set to `v` and nothing else changed. -/
def FirstWordSet (p p' : List (BitVec 32)) (pos width v : Nat) : Prop :=
  ∃ w w' t, p = w :: t ∧ p' = w' :: t ∧ field w' pos width = v ∧ agreeOutside w w' pos width

/-- `len()`, if asked for. -/
def ItCall.packetLen (dbg withLen : Bool) (k : Sx) (p : Buf .ump) (i : Nat) : Res (Option Nat) :=
  if withLen then do return some (← Packet.len dbg k p i) else .ok none

/-- Calls on the payload iterator of a packet: after each the item returned and, if asked for,
`len()`. -/
def ItCall.packetExecAll (dbg withLen : Bool) (k : Sx) (p : Buf .ump) :
    List ItCall → Nat → Res (List (Option k.Byte × Option Nat))
  | [], _ => .ok []
  | c :: cs, i => do
    let (v, i) ← match c with
      | .next => Packet.next dbg k p i
      | .nth n => Packet.nth dbg k p n i
    let l ← ItCall.packetLen dbg withLen k p i
    return (v, l) :: (← ItCall.packetExecAll dbg withLen k p cs i)

/-- The same on a list. -/
def ItCall.listExecAll {α : Type} (withLen : Bool) :
    List ItCall → List α → List (Option α × Option Nat)
  | [], _ => []
  | c :: cs, l => ((c.apply l).1, if withLen then some (c.apply l).2.length else none) ::
      ItCall.listExecAll withLen cs (c.apply l).2

/-- No `nth` past the item after the last. -/
def ItCall.NoOvershoot {α : Type} : List ItCall → List α → Prop
  | [], _ => True
  | c :: cs, l => (∀ n, c = .nth n → n ≤ l.length) ∧ ItCall.NoOvershoot cs (c.apply l).2

/-- What the payload iterator of a sysex8 packet does instead: `nth(n)` stays at the byte it
returns.  `l` are the bytes the packet declares, `none` for one it has no room for.  The result
`none` is a panic: for such a byte, and for `len()` when `nth` has gone past the item after the
last. -/
def ItCall.stutterAll {α : Type} (withLen : Bool) :
    List ItCall → List (Option α) → Option (List (Option α × Option Nat))
  | [], _ => some []
  | .next :: cs, [] => do
    return (none, if withLen then some 0 else none) :: (← ItCall.stutterAll withLen cs [])
  | .next :: _, none :: _ => none
  | .next :: cs, some v :: l => do
    return (some v, if withLen then some l.length else none) :: (← ItCall.stutterAll withLen cs l)
  | .nth n :: cs, l =>
    if withLen && decide (l.length < n) then none
    else match l.drop n with
      | [] => do
        return (none, if withLen then some 0 else none) :: (← ItCall.stutterAll withLen cs [])
      | none :: _ => none
      | some v :: l => do
        return (some v, if withLen then some (l.length + 1) else none) ::
          (← ItCall.stutterAll withLen cs (some v :: l))

/-- Calls on the iterator of `packets()`: after each the packet returned and `len()`. -/
def ItCall.packetsExecAll : List ItCall → List (Buf .ump) → Res (List (Option Packet × Nat))
  | [], _ => .ok []
  | c :: cs, l => do
    let (v, l) ← match c with
      | .next => Packet.itNext l
      | .nth n => Packet.itNth n l
    return (v, Packet.itLen l) :: (← ItCall.packetsExecAll cs l)

/-- The same on a list of packets. -/
def ItCall.packetListAll : List ItCall → List Packet → List (Option Packet × Nat)
  | [], _ => []
  | c :: cs, l => ((c.apply l).1, (c.apply l).2.length) :: ItCall.packetListAll cs (c.apply l).2

end Midi2
