import Verif.Spec.Router

/-!
# A program that moves channel voice messages to other channels, packet by packet
-/

namespace Midi2.Rx

/-- What it puts out for a slice: the packet, with a new channel if it is a channel voice packet;
nothing if the slice is no packet.  The new channel may depend on the group. -/
def mapChannel (f : BitVec 4 → BitVec 4 → BitVec 4) (x : List (BitVec 32)) :
    Res (List (List (BitVec 32))) :=
  match Packet.tryFrom x with
  | .panic => .panic
  | .err _ => .ok []
  | .ok (.channelVoice1, p) => do
    return [← Packet.setChannel p (f (← Packet.group p) (← Packet.channel p))]
  | .ok (.channelVoice2, p) => do
    return [← Packet.setChannel p (f (← Packet.group p) (← Packet.channel p))]
  | .ok (_, p) => .ok [p]

/-- The same for one slice after the other. -/
def mapChannels (f : BitVec 4 → BitVec 4 → BitVec 4) :
    List (List (BitVec 32)) → Res (List (List (BitVec 32)))
  | [] => .ok []
  | x :: s => do
    let ys ← mapChannel f x
    let zs ← mapChannels f s
    return ys ++ zs

/-- `set_channel` called on a message if it is a `ChannelVoice1` or a `ChannelVoice2`. -/
def rechannel (f : BitVec 4 → BitVec 4 → BitVec 4) (m : UmpKind × List (BitVec 32)) :
    Res (UmpKind × List (BitVec 32)) :=
  match m with
  | (.fixed d, b) =>
    if d ∈ Msg.cv1All then do
      return asUmp (← ChannelVoice1.setChannel .ump
        (f (← FixedEnum.group (d, b)) (← ChannelVoice1.channel .ump (d, b))) (d, b))
    else if d ∈ Msg.cv2All then do
      return asUmp (← ChannelVoice2.setChannel
        (f (← FixedEnum.group (d, b)) (← ChannelVoice2.channel (d, b))) (d, b))
    else .ok m
  | _ => .ok m

/-- The same for one message after the other. -/
def rechannels (f : BitVec 4 → BitVec 4 → BitVec 4) :
    List (UmpKind × List (BitVec 32)) → Res (List (UmpKind × List (BitVec 32)))
  | [] => .ok []
  | m :: ms => do
    let m' ← rechannel f m
    let ms' ← rechannels f ms
    return m' :: ms'

end Midi2.Rx
