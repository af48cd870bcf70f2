import Verif.Lemmas.Skip
import Verif.Props.Reassembly
import Verif.Props.Dispatch

/-!
# C81: packets the library does not know
-/

namespace Midi2

open Rx

/-- C81: words of a message type that the standard reserves are refused, as a packet and as a
message, whatever they are. -/
theorem C81_unknown_refused (b : List (BitVec 32)) (t : Nat) (ht : fieldAt b 0 0 4 = some t)
    (hr : 6 ≤ t ∧ t ≤ 12 ∨ t = 14) :
    Packet.tryFrom b = .err .invalidData ∧ ∃ e, UmpMessage.tryFrom b = .err e := by
  constructor
  · refine (C34_packet_accepts_exactly b).2 fun k A => ?_
    have h := A.type
    rw [ht] at h
    have h := Option.some.inj h
    cases k <;> simp only [PacketKind.code] at h <;> omega
  · refine C10_ump_unknown b fun k h he O => ?_
    have h1 : ∀ e ∈ umpTable, e.2.type ≤ 5 ∨ e.2.type = 13 ∨ e.2.type = 15 := by decide +kernel
    have h2 := O.1
    rw [ht] at h2
    have h2 := Option.some.inj h2
    have h3 := h1 _ he
    simp only at h3
    omega

example : Packet.tryFrom [0xB0903C00, 0x80000000, 7] = .err .invalidData :=
  (C81_unknown_refused _ 11 (by decide +kernel) (by decide)).1

/-- C81: a reader that goes on behind a refused packet by the standard's number of words for its
message type does not panic, and gets after every piece exactly the packets of the stream that are
packets to the library when looked at alone, of those that have arrived completely. -/
theorem C81_packets (pieces : List (List (BitVec 32))) :
    ∃ outs xs rest, skipRead standardWords pieces [] = .ok (outs, rest) ∧
      outs.length = pieces.length ∧ FramesOf pieces.flatten xs rest ∧ Picked xs outs.flatten ∧
      ∀ pre post, pieces = pre ++ post → ∃ ys r, FramesOf pre.flatten ys r ∧
        Picked ys (outs.take pre.length).flatten := by
  obtain ⟨outs, xs, rest, h1, h2, h3, h4⟩ := skipRead_of pieces FramesOf.nil Picked.nil
  refine ⟨outs, xs, rest, h1, h2, h3, h4, fun pre post hp => ?_⟩
  subst hp
  obtain ⟨ys, zs, r, g1, g2, g3, g4⟩ := skipRead_of pre FramesOf.nil Picked.nil
  rw [skipRead_append, g1, Res.ok_bind] at h1
  cases hy : skipRead standardWords post r with
  | err e => rw [hy] at h1; cases h1
  | panic => rw [hy] at h1; cases h1
  | ok y =>
    rw [hy] at h1
    cases h1
    refine ⟨zs, r, g3, ?_⟩
    rw [← g2, List.take_left]
    exact g4

example : skipRead standardWords
      [[0x10F80000, 0x80903C00], [0x20903C7F, 0x30770000], [0, 0x60000000, 0x40903C00]] [] =
    .ok ([[(.systemCommon, [0x10F80000])], [], []], [0x40903C00]) := by decide +kernel

/-- The packets of a stream are determined by the stream. -/
theorem C81_frames_unique (b : List (BitVec 32)) (xs xs' : List (List (BitVec 32)))
    (rest rest' : List (BitVec 32)) (F : FramesOf b xs rest) (F' : FramesOf b xs' rest') :
    xs = xs' ∧ rest = rest' := F.unique F'

/-- What the library makes of packets is determined by the packets. -/
theorem C81_picked_unique (xs : List (List (BitVec 32)))
    (ps ps' : List (PacketKind × List (BitVec 32))) (P : Picked xs ps) (P' : Picked xs ps') :
    ps = ps' := P.unique P'

theorem frames_flatten {xs : List (List (BitVec 32))} (hx : ∀ x ∈ xs, Frame x) :
    FramesOf xs.flatten xs [] :=
  ⟨(List.append_nil _).symm, hx, FramesOf.nil.stop⟩

theorem skipRead_frames {xs : List (List (BitVec 32))} (hx : ∀ x ∈ xs, Frame x)
    {ps : List (PacketKind × List (BitVec 32))} (P : Picked xs ps) {pieces : List (List (BitVec 32))}
    (h : pieces.flatten = xs.flatten) :
    ∃ outs, skipRead standardWords pieces [] = .ok (outs, []) ∧ outs.flatten = ps := by
  obtain ⟨outs, ys, rest, h1, -, h3, h4, -⟩ := C81_packets pieces
  rw [h] at h3
  obtain ⟨rfl, rfl⟩ := h3.unique (frames_flatten hx)
  exact ⟨outs, h1, h4.unique P⟩

/-- C81: packets the library refuses, of whatever type and wherever they are, change nothing: the
same packets are read as from the stream without them, however the two are cut. -/
theorem C81_refused_ignored (xs : List (List (BitVec 32))) (hx : ∀ x ∈ xs, Frame x)
    (wanted : List (BitVec 32) → Bool)
    (hw : ∀ x ∈ xs, wanted x = false → ∀ p, Packet.tryFrom x ≠ .ok p)
    (pieces pieces' : List (List (BitVec 32))) (h : pieces.flatten = xs.flatten)
    (h' : pieces'.flatten = (xs.filter wanted).flatten) :
    ∃ outs outs', skipRead standardWords pieces [] = .ok (outs, []) ∧
      skipRead standardWords pieces' [] = .ok (outs', []) ∧ outs.flatten = outs'.flatten := by
  have key : ∀ ys : List (List (BitVec 32)), (∀ x ∈ ys, x ∈ xs) →
      ∃ ps, Picked ys ps ∧ Picked (ys.filter wanted) ps := by
    intro ys
    induction ys with
    | nil => intro _; exact ⟨[], .nil, .nil⟩
    | cons y ys ih =>
      intro hy
      obtain ⟨ps, P, Q⟩ := ih fun x hx => hy x (List.mem_cons_of_mem _ hx)
      by_cases hk : ∃ k : PacketKind, k.Accepts y
      · obtain ⟨k, A⟩ := hk
        have : wanted y = true := by
          cases hw' : wanted y with
          | true => rfl
          | false =>
            exact absurd ((C34_packet_accepts_exactly y).1 k A)
              (hw y (hy y List.mem_cons_self) hw' _)
        rw [List.filter_cons_of_pos this]
        exact ⟨_, .known k A P, .known k A Q⟩
      · have hk' : ∀ k : PacketKind, ¬ k.Accepts y := fun k A => hk ⟨k, A⟩
        refine ⟨ps, .unknown hk' P, ?_⟩
        cases hw' : wanted y with
        | true => rw [List.filter_cons_of_pos hw']; exact .unknown hk' Q
        | false => rw [List.filter_cons_of_neg (by rw [hw']; exact Bool.false_ne_true)]; exact Q
  obtain ⟨ps, P, Q⟩ := key xs fun _ h => h
  obtain ⟨outs, h1, h2⟩ := skipRead_frames hx P h
  obtain ⟨outs', g1, g2⟩ := skipRead_frames
    (fun x hx' => hx x (List.mem_filter.mp hx').1) Q h'
  exact ⟨outs, outs', h1, g1, h2.trans g2.symm⟩

/-- C81: damage within one packet is damage to that packet only.  Whatever the words of one packet
are, the packets before and behind it are read as they are. -/
theorem C81_damage_local (pre post : List (List (BitVec 32))) (hpre : ∀ x ∈ pre, Frame x)
    (hpost : ∀ x ∈ post, Frame x) :
    ∃ a c, Picked pre a ∧ Picked post c ∧ ∀ x, Frame x → ∃ o, Picked [x] o ∧
      ∀ pieces : List (List (BitVec 32)), pieces.flatten = pre.flatten ++ x ++ post.flatten →
        ∃ outs, skipRead standardWords pieces [] = .ok (outs, []) ∧ outs.flatten = a ++ o ++ c := by
  obtain ⟨a, P⟩ := Picked.exists pre
  obtain ⟨c, Q⟩ := Picked.exists post
  refine ⟨a, c, P, Q, fun x F => ?_⟩
  obtain ⟨o, O⟩ := Picked.exists [x]
  refine ⟨o, O, fun pieces h => ?_⟩
  refine skipRead_frames (xs := pre ++ [x] ++ post) (fun y hy => ?_) ((P.append O).append Q) ?_
  · rcases List.mem_append.mp hy with hy | hy
    · rcases List.mem_append.mp hy with hy | hy
      · exact hpre y hy
      · rw [List.mem_singleton.mp hy]; exact F
    · exact hpost y hy
  · rw [h, List.flatten_append, List.flatten_append, List.flatten_cons, List.flatten_nil,
      List.append_nil]

example : Frame [0x30770000, 0] ∧ (∀ p, Packet.tryFrom [0x30770000, 0] ≠ .ok p) ∧
    ∃ outs, skipRead standardWords [[0x20903C7F, 0x30770000], [0, 0x20803C00]] [] =
        .ok (outs, []) ∧
      outs.flatten = [(.channelVoice1, [0x20903C7F])] ++ [] ++ [(.channelVoice1, [0x20803C00])] := by
  refine ⟨⟨_, _, rfl, by decide +kernel⟩, fun p h => ?_,
    [[(.channelVoice1, [0x20903C7F])], [(.channelVoice1, [0x20803C00])]], by decide +kernel, rfl⟩
  have : Packet.tryFrom [0x30770000, 0] = .err .invalidData := by decide +kernel
  rw [this] at h
  cases h

/-- C81: senders and transport as in C75, but what comes in is words, in any pieces, with no sign
where a packet begins, and with packets of any type in between that nobody is interested in, also of
types the library does not know.  `s` are the packets that have come in completely, `r` the
beginning of the next.  The receiver does not panic, and for every `l` of interest it has received
exactly the messages whose last packet has come in, each as it was sent, in the order in which they
were sent. -/
theorem C81_interleaved (keep : Bool) (A : Lane → Prop)
    (S : Lane → List (UmpKind × List (BitVec 32))) (hS : ∀ l, A l → ∀ m ∈ S l, Sent l m) :
    ∃ f : Lane → List (List (BitVec 32)), (∀ l, A l → sendAll (S l) = .ok (f l)) ∧
      ∀ s f' r pieces h, Mixed A f s f' → (∀ x ∈ s, ¬ A (laneAt x) → Frame x) →
        (∀ x, Frame x → ¬ x <+: r) → pieces.flatten = s.flatten ++ r →
        ∃ out, skipLine keep h pieces = .ok out ∧
          ∀ l, A l → ∃ t u, S l = t ++ u ∧ Received keep l t (onLane l out) ∧ Left u (f' l) := by
  obtain ⟨f, h1, h2⟩ := C75_interleaved_exactly keep A S hS
  refine ⟨f, h1, fun s f' r pieces h M hs hr hp => ?_⟩
  obtain ⟨out, g1, g2⟩ := h2 s f' h M
  refine ⟨out, ?_, g2⟩
  have hF := mixed_frames M (fun l hl => sendAll_frames (h1 l hl)) hs
  obtain ⟨outs, ys, rest, k1, -, k3, k4, -⟩ := C81_packets pieces
  obtain ⟨rfl, rfl⟩ := k3.unique ⟨hp, hF, hr⟩
  unfold skipLine
  rw [k1, Res.ok_bind]
  show receive keep h (outs.flatten.map Prod.snd) = _
  rw [k4.receive keep hF, g1]

example : skipLine true (fun _ => [])
      [[0x30160102, 0x03040506, 0xB0000000], [0x30310700, 0x20903C7F, 0x30310700], [0, 0xE0000000]] =
    .ok [((3, 0, 0), .sysex .s7, [0x30160102, 0x03040506, 0x30310700, 0])] := by decide +kernel

/-- C81: the table of lengths is needed.  A reader that goes on by one word behind a refused packet
takes the payload of a packet it does not know for a packet: here a note that nobody sent. -/
theorem C81_skip_one_violation :
    Frame [0x80903C00, 0x20903C7F] ∧
    skipRead standardWords [[0x80903C00, 0x20903C7F, 0x10F80000]] [] =
      .ok ([[(.systemCommon, [0x10F80000])]], []) ∧
    skipRead (fun _ => 1) [[0x80903C00, 0x20903C7F, 0x10F80000]] [] =
      .ok ([[(.channelVoice1, [0x20903C7F]), (.systemCommon, [0x10F80000])]], []) :=
  ⟨⟨_, _, rfl, by decide +kernel⟩, by decide +kernel, by decide +kernel⟩

end Midi2
