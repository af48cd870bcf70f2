import Verif.Lemmas.Mapper
import Verif.Props.Router

/-!
# C84: channels can be mapped packet by packet
-/

namespace Midi2

open Rx

/-- C84: for every whole message and every map of channels, calling `set_channel` on the message, if
it is a channel voice message, and on its packets send the same words.  The message stays whole, of
its variant and on its lane. -/
theorem C84_message (l : Lane) (m : UmpKind × List (BitVec 32)) (h : Sent l m)
    (f : BitVec 4 → BitVec 4 → BitVec 4) :
    ∃ b' ps ps', rechannel f m = .ok (m.1, b') ∧ Sent l (m.1, b') ∧
      send m = .ok ps ∧ send (m.1, b') = .ok ps' ∧ mapChannels f ps = .ok ps' := by
  obtain ⟨b', h1, h3, ps, h4, h5, h6⟩ := rechannel_sent f h
  exact ⟨b', ps, _, h1, h3, h4, h5, mapChannels_packets _ fun x hx => (h6 x hx).2⟩

-- C84: a note on of group 10 goes from channel 7 to channel 9.
example : Sent (4, 10, 0) (.fixed Msg.cv2NoteOn, [0x4A973C00, 0x80000000]) ∧
    rechannel (fun _ c => c + 2) (.fixed Msg.cv2NoteOn, [0x4A973C00, 0x80000000]) =
      .ok (.fixed Msg.cv2NoteOn, [0x4A993C00, 0x80000000]) ∧
    mapChannels (fun _ c => c + 2) [[0x4A973C00, 0x80000000]] = .ok [[0x4A993C00, 0x80000000]] :=
  ⟨⟨by decide +kernel, by decide +kernel, by decide +kernel⟩, by decide +kernel, by decide +kernel⟩

/-- C84: a channel voice message has afterwards the channel that the map gives for its group and
channel, and nothing else of it has changed; other messages have not changed at all. -/
theorem C84_channel (f : BitVec 4 → BitVec 4 → BitVec 4) (d : MsgDesc) (b b' : List (BitVec 32))
    (k : UmpKind) (h : UmpMessage.tryFrom b = .ok (.fixed d, b))
    (hr : rechannel f (.fixed d, b) = .ok (k, b')) :
    k = .fixed d ∧
    (d ∈ Msg.cv1All ∨ d ∈ Msg.cv2All → ∃ g c : BitVec 4, fieldAt b 0 4 4 = some g.toNat ∧
      fieldAt b 0 12 4 = some c.toNat ∧ fieldAt b' 0 12 4 = some (f g c).toNat ∧
      ChangedOnly b b' fun i p => i = 0 ∧ 12 ≤ p ∧ p < 16) ∧
    (d ∉ Msg.cv1All ∧ d ∉ Msg.cv2All → b' = b) := by
  obtain ⟨-, hk, hdr, he, ho⟩ := C10_ump_variant b b _ h
  have hk : d.tryFrom .ump b = .ok b := hk
  obtain ⟨v1, v2, v3⟩ := voice_table _ he d rfl
  rw [rechannel_fixed] at hr
  by_cases h1 : d ∈ Msg.cv1All
  · rw [if_pos h1] at hr
    have t2 := v1 h1
    obtain ⟨hp, hda⟩ := fixed_group _ he (by rw [t2]; decide) (by rw [t2]; decide) d rfl
    obtain ⟨hg, -, -, hsz, -⟩ := channel1_props d h1
    have hb : 1 ≤ b.length := Nat.le_trans hsz ((tryFrom_iff d .ump b).mp hk).1
    obtain ⟨g, q1, q2⟩ := group_read b hb
    obtain ⟨c, r1, r2⟩ := channel1_read b hb
    obtain ⟨b₁, a1, a2, a3, a4⟩ := set_accepted hda hg rfl b hk (f g c) rfl
      (bit := fun i p => i = 0 ∧ 12 ≤ p ∧ p < 16) (mask_bits (.inr ⟨rfl, rfl⟩))
    obtain ⟨c', f1, f2⟩ := channel1_read b₁ (by rw [a4.1]; exact hb)
    rw [a3] at f1
    cases f1
    have e1 : FixedEnum.group (d, b) = .ok g := by unfold FixedEnum.group; rw [fixedEnum_read hp]; exact q1
    have e2 : ChannelVoice1.channel .ump (d, b) = .ok c := by
      unfold ChannelVoice1.channel; rw [fixedEnum_read hg]; exact r1
    have e3 : ChannelVoice1.setChannel .ump (f g c) (d, b) = .ok (d, b₁) := fixedEnum_write (m := .ump) hg b b₁ _ a1
    rw [e1, e2] at hr
    have hr : (ChannelVoice1.setChannel .ump (f g c) (d, b) >>= fun y => pure (asUmp y)) = .ok (k, b') := hr
    rw [e3] at hr
    cases hr
    exact ⟨rfl, fun _ => ⟨g, c, q2, r2, f2, a4⟩, fun n => absurd h1 n.1⟩
  · rw [if_neg h1] at hr
    by_cases h2 : d ∈ Msg.cv2All
    · rw [if_pos h2] at hr
      have t4 := (v2 h2).2
      obtain ⟨hp, hda⟩ := fixed_group _ he (by rw [t4]; decide) (by rw [t4]; decide) d rfl
      obtain ⟨hg, -, hsz⟩ := channel2_props d h2
      have hb : 1 ≤ b.length := Nat.le_trans hsz ((tryFrom_iff d .ump b).mp hk).1
      obtain ⟨g, q1, q2⟩ := group_read b hb
      obtain ⟨c, r1, r2⟩ := channel2_read b hb
      obtain ⟨b₁, a1, a2, a3, a4⟩ := set_accepted hda hg rfl b hk (f g c) rfl
        (bit := fun i p => i = 0 ∧ 12 ≤ p ∧ p < 16) (mask_bits (.inr ⟨rfl, rfl⟩))
      obtain ⟨c', f1, f2⟩ := channel2_read b₁ (by rw [a4.1]; exact hb)
      rw [a3] at f1
      cases f1
      have e1 : FixedEnum.group (d, b) = .ok g := by
        unfold FixedEnum.group; rw [fixedEnum_read hp]; exact q1
      have e2 : ChannelVoice2.channel (d, b) = .ok c := by
        unfold ChannelVoice2.channel; rw [fixedEnum_read hg]; exact r1
      have e3 : ChannelVoice2.setChannel (f g c) (d, b) = .ok (d, b₁) := fixedEnum_write (m := .ump) hg b b₁ _ a1
      rw [e1, e2] at hr
      have hr : (ChannelVoice2.setChannel (f g c) (d, b) >>= fun y => pure (asUmp y)) = .ok (k, b') := hr
      rw [e3] at hr
      cases hr
      exact ⟨rfl, fun _ => ⟨g, c, q2, r2, f2, a4⟩, fun n => absurd h2 n.2⟩
    · rw [if_neg h2] at hr
      cases hr
      exact ⟨rfl, fun n => (n.elim h1 h2).elim, fun _ => rfl⟩

example : UmpMessage.tryFrom [0x2A973C40] = .ok (.fixed Msg.cv1NoteOn, [0x2A973C40]) ∧
    rechannel (fun g _ => g) (.fixed Msg.cv1NoteOn, [0x2A973C40]) =
      .ok (.fixed Msg.cv1NoteOn, [0x2A9A3C40]) ∧ Msg.cv1NoteOn ∈ Msg.cv1All :=
  ⟨by decide +kernel, by decide +kernel, by decide +kernel⟩

/-- C84: the program takes anything off the line without a panic. -/
theorem C84_never_panics (f : BitVec 4 → BitVec 4 → BitVec 4) (s : List (List (BitVec 32))) :
    ∃ s', mapChannels f s = .ok s' := mapChannels_ok f s

example : mapChannels (fun _ _ => 0) [[0x2F954040], [], [0xE0000000], [0xF0000101],
      [0x30160102, 0x03040506, 7], [0x40953C00]] =
    .ok [[0x2F904040], [0xF0000101, 0, 0, 0], [0x30160102, 0x03040506], [0x40903C00, 0]] := by
  decide +kernel

/-- C84: behind a transport that mixes the packets of any senders with each other and with anything
else, and any map of channels, also one that merges them, the receiver gets of every sender exactly
what it gets of the same messages after `set_channel`. -/
theorem C84_mapper_exactly (keep : Bool) (f : BitVec 4 → BitVec 4 → BitVec 4)
    (A : Lane → Prop) (S : Lane → List (UmpKind × List (BitVec 32)))
    (hS : ∀ l, A l → ∀ m ∈ S l, Sent l m) (F F' : Lane → List (List (BitVec 32)))
    (hF : ∀ l, A l → sendAll (S l) = .ok (F l)) (s : List (List (BitVec 32))) (M : Mixed A F s F')
    (h : Lane → List (BitVec 32)) :
    ∃ s' out, mapChannels f s = .ok s' ∧ receive keep h s' = .ok out ∧
      ∀ l, A l → ∃ t u t' u' r', S l = t ++ u ∧ rechannels f t = .ok t' ∧ rechannels f u = .ok u' ∧
        Received keep l t' (onLane l out) ∧ mapChannels f (F' l) = .ok r' ∧ Left u' r' := by
  obtain ⟨s', hs'⟩ := mapChannels_ok f s
  obtain ⟨out, ho⟩ := receive_ok keep s' h
  refine ⟨s', out, hs', ho, fun l hA => ?_⟩
  have hsplit := mixed_filter M (fun l hA => sendAll_lane (hS l hA) (hF l hA)) l hA
  obtain ⟨S', a1, a2, a3, a4⟩ := rechannels_sent f (hS l hA) (hF l hA)
  have hfil := mapChannels_filter l hs'
  rw [mapChannels_packets f (fun x hx => a4 x (by rw [hsplit]; exact List.mem_append_left _ hx))] at hfil
  rw [hsplit, List.map_append, Res.ok.inj hfil] at a3
  obtain ⟨t', u', o, h1, h2, h3, h4⟩ := receive1_all (keep := keep) a2 a3 rfl (h l)
  cases Res.ok.inj (h2.symm.trans (receive_lane keep l s' h out ho))
  obtain ⟨t, u, c1, c2, c3⟩ := rechannels_split (hS l hA) a1 h1
  exact ⟨t, u, t', u', _, c1, c2, c3, h3,
    mapChannels_packets f (fun x hx => a4 x (by rw [hsplit]; exact List.mem_append_right _ hx)), h4⟩

-- C84: the senders of C75 and a note on that moves from channel 5 to channel 0.
example : ∃ s' out, mapChannels (fun _ _ => 0) [[0x30160102, 0x03040506], [0x20954040],
      [0x30310700, 0]] = .ok s' ∧ receive false (fun _ => []) s' = .ok out := by
  obtain ⟨s', out, h1, h2, -⟩ := C84_mapper_exactly false (fun _ _ => 0)
    (fun l => l = (3, 0, 0) ∨ l = (2, 0, 0))
    (fun l => if l = (2, 0, 0) then [(.fixed Msg.cv1NoteOn, [0x20954040])] else
      if l = (3, 0, 0) then sampleSenders l else [])
    (by
      rintro l (rfl | rfl) m hm
      · exact sampleSenders_sent (3, 0, 0) (.inl rfl) m hm
      · cases List.mem_singleton.mp (show m ∈ [(UmpKind.fixed Msg.cv1NoteOn, [(0x20954040 : BitVec 32)])] from hm)
        exact ⟨by decide +kernel, by decide +kernel, by decide +kernel⟩)
    (fun l => if l = (2, 0, 0) then [[0x20954040]] else samplePackets l) _
    (by rintro l (rfl | rfl) <;> decide +kernel) _
    (.next (3, 0, 0) [0x30160102, 0x03040506] [[0x30310700, 0]] (.inl rfl) rfl
      (.next (2, 0, 0) [0x20954040] [] (.inr rfl) rfl
        (.next (3, 0, 0) [0x30310700, 0] [] (.inl rfl) rfl .stop)))
    (fun _ => [])
  exact ⟨s', out, h1, h2⟩

/-- C84: once all packets have come through, a receiver that keeps what ends with
`UnexpectedEnd(Valid)` has every message of every sender, of the same variant, and with the `data()`
that `set_channel` of the message gives. -/
theorem C84_mapper (f : BitVec 4 → BitVec 4 → BitVec 4)
    (A : Lane → Prop) (S : Lane → List (UmpKind × List (BitVec 32)))
    (hS : ∀ l, A l → ∀ m ∈ S l, Sent l m) (F F' : Lane → List (List (BitVec 32)))
    (hF : ∀ l, A l → sendAll (S l) = .ok (F l)) (s : List (List (BitVec 32))) (M : Mixed A F s F')
    (hend : ∀ l, A l → F' l = []) (h : Lane → List (BitVec 32)) :
    ∃ s' out, mapChannels f s = .ok s' ∧ receive true h s' = .ok out ∧
      ∀ l, A l → ∃ S', rechannels f (S l) = .ok S' ∧
        (onLane l out).map (fun g => (g.2.1, UmpMessage.data g.2)) =
          S'.map fun m => (m.1, .ok m.2) := by
  obtain ⟨s', out, h1, h2, h3⟩ := C84_mapper_exactly true f A S hS F F' hF s M h
  refine ⟨s', out, h1, h2, fun l hA => ?_⟩
  obtain ⟨t, u, t', u', r', e1, e2, e3, e4, e5, e6⟩ := h3 l hA
  rw [hend l hA] at e5
  cases e5
  cases u' with
  | cons m u' =>
    obtain ⟨d, r₁, r₂, g1, -, -, g4⟩ := e6
    exact absurd (List.append_eq_nil_iff.mp g4.symm).1 g1
  | nil =>
    have hu : u = [] := by
      cases u with
      | nil => rfl
      | cons m u =>
        exfalso
        obtain ⟨b', k1, -⟩ := rechannel_sent f (hS l hA m (by rw [e1]; simp))
        have hu : ∀ x ∈ u, Sent l x := fun x hx => hS l hA x (by rw [e1]; simp [hx])
        obtain ⟨qs, hq⟩ := sendAll_ok hu
        obtain ⟨S', b1, -⟩ := rechannels_sent f hu hq
        exact absurd ((rechannels_cons k1 b1).symm.trans e3) (by simp)
    subst hu
    rw [List.append_nil] at e1
    exact ⟨t', by rw [e1]; exact e2, received_all e4 fun m _ c => absurd c.1 (by decide)⟩

end Midi2
