import Verif.Spec.Built
import Verif.Props.EndToEnd
import Verif.Props.Link
import Verif.Props.Reassembly
import Verif.Lemmas.Gateway

/-!
# C80: what applications build is what the far side of a line reads
-/

namespace Midi2

open Rx Gateway

/-- A build makes a whole message with the values set. -/
theorem Built.made (dbg : Bool) (b : Built) (hb : b.Legal) :
    ∃ m, b.make dbg = .ok m ∧ (UmpMessage.tryFrom m.2 = .ok m ∧ UmpMessage.data m = .ok m.2) ∧
      b.Reads m ∧ inPackets m = m := by
  match b, hb with
  | .fixed d calls, ⟨hd, hn, hc⟩ =>
    obtain ⟨b, x, h0, h1, h2, h3, h4⟩ := built_fixed hd hn calls hc
    refine ⟨(.fixed d, x), ?_, ⟨h3, h0⟩, ⟨rfl, h4⟩, if_neg fun e => ?_⟩
    · show ((d.newVec .ump >>= runSetters .ump calls) >>= _) = _
      rw [h1, Res.ok_bind, h2]; rfl
    · cases e; exact hn rfl
  | .sysex k cs, hr =>
    obtain ⟨b, x, h0, h1, h2, h3, h4, h5⟩ := built_sysex k dbg cs hr
    refine ⟨(.sysex k, x), ?_, ⟨h3, h0⟩, ⟨rfl, h4, h5⟩, if_neg fun e => nomatch e⟩
    show ((k.newVec >>= SxCall.execAll dbg cs) >>= _) = _
    rw [h1, Res.ok_bind, h2]; rfl
  | .flexText t os, ⟨⟨h, ht⟩, hm, hs, hn⟩ =>
    obtain ⟨b, x, h0, h1, h2, h3, h4⟩ := built_flex_text ht hm os hs hn
    refine ⟨(.flexText t, x), ?_, ⟨h3, h0⟩, ⟨rfl, h4⟩, if_neg fun e => nomatch e⟩
    show ((t.newVec >>= fun b => FlexText.history b os) >>= _) = _
    rw [h1, Res.ok_bind, h2]; rfl
  | .streamText t os, ⟨ht, hos, hs, hb⟩ =>
    obtain ⟨b, x, h0, h1, h2, h3, h4⟩ := built_stream_text t ht os hos hs hb
    refine ⟨(.streamText t, x), ?_, ⟨h3, h0⟩, ⟨rfl, h4⟩, if_neg fun e => nomatch e⟩
    show ((t.newVec >>= fun b => t.history b os) >>= _) = _
    rw [h1, Res.ok_bind, h2]; rfl
  | .query v cs, ⟨hv, hc⟩ =>
    have hv : ∃ n, ciSize v = some n := by rcases hv with rfl | rfl <;> exact ⟨_, rfl⟩
    obtain ⟨n, hv⟩ := hv
    obtain ⟨b, x, u, h0, -, h1, h2, -, h3, h4, h5, h6, h7⟩ := built_query hv dbg cs hc
    refine ⟨(.sysex .s7, u), ?_, ⟨h6, h0⟩, ⟨rfl, x, h7, h3, h4⟩, if_neg fun e => nomatch e⟩
    show ((Ci.newVec v >>= CiCall.run cs) >>= _) = _
    rw [h1, Res.ok_bind, h2, Res.ok_bind, h5]; rfl

theorem Gateway.Pairs.front {α β : Type} {R : α → β → Prop} : ∀ {as : List α} {t u : List β},
    Pairs R as (t ++ u) → Pairs R (as.take t.length) t
  | _, [], _, _ => by rw [List.length_nil, List.take_zero]; exact .nil
  | _, _ :: _, _, .cons h hs => .cons h (Pairs.front hs)

theorem Gateway.Pairs.all_right {α β : Type} {R S : α → β → Prop} {Q : β → Prop} {as : List α}
    {bs : List β} (h : Pairs (fun a b => S a b ∧ R a b ∧ Q b) as bs) :
    (∀ b ∈ bs, Q b) ∧ Pairs R as bs := by
  induction h with
  | nil => exact ⟨fun b hb => (nomatch hb), .nil⟩
  | cons h1 _ ih =>
    refine ⟨fun b hb => ?_, .cons h1.2.1 ih.2⟩
    rcases List.mem_cons.mp hb with rfl | hb
    · exact h1.2.2
    · exact ih.1 b hb

/-- All the messages made. -/
theorem Built.made_all (dbg : Bool) (bs : List Built) (hbs : ∀ b ∈ bs, b.Legal) :
    ∃ ms, each (Built.make dbg) bs = .ok ms ∧ Pairs Built.Reads bs ms ∧
      ∀ m ∈ ms, (UmpMessage.tryFrom m.2 = .ok m ∧ UmpMessage.data m = .ok m.2) ∧ inPackets m = m := by
  obtain ⟨ms, h1, h2⟩ := each_exists (f := Built.make dbg) (as := bs)
    (P := fun b m => True ∧ b.Reads m ∧
      (UmpMessage.tryFrom m.2 = .ok m ∧ UmpMessage.data m = .ok m.2) ∧ inPackets m = m)
    fun b hb => by
      obtain ⟨m, a1, a2, a3, a4⟩ := Built.made dbg b (hbs b hb)
      exact ⟨m, a1, trivial, a3, a2, a4⟩
  obtain ⟨h3, h4⟩ := Pairs.all_right (S := fun _ _ => True)
    (Q := fun m => (UmpMessage.tryFrom m.2 = .ok m ∧ UmpMessage.data m = .ok m.2) ∧ inPackets m = m) h2
  exact ⟨ms, h1, h4, h3⟩

/-- C80: messages of any types are built by any histories of calls and sent over a line that cuts
their words anywhere.  After every piece the receiver, whatever it had in its buffers, has exactly
the messages that have arrived completely, in order, and reads from each what was last set. -/
theorem C80_line (dbg : Bool) (bs : List Built) (hbs : ∀ b ∈ bs, b.Legal) :
    ∃ ms ps, each (Built.make dbg) bs = .ok ms ∧ sendAll ms = .ok ps ∧
      ∀ pieces h, pieces.flatten <+: ps.flatten → ∃ got, line true h pieces = .ok got ∧
        Arrived ms pieces.flatten got ∧ Pairs Built.Reads (bs.take got.length) got := by
  obtain ⟨ms, h1, h2, h3⟩ := Built.made_all dbg bs hbs
  obtain ⟨ps, p1, p2⟩ := C78_line ms fun m hm => (h3 m hm).1
  refine ⟨ms, ps, h1, p1, fun pieces h hp => ?_⟩
  obtain ⟨t, A, e⟩ := p2 pieces h hp
  obtain ⟨u, p, a1, -⟩ := id A
  have ht : t.map inPackets = t := by
    conv => rhs; rw [← List.map_id t]
    exact List.map_congr_left fun m hm => (h3 m (by rw [a1]; exact List.mem_append_left _ hm)).2
  rw [ht] at e
  rw [a1] at h2
  exact ⟨t, e, A, h2.front⟩

/-- C80: once all the words have come in, every message is there. -/
theorem C80_line_all (dbg : Bool) (bs : List Built) (hbs : ∀ b ∈ bs, b.Legal) :
    ∃ ms ps, each (Built.make dbg) bs = .ok ms ∧ sendAll ms = .ok ps ∧
      ∀ pieces h, pieces.flatten = ps.flatten → ∃ got, line true h pieces = .ok got ∧
        Pairs Built.Reads bs got := by
  obtain ⟨ms, h1, h2, h3⟩ := Built.made_all dbg bs hbs
  obtain ⟨ps, p1, p2⟩ := C78_line_all ms fun m hm => (h3 m hm).1
  refine ⟨ms, ps, h1, p1, fun pieces h hp => ⟨_, p2 pieces h hp, ?_⟩⟩
  rw [List.map_congr_left (g := id) fun m hm => (h3 m hm).2, List.map_id]
  exact h2

theorem Gateway.Pairs.via {α β γ : Type} {R : α → β → Prop} {S : α → γ → Prop} {f : γ → Option β}
    (hf : ∀ a b c, R a b → f c = some b → S a c) : ∀ {as : List α} {bs : List β} {cs : List γ},
    Pairs R as bs → cs.map f = bs.map some → Pairs S as cs
  | _, _, [], .nil, _ => .nil
  | _, _, _ :: _, .nil, e => nomatch e
  | _, _, [], .cons _ _, e => nomatch e
  | _, _, _ :: _, .cons h hs, e => by
    rw [List.map_cons, List.map_cons, List.cons.injEq] at e
    exact .cons (hf _ _ _ h e.1) (Pairs.via hf hs e.2)

/-- C80, several applications whose packets a transport mixes, each on its own message type, group
and stream id: once all packets have come in, the receiver has what each of them built, in the order
in which it was sent, and reads from each message what was last set. -/
theorem C80_interleaved (dbg : Bool) (A : Lane → Prop) (S : Lane → List Built)
    (hS : ∀ l, A l → ∀ b ∈ S l, b.Legal ∧ ∀ m, b.make dbg = .ok m → laneAt m.2 = l) :
    ∃ f : Lane → List (List (BitVec 32)),
      (∀ l, A l → ∃ ms, each (Built.make dbg) (S l) = .ok ms ∧ sendAll ms = .ok (f l)) ∧
      ∀ s h f', Mixed A f s f' → (∀ l, A l → f' l = []) → ∃ out, receive true h s = .ok out ∧
        ∀ l, A l → Pairs (fun b g => ∃ x, UmpMessage.data g.2 = .ok x ∧ b.Reads (g.2.1, x))
          (S l) (onLane l out) := by
  have hM : ∀ l, ∃ ms, A l → each (Built.make dbg) (S l) = .ok ms ∧ Pairs Built.Reads (S l) ms ∧
      ∀ m ∈ ms, Sent l m := by
    intro l
    by_cases hA : A l
    · obtain ⟨ms, h1, h2⟩ := each_exists (f := Built.make dbg) (as := S l)
        (P := fun b m => True ∧ b.Reads m ∧ Sent l m) fun b hb => by
          obtain ⟨m, a1, a2, a3, -⟩ := Built.made dbg b (hS l hA b hb).1
          exact ⟨m, a1, trivial, a3, a2.1, a2.2, (hS l hA b hb).2 m a1⟩
      obtain ⟨h3, h4⟩ := Pairs.all_right (S := fun _ _ => True) (Q := Sent l) h2
      exact ⟨ms, fun _ => ⟨h1, h4, h3⟩⟩
    · exact ⟨[], fun h => absurd h hA⟩
  let M := fun l => Classical.choose (hM l)
  have hM : ∀ l, A l → each (Built.make dbg) (S l) = .ok (M l) ∧ Pairs Built.Reads (S l) (M l) ∧
      ∀ m ∈ M l, Sent l m := fun l => Classical.choose_spec (hM l)
  obtain ⟨f, h1, h2⟩ := C75_interleaved A M fun l hA => (hM l hA).2.2
  refine ⟨f, fun l hA => ⟨M l, (hM l hA).1, h1 l hA⟩, fun s h f' mix hf => ?_⟩
  obtain ⟨out, ho, hr⟩ := h2 s h f' mix hf
  refine ⟨out, ho, fun l hA => ?_⟩
  refine Pairs.via (f := fun g : Got => match UmpMessage.data g.2 with
      | .ok x => some (g.2.1, x)
      | _ => none) (fun b m g hb hg => ?_) (hM l hA).2.1 ?_
  · cases e : UmpMessage.data g.2 with
    | ok x =>
      rw [e] at hg
      exact ⟨x, rfl, by rw [Option.some.inj hg]; exact hb⟩
    | err _ => rw [e] at hg; cases hg
    | panic => rw [e] at hg; cases hg
  · have := congrArg (List.map fun p : UmpKind × Res (List (BitVec 32)) => match p.2 with
      | .ok x => some (p.1, x)
      | _ => none) (hr l hA)
    rw [List.map_map, List.map_map] at this
    exact this

/-- A note on, a `Sysex8` with two bytes, a text of two packets, a name and a discovery query. -/
def sampleBuilt : List Built :=
  [.fixed Msg.cv2NoteOn [⟨"velocity", .schema .u16 ⟨0, 0xFFFF0000, 0, 0⟩, (0xABCD : BitVec 16)⟩],
    .sysex .s8 [.appendByte (7 : BitVec 8), .setGroup 2, .appendByte (8 : BitVec 8)],
    .flexText ⟨"Lyrics", 2, 1⟩ [.setText "abcdefghijklm", .setGroup 3],
    .streamText .functionBlockName [.setText "bass", .setBlock 5],
    .query 1 [⟨.source, (0x0ABCDEF : BitVec 28)⟩]]

theorem sampleBuilt_legal : ∀ b ∈ sampleBuilt, b.Legal := by
  intro b hb
  simp only [sampleBuilt, List.mem_cons, List.not_mem_nil, or_false] at hb
  rcases hb with rfl | rfl | rfl | rfl | rfl
  · refine ⟨by simp [Msg.all, Msg.cv2All], by decide, fun c hc => ?_⟩
    simp only [List.mem_cons, List.not_mem_nil, or_false] at hc
    rcases hc with rfl
    exact ⟨by simp [Msg.cv2NoteOn], by decide, rfl⟩
  · simp only [Built.Legal, SxCall.AllInRange]
    trivial
  · exact ⟨⟨⟨13, 16, 16, 0x0201⟩, by decide +kernel⟩, by decide +kernel,
      by unfold NulFree; decide +kernel, by decide +kernel⟩
  · exact ⟨by simp [StreamText.all], .inl rfl, by unfold NulFree; decide +kernel,
      fun _ => by decide +kernel⟩
  · exact ⟨.inl rfl, by decide⟩

-- The words of the five messages, cut in the middle of a packet.
example : ∃ ms ps, each (Built.make true) sampleBuilt = .ok ms ∧ sendAll ms = .ok ps ∧
    ps.flatten.length = 2 + 4 + 8 + 4 + 10 ∧
    ∃ got, line true (fun _ => [7]) [ps.flatten.take 1, ps.flatten.drop 1] = .ok got ∧
      Pairs Built.Reads sampleBuilt got := by
  obtain ⟨ms, ps, h1, h2, h3⟩ := C80_line_all true sampleBuilt sampleBuilt_legal
  refine ⟨ms, ps, h1, h2, ?_, h3 _ _ (by
    rw [List.flatten_cons, List.flatten_cons, List.flatten_nil, List.append_nil,
      List.take_append_drop])⟩
  have : (each (Built.make true) sampleBuilt >>= sendAll >>= fun ps => .ok ps.flatten.length) =
      Res.ok 28 := by decide +kernel
  rw [h1, Res.ok_bind, h2, Res.ok_bind] at this
  exact Res.ok.inj this

-- After twelve words: the note, the system exclusive message and a part of the text.
example : ∃ got, (each (Built.make true) sampleBuilt >>= sendAll >>= fun ps =>
      line true (fun _ => [7]) [ps.flatten.take 3, (ps.flatten.take 12).drop 3]) = .ok got ∧
    got.length = 2 :=
  ⟨[(.fixed Msg.cv2NoteOn, [0x40900000, 0xABCD0000]), (.sysex .s8, [0x52030007, 0x08000000, 0, 0])],
    by decide +kernel, rfl⟩

-- Two applications, one with a text in group 3 and one with a name.
example : ∀ l, (l = (13, 3, 0) ∨ l = (15, 0, 0)) → ∀ b ∈
      (fun l : Lane => if l = (13, 3, 0) then
        [Built.flexText ⟨"Lyrics", 2, 1⟩ [.setText "abcdefghijklm", .setGroup 3]]
      else [.streamText .functionBlockName [.setText "bass", .setBlock 5]]) l,
    b.Legal ∧ ∀ m, b.make true = .ok m → laneAt m.2 = l := by
  rintro l (rfl | rfl) b hb
  · have hb : b ∈ [Built.flexText ⟨"Lyrics", 2, 1⟩ [.setText "abcdefghijklm", .setGroup 3]] := hb
    cases List.mem_singleton.mp hb
    refine ⟨sampleBuilt_legal _ (by simp [sampleBuilt]), fun m hm => ?_⟩
    have : (Built.make true (.flexText ⟨"Lyrics", 2, 1⟩ [.setText "abcdefghijklm", .setGroup 3]) >>=
      fun m => .ok (laneAt m.2)) = Res.ok (13, 3, 0) := by decide +kernel
    rw [hm] at this
    exact Res.ok.inj this
  · have hb : b ∈ [Built.streamText .functionBlockName [.setText "bass", .setBlock 5]] := hb
    cases List.mem_singleton.mp hb
    refine ⟨sampleBuilt_legal _ (by simp [sampleBuilt]), fun m hm => ?_⟩
    have : (Built.make true (.streamText .functionBlockName [.setText "bass", .setBlock 5]) >>=
      fun m => .ok (laneAt m.2)) = Res.ok (15, 0, 0) := by decide +kernel
    rw [hm] at this
    exact Res.ok.inj this

end Midi2
