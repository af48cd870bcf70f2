import Verif.Lemmas.Reassembly
import Verif.Lemmas.Pieces
import Verif.Spec.Link

/-!
# Lemmas for C78
-/

namespace Midi2.Rx

/-- The receiver goes on from where it is. -/
theorem receive_split (keep : Bool) : ∀ (s : List (Buf .ump)) (h : Lane → Buf .ump), ∃ g h',
    (∀ rest, receive keep h (s ++ rest) = receive keep h' rest >>= fun gs => .ok (g ++ gs)) ∧
      ∀ y ∈ g, ∃ x ∈ s, y.1 = laneAt x
  | [], h => ⟨[], h, fun rest => by
      rw [List.nil_append]
      cases receive keep h rest <;> rfl, fun y hy => nomatch hy⟩
  | x :: s, h => by
    obtain ⟨g, b, -, h2, h3⟩ := step_eq keep h x
    obtain ⟨gs, h', k1, k2⟩ := receive_split keep s (put h (laneAt x) b)
    refine ⟨g ++ gs, h', fun rest => ?_, fun y hy => ?_⟩
    · rw [List.cons_append]
      show (step keep h x >>= fun y => receive keep y.2 (s ++ rest) >>= fun gs => pure (y.1 ++ gs)) = _
      rw [h2, Res.ok_bind, k1]
      cases receive keep h' rest with
      | ok z => show Res.ok (g ++ (gs ++ z)) = .ok (g ++ gs ++ z); rw [List.append_assoc]
      | err e => rfl
      | panic => rfl
    · rcases List.mem_append.mp hy with hy | hy
      · exact ⟨x, List.mem_cons_self, h3 y hy⟩
      · obtain ⟨x', m1, m2⟩ := k2 y hy
        exact ⟨x', List.mem_cons_of_mem _ m1, m2⟩

theorem receive_own {keep : Bool} {l : Lane} {s : List (Buf .ump)} (hs : ∀ x ∈ s, laneAt x = l)
    {h : Lane → Buf .ump} {g : List Got} (hg : ∀ y ∈ g, ∃ x ∈ s, y.1 = laneAt x)
    (hr : receive keep h s = .ok g) : receive1 keep l (h l) s = .ok g := by
  have := receive_lane keep l s h g hr
  rw [List.filter_eq_self.mpr fun x hx => by simpa using hs x hx,
    List.filter_eq_self.mpr fun y hy => by
      obtain ⟨x, hx, e⟩ := hg y hy
      simpa [hs x hx] using e] at this
  exact this

/-- All packets of a message. -/
theorem Parts.line {l : Lane} {m : UmpKind × Buf .ump} {kind : PacketKind} {xs : List (Buf .ump)}
    (P : Parts l m kind xs) (h : Lane → Buf .ump) : ∃ h', ∀ rest, Rx.receive true h (xs ++ rest) =
      Rx.receive true h' rest >>= fun gs => .ok ((l, m.1, xs.flatten) :: gs) := by
  obtain ⟨g, h', k1, k2⟩ := receive_split true xs h
  have e := k1 []
  rw [List.append_nil, show Rx.receive true h' [] = .ok [] from rfl, Res.ok_bind, List.append_nil] at e
  have e1 := receive_own P.lane k2 e
  have e2 := (P.receive (keep := true) (h l) []).1 (fun e => nomatch e.1)
  rw [List.append_nil, e1] at e2
  cases Res.ok.inj e2
  exact ⟨h', k1⟩

/-- Some packets of a message, but not the last. -/
theorem Parts.line_front {l : Lane} {m : UmpKind × Buf .ump} {kind : PacketKind}
    {xs : List (Buf .ump)} (P : Parts l m kind xs) (h : Lane → Buf .ump) {d r : List (Buf .ump)}
    (hx : xs = d ++ r) (hr : r ≠ []) : Rx.receive true h d = .ok [] := by
  obtain ⟨g, h', k1, k2⟩ := receive_split true d h
  have e := k1 []
  rw [List.append_nil, show Rx.receive true h' [] = .ok [] from rfl, Res.ok_bind, List.append_nil] at e
  have e1 := receive_own (fun x hx' => P.lane x (by rw [hx]; exact List.mem_append_left _ hx')) k2 e
  have e2 := P.receive_front (keep := true) (h l) hx hr
  rw [e1] at e2
  cases Res.ok.inj e2
  exact e

theorem Parts.inPackets {l : Lane} {m : UmpKind × Buf .ump} {kind : PacketKind}
    {xs : List (Buf .ump)} (P : Parts l m kind xs) : inPackets m = (m.1, xs.flatten) := by
  unfold Rx.inPackets
  split
  · rename_i e; rw [P.filled e]
  · rename_i e; rw [P.words e]

/-- A whole message. -/
def Whole (m : UmpKind × Buf .ump) : Prop :=
  UmpMessage.tryFrom m.2 = .ok m ∧ UmpMessage.data m = .ok m.2

theorem Whole.parts {m : UmpKind × Buf .ump} (h : Whole m) :
    ∃ kind xs, Parts (laneAt m.2) m kind xs := parts_of_sent ⟨h.1, h.2, rfl⟩

theorem sendAll_parts {l : Lane} {m : UmpKind × Buf .ump} {kind : PacketKind}
    {xs : List (Buf .ump)} (P : Parts l m kind xs) (S : List (UmpKind × Buf .ump)) :
    sendAll (m :: S) = sendAll S >>= fun q => .ok (xs ++ q) := by
  show (send m >>= fun ps => sendAll S >>= fun qs => pure (ps ++ qs)) = _
  rw [P.send]; rfl

/-- The packets that have come in, and the messages put together from them. -/
theorem line_all : ∀ (ms : List (UmpKind × Buf .ump)), (∀ m ∈ ms, Whole m) →
    ∃ all : List (PacketKind × Buf .ump), sendAll ms = .ok (all.map Prod.snd) ∧
      (∀ x ∈ all, Packet.tryFrom x.2 = .ok x) ∧
      ∀ s r h, all.map Prod.snd = s ++ r → ∃ t u p o, ms = t ++ u ∧ sendAll t = .ok p ∧ s = p ++ o ∧
        receive true h s >>= (fun got => .ok (got.map Prod.snd)) = .ok (t.map inPackets) ∧
        ∀ m u', u = m :: u' → ∃ r₁, r₁ ≠ [] ∧ r₁ <+: r ∧ sendAll (t ++ [m]) = .ok (s ++ r₁)
  | [], _ => ⟨[], rfl, (fun x hx => nomatch hx), fun s r h e => by
      obtain ⟨rfl, rfl⟩ := List.append_eq_nil_iff.mp e.symm
      exact ⟨[], [], [], [], rfl, rfl, rfl, rfl, (fun m u' e => nomatch e)⟩⟩
  | m :: ms, hms => by
    obtain ⟨kind, xs, P⟩ := (hms m List.mem_cons_self).parts
    obtain ⟨all, h1, h2, h3⟩ := line_all ms fun m hm => hms m (List.mem_cons_of_mem _ hm)
    have hmap : (xs.map fun x => (kind, x)).map Prod.snd = xs := by
      rw [List.map_map]; exact List.map_id' xs
    refine ⟨xs.map (fun x => (kind, x)) ++ all, ?_, ?_, ?_⟩
    · rw [sendAll_parts P, h1, Res.ok_bind, List.map_append, hmap]
    · intro x hx
      rcases List.mem_append.mp hx with hx | hx
      · obtain ⟨y, hy, rfl⟩ := List.mem_map.mp hx
        exact P.packet y hy
      · exact h2 x hx
    · intro s r h e
      rw [List.map_append, hmap] at e
      have full : ∀ a, s = xs ++ a → all.map Prod.snd = a ++ r → ∃ t u p o, m :: ms = t ++ u ∧
          sendAll t = .ok p ∧ s = p ++ o ∧
          receive true h s >>= (fun got => .ok (got.map Prod.snd)) = .ok (t.map inPackets) ∧
          ∀ m u', u = m :: u' → ∃ r₁, r₁ ≠ [] ∧ r₁ <+: r ∧ sendAll (t ++ [m]) = .ok (s ++ r₁) := by
        intro a e1 e2
        obtain ⟨h', hr⟩ := P.line h
        obtain ⟨t, u, p, o, q1, q2, q3, q4, q5⟩ := h3 a r h' e2
        refine ⟨m :: t, u, xs ++ p, o, by rw [q1]; rfl, by rw [sendAll_parts P, q2]; rfl,
          by rw [e1, q3, List.append_assoc], ?_, fun m' u' hu => ?_⟩
        · rw [e1, hr a]
          cases hg : receive true h' a with
          | ok g =>
            rw [hg] at q4
            have q4 := Res.ok.inj q4
            show Res.ok ((m.1, xs.flatten) :: g.map Prod.snd) = .ok (inPackets m :: t.map inPackets)
            rw [q4, P.inPackets]
          | err e => rw [hg] at q4; cases q4
          | panic => rw [hg] at q4; cases q4
        · obtain ⟨r₁, w1, w2, w3⟩ := q5 m' u' hu
          refine ⟨r₁, w1, w2, ?_⟩
          rw [List.cons_append, sendAll_parts P, w3, Res.ok_bind, e1, List.append_assoc]
      rcases List.append_eq_append_iff.mp e with ⟨a, e1, e2⟩ | ⟨a, e1, e2⟩
      · exact full a e1 e2
      · by_cases ha : a = []
        · subst ha
          rw [List.append_nil] at e1
          exact full [] (by rw [e1, List.append_nil]) (by rw [List.nil_append] at e2 ⊢; exact e2.symm)
        · refine ⟨[], m :: ms, [], s, rfl, rfl, rfl, ?_, fun m' u' hu => ?_⟩
          · rw [P.line_front h e1 ha]; rfl
          · cases hu
            refine ⟨a, ha, by rw [e2]; exact List.prefix_append _ _, ?_⟩
            rw [List.nil_append, sendAll_parts P, ← e1]
            show Res.ok (xs ++ []) = _
            rw [List.append_nil]

theorem packet_whole {x : PacketKind × Buf .ump} (h : Packet.tryFrom x.2 = .ok x) :
    PacketKind.Whole x := by
  obtain ⟨k, b⟩ := x
  have hA := (accepted_packet (packet_of h)).1
  have e := (C34_packet_accepts_exactly b).1 k hA
  rw [h] at e
  refine ⟨hA, ?_⟩
  have := congrArg (List.length ∘ Prod.snd) (Res.ok.inj e)
  simp only [Function.comp_apply, List.length_append, List.length_take, List.length_replicate] at this
  have hl : k.least ≤ b.length := hA.len
  show b.length = k.words
  omega

/-- The packets of the beginning of a stream of packets. -/
theorem packetsOf_front : ∀ (all : List (PacketKind × Buf .ump)), (∀ x ∈ all, PacketKind.Whole x) →
    ∀ w : Buf .ump, w <+: (all.map Prod.snd).flatten → ∃ s r rest, all = s ++ r ∧ PacketsOf w s rest ∧
      (∀ r₁, r₁ ≠ [] → r₁ <+: r → rest.length < (r₁.map Prod.snd).flatten.length) ∧
      (r = [] → rest = []) ∧ ∀ x r', r = x :: r' → rest <+: x.2
  | [], _, w, hw => by
    have : w = [] := List.prefix_nil.mp hw
    subst this
    exact ⟨[], [], [], rfl, .nil, fun r₁ h0 h1 => absurd (List.prefix_nil.mp h1) h0, fun _ => rfl,
      fun x r' e => nomatch e⟩
  | x :: all, hall, w, hw => by
    have W := hall x List.mem_cons_self
    rw [List.map_cons, List.flatten_cons] at hw
    by_cases hx : x.2 <+: w
    · obtain ⟨c, rfl⟩ := hx
      obtain ⟨s, r, rest, h1, h2, h3, h4, h5⟩ := packetsOf_front all
        (fun y hy => hall y (List.mem_cons_of_mem _ hy)) c ((List.prefix_append_right_inj _).mp hw)
      refine ⟨x :: s, r, rest, by rw [h1]; rfl, ⟨?_, ?_, h2.stop⟩, h3, h4, h5⟩
      · rw [List.map_cons, List.flatten_cons, List.append_assoc, ← h2.words]
      · intro p hp
        rcases List.mem_cons.mp hp with rfl | hp
        · exact W
        · exact h2.whole p hp
    · have hlt : w.length < x.2.length := by
        refine Nat.lt_of_not_le fun hle => hx ?_
        exact List.prefix_of_prefix_length_le (List.prefix_append _ _) hw hle
      have hwx : w <+: x.2 := List.prefix_of_prefix_length_le hw (List.prefix_append _ _) (Nat.le_of_lt hlt)
      refine ⟨[], x :: all, w, rfl, ⟨rfl, (fun p hp => nomatch hp), fun p Q hp => ?_⟩, fun r₁ h0 h1 => ?_,
        (fun e => nomatch e), fun y r' e => by cases e; exact hwx⟩
      · obtain ⟨c, hc⟩ := hp.trans hwx
        have e1 := Q.tryFrom c
        rw [hc] at e1
        have e2 := W.tryFrom []
        rw [List.append_nil, e1] at e2
        cases Res.ok.inj e2
        have := hp.length_le
        omega
      · cases r₁ with
        | nil => exact absurd rfl h0
        | cons y r₁ =>
          obtain ⟨c, hc⟩ := h1
          obtain ⟨rfl, -⟩ := List.cons.inj hc
          rw [List.map_cons, List.flatten_cons, List.length_append]
          omega

end Midi2.Rx
