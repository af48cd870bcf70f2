import Verif.Lemmas.Follow

/-!
# C12, C48: exactly what may follow a message in the same slice

`Verif/Spec/Follow.lean` says which words the parsers tolerate behind a message.
-/

namespace Midi2

theorem stream_codes {d : MsgDesc} {h : Header} (he : (UmpKind.fixed d, h) ∈ umpTable)
    {p : String × Fld} (hp : p ∈ d.props) {s : BitVec 16} (e : p.2 = .streamStatus s) :
    h.pos = 6 ∧ h.width = 10 ∧ h.code = s.toNat := by
  have key : (umpTable.all fun e => match e.1 with
      | .fixed d => d.props.all fun p => match p.2 with
        | .streamStatus s => e.2.pos == 6 && e.2.width == 10 && e.2.code == s.toNat
        | _ => true
      | _ => true) = true := by decide +kernel
  have := List.all_eq_true.mp key _ he
  have := List.all_eq_true.mp this p hp
  rw [e] at this
  simp only [Bool.and_eq_true, beq_iff_eq] at this
  exact ⟨this.1.1, this.1.2, this.2⟩

theorem header_append {h : Header} {m : Buf .ump} (hm : m ≠ []) (c : Buf .ump) :
    h.Of (m ++ c) ↔ h.Of m := by
  have : 0 < m.length := List.length_pos_iff.mpr hm
  unfold Header.Of
  rw [fieldAt_left c this, fieldAt_left c this]

/-- C12 for `UmpMessage`, exactly: a complete message with further words behind it is parsed as
that message, with the same `data()`, if the words are of the tolerated kind, and refused
otherwise. -/
theorem C12_ump_message_exactly (m : Buf .ump) (k : UmpKind)
    (hok : UmpMessage.tryFrom m = .ok (k, m)) (hd : k.data m = .ok m) (c : Buf .ump) :
    (k.Allows m c → UmpMessage.tryFrom (m ++ c) = .ok (k, m ++ c) ∧ k.data (m ++ c) = .ok m) ∧
    (¬ k.Allows m c → ∃ e, UmpMessage.tryFrom (m ++ c) = .err e) := by
  obtain ⟨_, hk, h, he, ho⟩ := C10_ump_variant m m k hok
  have hm : m ≠ [] := by
    rintro rfl
    cases ho.1
  have hcomp : k.Complete m := Classical.byContradiction fun hc => by
    have := ((C06_ump_message_exactly m m k hok).2 hc).1
    rw [show UmpMessage.data (k, m) = k.data m from rfl, hd] at this
    cases this
  -- the message's own parser
  have key : (k.tryFrom (m ++ c) = .ok (m ++ c) ↔ k.Allows m c) ∧
      (k.Allows m c → k.tryFrom (m ++ c) = .ok (m ++ c) → k.data (m ++ c) = .ok m) := by
    cases k with
    | fixed d =>
      have hd' := (table_demands _ he d rfl).1
      have hl : d.umpSize ≤ m.length := ((tryFrom_iff d .ump m).mp hk).1
      have e : d.data .ump m = .ok m := hd
      rw [data_ok (m := .ump) hl] at e
      have hlen : m.length = d.umpSize := by
        have := congrArg List.length (Res.ok.inj e)
        rw [List.length_take] at this
        have : min d.umpSize m.length = m.length := this
        omega
      refine ⟨fixed_append hd' hlen hk (fun p hp s e => ?_) c, fun _ _ => ?_⟩
      · obtain ⟨a1, a2, a3⟩ := stream_codes he hp e
        have := ho.2
        rwa [a1, a2, a3] at this
      · show d.data .ump (m ++ c) = .ok m
        rw [data_ok (m := .ump) (by rw [List.length_append]; exact Nat.le_trans hl (Nat.le_add_right _ _)),
          List.take_append_of_le_length (show d.minSize .ump ≤ m.length from hl)]
        exact e
    | sysex s =>
      have A := (Sx.tryFrom_iff s m).mp hk
      obtain ⟨d, _, h1, h2, _⟩ := C33_sysex_packets s m hk hcomp
      rw [show s.data m = .ok m from hd] at h1
      cases h1
      have hlen : m.length = s.layout.words * (s.layout.run m).length := by
        have := congrArg List.length h2
        rw [List.length_take] at this
        have hc : s.layout.words * (s.layout.run m).length ≤ m.length := hcomp
        omega
      refine ⟨(Sx.tryFrom_iff s _).trans (Sx.accepts_append A hlen c), fun ha hp => ?_⟩
      have hr : s.layout.run (m ++ c) = s.layout.run m := by
        have hs : m.length = s.stride * (typedRun s.stride s.typ m).length := by
          rw [← s.run_typed, ← words_eq]; exact hlen
        have hc : typedRun s.stride s.typ c = [] := by
          rw [typedRun_nil s.stride_pos]
          have := ha.1
          cases s <;> exact this
        rw [s.run_typed, s.run_typed, typedRun_append s.stride_pos hs, hc, List.append_nil]
      obtain ⟨d, _, h1, h2, _⟩ := C33_sysex_packets s (m ++ c) hp (by
        unfold SysexLayout.Untruncated
        rw [hr, ← hlen, List.length_append]; omega)
      rw [hr, ← hlen, List.take_left] at h2
      rw [h2] at h1
      exact h1
    | flexText t =>
      have A := (FlexText.tryFrom_iff t m).mp hk
      obtain ⟨d, _, h1, h2, _⟩ := C06_flex_text_data_partial t m hk hcomp
      rw [show FlexText.data m = .ok m from hd] at h1
      cases h1
      have hlen : m.length = 4 * (FlexText.run m).length := by
        have := congrArg List.length h2
        rw [List.length_take] at this
        have hc : 4 * (FlexText.run m).length ≤ m.length := hcomp
        omega
      refine ⟨(FlexText.tryFrom_iff t _).trans (FlexText.accepts_append A hlen c), fun ha hp => ?_⟩
      have hr : FlexText.run (m ++ c) = FlexText.run m := by
        have hc : typedRun 4 0xD c = [] := (typedRun_nil (by omega)).mpr ha.1
        show typedRun 4 0xD (m ++ c) = _
        rw [typedRun_append (by omega) hlen, hc, List.append_nil]; rfl
      obtain ⟨d, _, h1, h2, _⟩ := C06_flex_text_data_partial t (m ++ c) hp (by
        rw [hr, ← hlen, List.length_append]; omega)
      rw [hr, ← hlen, List.take_left] at h2
      rw [h2] at h1
      exact h1
    | streamText t =>
      have ht := (table_other _ he).1
      have K := StreamText.known_of_mem ht
      have A := (StreamText.tryFrom_iff K m).mp hk
      obtain ⟨d, _, h1, h2, _⟩ := C06_stream_text_data_partial t ht m hk hcomp
      rw [show StreamText.data m = .ok m from hd] at h1
      cases h1
      have hlen : m.length = 4 * (StreamText.run m).length := by
        have := congrArg List.length h2
        rw [List.length_take] at this
        have hc : 4 * (StreamText.run m).length ≤ m.length := hcomp
        omega
      refine ⟨(StreamText.tryFrom_iff K _).trans (StreamText.accepts_append A hlen c),
        fun ha hp => ?_⟩
      have hr : StreamText.run (m ++ c) = StreamText.run m := by
        have hc : typedRun 4 0xF c = [] := (typedRun_nil (by omega)).mpr ha.1
        show typedRun 4 0xF (m ++ c) = _
        rw [typedRun_append (by omega) hlen, hc, List.append_nil]; rfl
      obtain ⟨d, _, h1, h2, _⟩ := C06_stream_text_data_partial t ht (m ++ c) hp (by
        rw [hr, ← hlen, List.length_append]; omega)
      rw [hr, ← hlen, List.take_left] at h2
      rw [h2] at h1
      exact h1
  constructor
  · intro ha
    have hp := key.1.mpr ha
    obtain ⟨h', hc', ho', _⟩ := UmpMessage.tryFrom_iff.mp hok
    exact ⟨UmpMessage.tryFrom_iff.mpr ⟨h', hc', (header_append hm c).mpr ho', hp⟩, key.2 ha hp⟩
  · intro ha
    rcases (C05_ump_enums_total (m ++ c)).1 with ⟨k', hk'⟩ | he'
    · obtain ⟨_, hp, h', he', ho'⟩ := C10_ump_variant _ _ k' hk'
      have ho' := (header_append hm c).mp ho'
      have inj : ∀ e ∈ umpTable, ∀ e' ∈ umpTable, e.2.type = e'.2.type →
          e.2.pos = e'.2.pos ∧ e.2.width = e'.2.width ∧ (e.2.code = e'.2.code → e.1 = e'.1) := by
        decide +kernel
      have t := Option.some.inj (ho.1.symm.trans ho'.1)
      obtain ⟨i1, i2, i3⟩ := inj _ he _ he' t
      have c2 := ho'.2
      simp only at i1 i2
      rw [← i1, ← i2] at c2
      have hkk : k = k' := i3 (Option.some.inj (ho.2.symm.trans c2))
      subst hkk
      exact absurd (key.1.mp hp) ha
    · exact he'

/-- A sysex7 message with a channel voice 2 message on channel 5 behind it is read, with one on
channel 7 it is refused. -/
example : UmpKind.Allows [0x30020102, 0] [0x40953C00, 0x80000000] (.sysex .s7) ∧
    ¬ UmpKind.Allows [0x30020102, 0] [0x40973C00, 0x80000000] (.sysex .s7) := by
  constructor
  · refine ⟨by decide, fun j hj => ?_⟩
    have hj : 2 * (j + 1) ≤ 2 := hj
    obtain rfl : j = 0 := by omega
    exact ⟨5, by decide, by decide, by decide⟩
  · rintro ⟨_, h⟩
    obtain ⟨n, h1, _, h2⟩ := h 0 (by decide)
    have : n = 7 := Option.some.inj (h1.symm.trans (by decide))
    rw [this] at h2
    exact absurd h2 (by decide)

/-- C48, exactly: the messages of a stream, each well-formed by itself, are all read back if every
message tolerates what follows it; otherwise the reader stops with an error. -/
theorem C48_ump_stream_exactly (ms : List (UmpKind × Buf .ump))
    (hms : ∀ m ∈ ms, UmpMessage.tryFrom m.2 = .ok m ∧ m.1.data m.2 = .ok m.2)
    (fuel : Nat) (hf : ms.length ≤ fuel) :
    ((∀ pre m post, ms = pre ++ m :: post → m.1.Allows m.2 (post.map Prod.snd).flatten) →
      readUmp fuel (ms.map Prod.snd).flatten = .ok ms) ∧
    ((∃ pre m post, ms = pre ++ m :: post ∧ ¬ m.1.Allows m.2 (post.map Prod.snd).flatten) →
      ∃ e, readUmp fuel (ms.map Prod.snd).flatten = .err e) := by
  induction ms generalizing fuel with
  | nil =>
    refine ⟨fun _ => by cases fuel <;> rfl, ?_⟩
    rintro ⟨pre, m, post, h, _⟩
    cases pre <;> cases h
  | cons m ms ih =>
    obtain ⟨k, b⟩ := m
    obtain ⟨h1, h2⟩ := hms (k, b) List.mem_cons_self
    simp only at h1 h2
    cases fuel with
    | zero => simp at hf
    | succ fuel =>
      have ih := ih (fun m hm => hms m (List.mem_cons_of_mem _ hm)) fuel
        (by simp only [List.length_cons] at hf; omega)
      simp only [List.map_cons, List.flatten_cons]
      generalize hrest : (ms.map Prod.snd).flatten = rest at ih
      obtain ⟨c1, c2⟩ := C12_ump_message_exactly b k h1 h2 rest
      have hb : b ++ rest ≠ [] := by
        intro e
        obtain ⟨_, _, h, _, ho⟩ := C10_ump_variant b b k h1
        obtain ⟨rfl, _⟩ := List.append_eq_nil_iff.mp e
        cases ho.1
      have step : k.Allows b rest → readUmp (fuel + 1) (b ++ rest) =
          (do return (k, b) :: (← readUmp fuel rest)) := by
        intro ha
        obtain ⟨a1, a2⟩ := c1 ha
        rw [readUmp_step hb a1 a2, List.drop_left]
      constructor
      · intro hall
        have ha : k.Allows b rest := by
          have := hall [] (k, b) ms rfl
          rwa [hrest] at this
        rw [step ha, ih.1 fun pre m post e => hall ((k, b) :: pre) m post (by rw [e]; rfl)]
        rfl
      · rintro ⟨pre, m, post, e, hn⟩
        by_cases ha : k.Allows b rest
        · rw [step ha]
          cases pre with
          | nil =>
            cases e
            rw [hrest] at hn
            exact absurd ha hn
          | cons x pre =>
            cases e
            obtain ⟨x, hx⟩ := ih.2 ⟨pre, m, post, rfl, hn⟩
            exact ⟨x, by rw [hx]; rfl⟩
        · obtain ⟨x, hx⟩ := c2 ha
          refine ⟨x, ?_⟩
          simp only [readUmp]
          rw [if_neg (by simpa using hb), hx]
          rfl

/-- Both cases of the theorem occur: two tempo messages in a row are read; a tempo and a metronome
message are not. -/
example : readUmp 2 ([0xD0100000, 1, 0, 0] ++ [0xD0100000, 2, 0, 0]) =
      .ok [(.fixed Msg.flexSetTempo, [0xD0100000, 1, 0, 0]),
        (.fixed Msg.flexSetTempo, [0xD0100000, 2, 0, 0])] ∧
    (readUmp 2 ([0xD0100000, 1, 0, 0] ++ [0xD0100002, 0, 0, 0])).isOk = false := by
  decide +kernel

end Midi2
