import Verif.Lemmas.Dispatch

/-!
# C05, C06, C10, C11, C33, C48, C49, C52: the message enums

`umpTable` and `bytesTable` of `Verif/Spec/Dispatch.lean` list the message types with the
headers the specifications give them.
-/

namespace Midi2

/-! ## Every type of the table -/

theorem table_total {k : UmpKind} {h : Header} (he : (k, h) ∈ umpTable) (b : Buf .ump) :
    k.tryFrom b = .ok b ∨ ∃ e, k.tryFrom b = .err e := by
  cases k with
  | fixed d =>
    rcases C05_fixed_ump_total (table_demands _ he d rfl).1 b with h | h
    · exact .inl h
    · exact .inr ⟨_, h⟩
  | sysex s =>
    rcases C05_sysex_total s b with h | h
    · exact .inl h
    · exact .inr ⟨_, h⟩
  | flexText t => exact C05_flex_text_total t b
  | streamText t => exact C05_stream_text_total t (table_other _ he).1 b

theorem table_self {k : UmpKind} {h : Header} (he : (k, h) ∈ umpTable) {b b' : Buf .ump}
    (hok : k.tryFrom b = .ok b') : b' = b := by
  rcases table_total he b with h | ⟨e, h⟩
  · rw [h] at hok; cases hok; rfl
  · rw [h] at hok; cases hok

theorem bytes_table_total {k : BytesKind} {lo hi : Nat} (he : (k, lo, hi) ∈ bytesTable)
    (b : Buf .bytes) : k.tryFrom b = .ok b ∨ ∃ e, k.tryFrom b = .err e := by
  cases k with
  | fixed d =>
    rcases C05_fixed_bytes_total (bytes_table_demands _ he d rfl).1 b with h | h
    · exact .inl h
    · exact .inr ⟨_, h⟩
  | sysex7 =>
    rcases C05_sysex7_bytes_total b with h | h
    · exact .inl h
    · exact .inr ⟨_, h⟩

theorem bytes_table_self {k : BytesKind} {lo hi : Nat} (he : (k, lo, hi) ∈ bytesTable)
    {b b' : Buf .bytes} (hok : k.tryFrom b = .ok b') : b' = b := by
  rcases bytes_table_total he b with h | ⟨e, h⟩
  · rw [h] at hok; cases hok; rfl
  · rw [h] at hok; cases hok

theorem arms_total {arms : List (Nat × UmpKind)} (hs : ∀ p ∈ arms, p.2 ∈ umpTable.map Prod.fst)
    (b : Buf .ump) : ∀ c k, (c, k) ∈ arms →
      UmpKind.tryFrom k b = .ok b ∨ ∃ e, UmpKind.tryFrom k b = .err e := by
  intro c k h
  obtain ⟨⟨k', h'⟩, h1, h2⟩ := List.mem_map.mp (hs _ h)
  cases h2
  exact table_total h1 b

theorem arms_total_fixed {arms : List (Nat × MsgDesc)}
    (hs : ∀ p ∈ arms, UmpKind.fixed p.2 ∈ umpTable.map Prod.fst) (b : Buf .ump) :
    ∀ c k, (c, k) ∈ arms →
      MsgDesc.tryFrom k .ump b = .ok b ∨ ∃ e, MsgDesc.tryFrom k .ump b = .err e := by
  intro c k h
  obtain ⟨⟨k', h'⟩, h1, h2⟩ := List.mem_map.mp (hs _ h)
  cases h2
  exact table_total h1 b

theorem arms_total_bytes {arms : List (Nat × MsgDesc)}
    (hs : ∀ p ∈ arms, BytesKind.fixed p.2 ∈ bytesTable.map Prod.fst) (b : Buf .bytes) :
    ∀ c k, (c, k) ∈ arms →
      MsgDesc.tryFrom k .bytes b = .ok b ∨ ∃ e, MsgDesc.tryFrom k .bytes b = .err e := by
  intro c k h
  obtain ⟨⟨k', h'⟩, h1, h2⟩ := List.mem_map.mp (hs _ h)
  cases h2
  exact bytes_table_total h1 b

/-! ## C05 -/

theorem flex_total (b : Buf .ump) :
    (∃ k, FlexData.tryFrom b = .ok (k, b)) ∨ ∃ e, FlexData.tryFrom b = .err e :=
  FlexData.tryFrom_cases b (arms_total (by decide +kernel) b)

theorem stream_total (b : Buf .ump) :
    (∃ k, UmpStream.tryFrom b = .ok (k, b)) ∨ ∃ e, UmpStream.tryFrom b = .err e :=
  UmpStream.tryFrom_cases b (arms_total (by decide +kernel) b)

theorem utility_total (b : Buf .ump) :
    (∃ k, Utility.tryFrom b = .ok (k, b)) ∨ ∃ e, Utility.tryFrom b = .err e :=
  Utility.tryFrom_cases b (arms_total_fixed (by decide +kernel) b)

theorem cv2_total (b : Buf .ump) :
    (∃ k, ChannelVoice2.tryFrom b = .ok (k, b)) ∨ ∃ e, ChannelVoice2.tryFrom b = .err e :=
  ChannelVoice2.tryFrom_cases b (arms_total_fixed (by decide +kernel) b)

theorem cv1_total : (m : Fmt) → (b : Buf m) →
    (∃ k, ChannelVoice1.tryFrom m b = .ok (k, b)) ∨ ∃ e, ChannelVoice1.tryFrom m b = .err e
  | .ump, b => ChannelVoice1.tryFrom_ump_cases b (arms_total_fixed (by decide +kernel) b)
  | .bytes, b => ChannelVoice1.tryFrom_bytes_cases b (arms_total_bytes (by decide +kernel) b)

theorem sys_total : (m : Fmt) → (b : Buf m) →
    (∃ k, SystemCommon.tryFrom m b = .ok (k, b)) ∨ ∃ e, SystemCommon.tryFrom m b = .err e
  | .ump, b => SystemCommon.tryFrom_ump_cases b (arms_total_fixed (by decide +kernel) b)
  | .bytes, b => SystemCommon.tryFrom_bytes_cases b (arms_total_bytes (by decide +kernel) b)

theorem map_total {α β γ : Type} {x : Res (α × γ)} {b : γ} (f : α → β)
    (h : (∃ k, x = .ok (k, b)) ∨ ∃ e, x = .err e) :
    (∃ k, (x >>= fun y => pure (f y.1, y.2)) = Res.ok (k, b)) ∨
      ∃ e, (x >>= fun y => pure (f y.1, y.2) : Res (β × γ)) = .err e := by
  rcases h with ⟨k, h⟩ | ⟨e, h⟩ <;> rw [h]
  · exact .inl ⟨f k, rfl⟩
  · exact .inr ⟨e, rfl⟩

theorem sysex_total {m : Fmt} {β : Type} {x : Res (Buf m)} {b : Buf m} (k : β)
    (h : x = .ok b ∨ x = .err .invalidData) :
    (∃ k', (x >>= fun y => pure (k, y)) = Res.ok (k', b)) ∨
      ∃ e, (x >>= fun y => pure (k, y) : Res (β × Buf m)) = .err e := by
  rcases h with h | h <;> rw [h]
  · exact .inl ⟨k, rfl⟩
  · exact .inr ⟨_, rfl⟩

/-- C05: parsing a UMP slice through any of the enums returns a message over the same slice or
an error, whatever the slice. -/
theorem C05_ump_enums_total (b : Buf .ump) :
    ((∃ k, UmpMessage.tryFrom b = .ok (k, b)) ∨ ∃ e, UmpMessage.tryFrom b = .err e) ∧
    ((∃ k, FlexData.tryFrom b = .ok (k, b)) ∨ ∃ e, FlexData.tryFrom b = .err e) ∧
    ((∃ k, UmpStream.tryFrom b = .ok (k, b)) ∨ ∃ e, UmpStream.tryFrom b = .err e) ∧
    ((∃ k, Utility.tryFrom b = .ok (k, b)) ∨ ∃ e, Utility.tryFrom b = .err e) ∧
    ((∃ k, ChannelVoice2.tryFrom b = .ok (k, b)) ∨ ∃ e, ChannelVoice2.tryFrom b = .err e) ∧
    ((∃ k, ChannelVoice1.tryFrom .ump b = .ok (k, b)) ∨ ∃ e, ChannelVoice1.tryFrom .ump b = .err e) ∧
    ((∃ k, SystemCommon.tryFrom .ump b = .ok (k, b)) ∨ ∃ e, SystemCommon.tryFrom .ump b = .err e) := by
  refine ⟨?_, flex_total b, stream_total b, utility_total b, cv2_total b, cv1_total .ump b,
    sys_total .ump b⟩
  unfold UmpMessage.tryFrom
  by_cases hb : b = []
  · rw [if_pos (by rw [hb]; rfl)]; exact .inr ⟨_, rfl⟩
  · rw [if_neg (by simpa using hb), at'_lt (head_ne hb), Res.ok_bind]
    unfold UmpMessage.ofType
    split
    · exact flex_total b
    · exact map_total _ (cv1_total .ump b)
    · exact map_total _ (cv2_total b)
    · exact sysex_total _ (C05_sysex_total .s7 b)
    · exact sysex_total _ (C05_sysex_total .s8 b)
    · exact map_total _ (sys_total .ump b)
    · exact stream_total b
    · exact map_total _ (utility_total b)
    · exact .inr ⟨_, rfl⟩

example : UmpMessage.tryFrom [0x10F80000] = .ok (.fixed Msg.sysTimingClock, [0x10F80000]) ∧
    UmpMessage.tryFrom [] = .err .invalidData := by decide +kernel

/-- C05: the same over bytes. -/
theorem C05_bytes_enums_total (b : Buf .bytes) :
    ((∃ k, BytesMessage.tryFrom b = .ok (k, b)) ∨ ∃ e, BytesMessage.tryFrom b = .err e) ∧
    ((∃ k, ChannelVoice1.tryFrom .bytes b = .ok (k, b)) ∨
      ∃ e, ChannelVoice1.tryFrom .bytes b = .err e) ∧
    ((∃ k, SystemCommon.tryFrom .bytes b = .ok (k, b)) ∨
      ∃ e, SystemCommon.tryFrom .bytes b = .err e) := by
  refine ⟨?_, cv1_total .bytes b, sys_total .bytes b⟩
  unfold BytesMessage.tryFrom
  by_cases hb : b = []
  · rw [if_pos (by rw [hb]; rfl)]; exact .inr ⟨_, rfl⟩
  · rw [if_neg (by simpa using hb), at'_lt (head_ne hb), Res.ok_bind]
    unfold BytesMessage.ofStatus
    split
    · exact map_total _ (cv1_total .bytes b)
    · split
      · exact sysex_total _ (C05_sysex7_bytes_total b)
      · split
        · exact map_total _ (sys_total .bytes b)
        · exact .inr ⟨_, rfl⟩

example : BytesMessage.tryFrom [0x93, 60, 100] = .ok (.fixed Msg.cv1NoteOn, [0x93, 60, 100]) ∧
    BytesMessage.tryFrom [0x40] = .err .invalidData := by decide +kernel

/-! ## C10 -/

theorem misfiled_never {b b' : Buf .ump} {k : UmpKind} (hm : k ∈ misfiled) :
    UmpMessage.tryFrom b ≠ .ok (k, b') := by
  intro hok
  obtain ⟨h, hc, ⟨ht, ho⟩, hk⟩ := UmpMessage.tryFrom_iff.mp hok
  have hall : ∀ k ∈ misfiled, ∃ e ∈ umpTable, e.1 = k := by decide +kernel
  obtain ⟨⟨k', h'⟩, he, rfl⟩ := hall k hm
  have hb := table_self he hk
  subst hb
  obtain ⟨_, e2, e3, e4⟩ := misfiled_wrong _ hc hm _ he rfl
  have hroom : ∀ k ∈ misfiled, k.room = 0 := by decide +kernel
  obtain ⟨_, h2⟩ := accepted_header he (by rw [hroom _ hm]; omega) hk
  simp only at e2 e3 e4
  rw [e2, e3, ho] at h2
  exact e4 (Option.some.inj h2).symm

/-- C10: what `UmpMessage::try_from` returns is a message of the type that the specification
gives to the header, over the same slice, which that type's own parser accepts. -/
theorem C10_ump_variant (b b' : Buf .ump) (k : UmpKind) (hok : UmpMessage.tryFrom b = .ok (k, b')) :
    b' = b ∧ k.tryFrom b = .ok b ∧ ∃ h, (k, h) ∈ umpTable ∧ h.Of b := by
  obtain ⟨h, hc, ho, hk⟩ := UmpMessage.tryFrom_iff.mp hok
  rcases code_table_sound _ hc with he | hm
  · have := table_self he hk
    subst this
    exact ⟨rfl, hk, h, he, ho⟩
  · exact absurd hok (misfiled_never hm)

example : ∃ h, (UmpKind.fixed Msg.cv2NoteOn, h) ∈ umpTable ∧ h.Of [0x40903C03, 0x80001234] :=
  (C10_ump_variant [0x40903C03, 0x80001234] [0x40903C03, 0x80001234] (.fixed Msg.cv2NoteOn)
    (by decide +kernel)).2.2

/-- C10: `UmpMessage::try_from` gives a message of a type exactly when the type's own parser
accepts the slice.  Missing, since the code violates it: the three misfiled flex data texts, and
`FunctionBlockDiscovery` in less than four words (see the violations below). -/
theorem C10_ump_dispatch_partial {k : UmpKind} {h : Header} (he : (k, h) ∈ umpTable)
    (hm : k ∉ misfiled) (b : Buf .ump)
    (hs : k = .fixed Msg.streamFunctionBlockDiscovery → 4 ≤ b.length) :
    UmpMessage.tryFrom b = .ok (k, b) ↔ k.tryFrom b = .ok b := by
  constructor
  · exact fun hok => (C10_ump_variant b b k hok).2.1
  · intro hok
    refine UmpMessage.tryFrom_iff.mpr ⟨h, (code_table_complete _ he).resolve_right hm, ?_, hok⟩
    refine accepted_header he ?_ hok
    have : ∀ e ∈ umpTable, e.1 = .fixed Msg.streamFunctionBlockDiscovery ∧ e.1.room = 4 ∨
        e.1.room = 0 := by decide +kernel
    rcases this _ he with ⟨h1, h2⟩ | h2
    · simp only at h1 h2
      rw [h2]; exact hs h1
    · simp only at h2
      omega

example : UmpMessage.tryFrom [0x40903C03, 0x80001234] =
    .ok (.fixed Msg.cv2NoteOn, [0x40903C03, 0x80001234]) :=
  (C10_ump_dispatch_partial (h := ⟨4, 8, 4, 9⟩) (by decide +kernel) (by decide +kernel) _
    (fun h => absurd h (by decide +kernel))).mpr (by decide +kernel)

/-- C10: a slice in which no type of the table recognises its header is refused. -/
theorem C10_ump_unknown (b : Buf .ump) (hn : ∀ k h, (k, h) ∈ umpTable → ¬ h.Of b) :
    ∃ e, UmpMessage.tryFrom b = .err e := by
  rcases (C05_ump_enums_total b).1 with ⟨k, h⟩ | h
  · obtain ⟨_, _, h', he, ho⟩ := C10_ump_variant b b k h
    exact absurd ho (hn _ _ he)
  · exact h

example : ∃ e, UmpMessage.tryFrom [0x20000000] = .err e :=
  C10_ump_unknown _ (by
    have : ∀ e ∈ umpTable, ¬ (fieldAt [0x20000000] 0 0 4 = some e.2.type ∧
      fieldAt [0x20000000] 0 e.2.pos e.2.width = some e.2.code) := by decide +kernel
    exact fun k h he => this _ he)

theorem header_type {k : UmpKind} {h : Header} (he : (k, h) ∈ umpTable) {b : Buf .ump}
    (hok : k.tryFrom b = .ok b) : fieldAt b 0 0 4 = some h.type := by
  by_cases hr : k.room ≤ b.length
  · exact (accepted_header he hr hok).1
  · cases k with
    | fixed d =>
      obtain ⟨h1, h2, _⟩ := table_demands _ he d rfl
      have W : d.WellFormed .ump b := by
        by_cases W : d.WellFormed .ump b
        · exact W
        · have hok : d.tryFrom .ump b = .ok b := hok
          rw [(C07_ump_accepts_exactly h1 b).2 W] at hok; cases hok
      unfold MsgDesc.demands at h2
      rw [Bool.and_eq_true] at h2
      obtain ⟨n, f, hm, hf⟩ := any_prop (q := fun f => match f with
        | .umpType t => t.toNat == h.type | _ => false) h2.1
      have := W.2 _ hm
      cases f <;> simp only [beq_iff_eq, Bool.false_eq_true] at hf
      rw [← hf]; exact this
    | _ => exact absurd (Nat.zero_le _) hr

/-- C10: no slice is accepted by two types. -/
theorem C10_ump_unique {k₁ k₂ : UmpKind} {h₁ h₂ : Header} (he₁ : (k₁, h₁) ∈ umpTable)
    (he₂ : (k₂, h₂) ∈ umpTable) (b : Buf .ump) (hok₁ : k₁.tryFrom b = .ok b)
    (hok₂ : k₂.tryFrom b = .ok b) : k₁ = k₂ := by
  have t1 := header_type he₁ hok₁
  have t2 := header_type he₂ hok₂
  rw [t1] at t2
  have ht : h₁.type = h₂.type := Option.some.inj t2
  have shape : ∀ e ∈ umpTable, ∀ e' ∈ umpTable, e.2.type = e'.2.type →
      e.2.pos = e'.2.pos ∧ e.2.width = e'.2.width ∧ (e.2.code = e'.2.code → e.1 = e'.1) := by
    decide +kernel
  obtain ⟨hp, hw, hc⟩ := shape _ he₁ _ he₂ ht
  simp only at hp hw hc
  by_cases hr : k₁.room ≤ b.length ∧ k₂.room ≤ b.length
  · obtain ⟨_, c1⟩ := accepted_header he₁ hr.1 hok₁
    obtain ⟨_, c2⟩ := accepted_header he₂ hr.2 hok₂
    rw [hp, hw, c2] at c1
    exact hc (Option.some.inj c1).symm
  · have rooms : ∀ e ∈ umpTable, e.1 = .fixed Msg.streamFunctionBlockDiscovery ∧ e.2.type = 15 ∧
        e.1.room = 4 ∨ e.1.room = 0 := by decide +kernel
    have long : ∀ {k h}, (k, h) ∈ umpTable → h.type = 15 →
        k ≠ .fixed Msg.streamFunctionBlockDiscovery → k.tryFrom b = .ok b → 4 ≤ b.length := by
      intro k h he ht hne hok
      cases k with
      | fixed d =>
        have : ∀ e ∈ umpTable, e.2.type = 15 → e.1 ≠ .fixed Msg.streamFunctionBlockDiscovery →
            (match e.1 with | .fixed d => decide (4 ≤ d.umpSize) | _ => true) = true := by
          decide +kernel
        have h4 := of_decide_eq_true (this _ he ht hne)
        exact Nat.le_trans h4 ((tryFrom_iff d .ump b).mp hok).1
      | sysex s =>
        have : ∀ e ∈ umpTable, e.2.type = 15 →
            (match e.1 with | .sysex _ => false | .flexText _ => false | _ => true) = true := by
          decide +kernel
        exact absurd (this _ he ht) (by simp)
      | flexText t =>
        exact ((FlexText.tryFrom_iff t b).mp hok).len
      | streamText t =>
        exact ((StreamText.tryFrom_iff (StreamText.known_of_mem (table_other _ he).1) b).mp hok).len
    by_cases e1 : k₁ = .fixed Msg.streamFunctionBlockDiscovery
    · by_cases e2 : k₂ = .fixed Msg.streamFunctionBlockDiscovery
      · rw [e1, e2]
      · rcases rooms _ he₁ with ⟨_, h15, hr4⟩ | hr0
        · simp only at h15 hr4
          have h4 := long he₂ (by omega) e2 hok₂
          rcases rooms _ he₂ with ⟨h, _⟩ | hr0
          · exact absurd h e2
          · simp only at hr0
            exact absurd ⟨by omega, by omega⟩ hr
        · simp only at hr0
          rcases rooms _ he₂ with ⟨h, _⟩ | hr0'
          · exact absurd h e2
          · simp only at hr0'
            exact absurd ⟨by omega, by omega⟩ hr
    · rcases rooms _ he₁ with ⟨h, _⟩ | hr0
      · exact absurd h e1
      · simp only at hr0
        rcases rooms _ he₂ with ⟨h, h15, hr4⟩ | hr0'
        · simp only at h15 hr4
          have h4 := long he₁ (by omega) e1 hok₁
          exact absurd ⟨by omega, by omega⟩ hr
        · simp only at hr0'
          exact absurd ⟨by omega, by omega⟩ hr

/-- A per-note controller, a text over two packets and a block name go through. -/
example : UmpMessage.tryFrom [0x40106001, 0x12345678] =
      .ok (.fixed Msg.cv2AssignablePerNoteController, [0x40106001, 0x12345678]) ∧
    UmpMessage.tryFrom sampleFlexTwo = .ok (.flexText ⟨"CopyrightNotice", 1, 4⟩, sampleFlexTwo) ∧
    UmpMessage.tryFrom sampleNameTwo = .ok (.streamText .endpointName, sampleNameTwo) := by
  decide +kernel

/-- C10 is violated by three flex data texts: `AccompanyingPerformerName`, `RecordingDate` and
`RecordingLocation` are never the result, although their own parsers accept slices, which
`UmpMessage` then refuses. -/
theorem C10_recording_violation : ∀ k ∈ misfiled,
    (∀ b b' : Buf .ump, UmpMessage.tryFrom b ≠ .ok (k, b') ∧ FlexData.tryFrom b ≠ .ok (k, b')) ∧
    ∃ b : Buf .ump, k.tryFrom b = .ok b ∧ UmpMessage.tryFrom b = .err .invalidData := by
  intro k hm
  refine ⟨fun b b' => ⟨misfiled_never hm, fun hf => ?_⟩, ?_⟩
  · obtain ⟨c, hc, hv, hk⟩ := FlexData.tryFrom_iff.mp hf
    have hall : ∀ k ∈ misfiled, ∃ e ∈ umpTable, e.1 = k := by decide +kernel
    obtain ⟨⟨k', h'⟩, he, rfl⟩ := hall k hm
    have hb := table_self he hk
    subst hb
    have hroom : ∀ k ∈ misfiled, k.room = 0 := by decide +kernel
    obtain ⟨_, h2⟩ := accepted_header he (by rw [hroom _ hm]; omega) hk
    have wrong : ∀ p ∈ FlexData.arms, p.2 ∈ misfiled → ∀ e ∈ umpTable, e.1 = p.2 →
        e.2.pos = 16 ∧ e.2.width = 16 ∧ e.2.code ≠ p.1 := by decide +kernel
    obtain ⟨w1, w2, w3⟩ := wrong _ hc hm _ he rfl
    simp only at w1 w2 w3
    rw [w1, w2, hv] at h2
    exact w3 (Option.some.inj h2).symm
  · simp only [misfiled, List.mem_cons, List.not_mem_nil, or_false] at hm
    rcases hm with rfl | rfl | rfl
    · exact ⟨[0xD010010A, 0x41000000, 0, 0], by decide +kernel, by decide +kernel⟩
    · exact ⟨[0xD010010B, 0x41000000, 0, 0], by decide +kernel, by decide +kernel⟩
    · exact ⟨[0xD010010C, 0x41000000, 0, 0], by decide +kernel, by decide +kernel⟩

/-- C10 is violated by `FunctionBlockDiscovery` in less than four words: its parser does not
look at the status, so it takes any stream header, and `UmpMessage` refuses. -/
theorem C10_short_function_block_discovery_violation :
    Msg.streamFunctionBlockDiscovery.tryFrom .ump [0xF0000101] = .ok [0xF0000101] ∧
    UmpMessage.tryFrom [0xF0000101] = .err .invalidData := by decide +kernel

/-! The enums over one group of types -/

theorem fixed_family {arms : List (Nat × MsgDesc)} {all : List MsgDesc} {t p w : Nat}
    (hs : ∀ x ∈ arms, x.2 ∈ all ∧ UmpKind.fixed x.2 ∈ umpTable.map Prod.fst)
    (hc : ∀ d ∈ all, ∃ x ∈ arms, x.2 = d ∧ (UmpKind.fixed d, ⟨t, p, w, x.1⟩) ∈ umpTable ∧
      (UmpKind.fixed d).room = 0) (d : MsgDesc) (b b' : Buf .ump) :
    (∃ c, (c, d) ∈ arms ∧ fieldAt b 0 p w = some c ∧ d.tryFrom .ump b = .ok b') ↔
      d ∈ all ∧ d.tryFrom .ump b = .ok b ∧ b' = b := by
  constructor
  · rintro ⟨c, h1, h2, h3⟩
    obtain ⟨h4, h5⟩ := hs _ h1
    obtain ⟨⟨k', h'⟩, h6, h7⟩ := List.mem_map.mp h5
    cases h7
    have := table_self h6 h3
    subst this
    exact ⟨h4, h3, rfl⟩
  · rintro ⟨h1, h2, rfl⟩
    obtain ⟨⟨c, d'⟩, h3, rfl, h4, h5⟩ := hc d h1
    exact ⟨c, h3, (accepted_header h4 (by rw [h5]; omega) h2).2, h2⟩

/-- C10: `ChannelVoice2::try_from` gives a message of a type exactly when the type is one of the
channel voice 2 messages and its own parser accepts the slice. -/
theorem C10_channel_voice2 (d : MsgDesc) (b b' : Buf .ump) :
    ChannelVoice2.tryFrom b = .ok (d, b') ↔ d ∈ Msg.cv2All ∧ d.tryFrom .ump b = .ok b ∧ b' = b := by
  rw [ChannelVoice2.tryFrom_iff]
  exact fixed_family (t := 4) (p := 8) (w := 4) (by decide +kernel) (by decide +kernel) d b b'

example : ChannelVoice2.tryFrom [0x40903C03, 0x80001234] =
    .ok (Msg.cv2NoteOn, [0x40903C03, 0x80001234]) := by decide +kernel

/-- C10: `ChannelVoice1::try_from` gives a message of a type exactly when the type is one of the
channel voice 1 messages and its own parser accepts the slice. -/
theorem C10_channel_voice1 (d : MsgDesc) (b b' : Buf .ump) :
    ChannelVoice1.tryFrom .ump b = .ok (d, b') ↔ d ∈ Msg.cv1All ∧ d.tryFrom .ump b = .ok b ∧ b' = b := by
  rw [ChannelVoice1.tryFrom_ump_iff]
  exact fixed_family (t := 2) (p := 8) (w := 4) (by decide +kernel) (by decide +kernel) d b b'

example : ChannelVoice1.tryFrom .ump [0x20933C64] = .ok (Msg.cv1NoteOn, [0x20933C64]) := by
  decide +kernel

/-- C10: `SystemCommon::try_from` gives a message of a type exactly when the type is one of the
system common messages and its own parser accepts the slice. -/
theorem C10_system_common (d : MsgDesc) (b b' : Buf .ump) :
    SystemCommon.tryFrom .ump b = .ok (d, b') ↔ d ∈ Msg.sysAll ∧ d.tryFrom .ump b = .ok b ∧ b' = b := by
  rw [SystemCommon.tryFrom_ump_iff]
  exact fixed_family (t := 1) (p := 8) (w := 8) (by decide +kernel) (by decide +kernel) d b b'

example : SystemCommon.tryFrom .ump [0x10F24001] =
    .ok (Msg.sysSongPositionPointer, [0x10F24001]) := by decide +kernel

/-- C10: `Utility::try_from` gives a message of a type exactly when the type is one of the
utility messages and its own parser accepts the slice. -/
theorem C10_utility (d : MsgDesc) (b b' : Buf .ump) :
    Utility.tryFrom b = .ok (d, b') ↔ d ∈ Msg.utilAll ∧ d.tryFrom .ump b = .ok b ∧ b' = b := by
  rw [Utility.tryFrom_iff]
  exact fixed_family (t := 0) (p := 8) (w := 4) (by decide +kernel) (by decide +kernel) d b b'

example : Utility.tryFrom [0x00400012] = .ok (Msg.utilDeltaClockstamp, [0x00400012]) := by
  decide +kernel

/-- C10: `FlexData::try_from` gives a message of a type exactly when the type is a flex data
message other than the misfiled ones and its own parser accepts the slice. -/
theorem C10_flex_data_partial (k : UmpKind) (b b' : Buf .ump) :
    FlexData.tryFrom b = .ok (k, b') ↔
      (∃ h, (k, h) ∈ umpTable ∧ h.type = 13) ∧ k ∉ misfiled ∧ k.tryFrom b = .ok b ∧ b' = b := by
  have hs : ∀ p ∈ FlexData.arms, p.2 ∈ misfiled ∨
      (p.2, ⟨13, 16, 16, p.1⟩) ∈ umpTable := by decide +kernel
  have hc : ∀ e ∈ umpTable, e.2.type = 13 → e.1 ∈ misfiled ∨ e.1.room = 0 ∧
      e.2.pos = 16 ∧ e.2.width = 16 ∧ (e.2.code, e.1) ∈ FlexData.arms := by decide +kernel
  constructor
  · intro hok
    by_cases hm : k ∈ misfiled
    · exact absurd hok ((C10_recording_violation k hm).1 b b').2
    · obtain ⟨c, h1, h2, h3⟩ := FlexData.tryFrom_iff.mp hok
      have he := (hs _ h1).resolve_left hm
      have := table_self he h3
      subst this
      exact ⟨⟨_, he, rfl⟩, hm, h3, rfl⟩
  · rintro ⟨⟨h, he, ht⟩, hm, hk, rfl⟩
    obtain ⟨h0, h1, h2, h3⟩ := (hc _ he ht).resolve_left hm
    have := (accepted_header he (by simp only at h0; omega) hk).2
    simp only at h1 h2
    rw [h1, h2] at this
    exact FlexData.tryFrom_iff.mpr ⟨_, h3, this, hk⟩

example : FlexData.tryFrom sampleFlexTwo =
    .ok (.flexText ⟨"CopyrightNotice", 1, 4⟩, sampleFlexTwo) := by decide +kernel

/-- C10: the same for `UmpStream::try_from`, where a `FunctionBlockDiscovery` needs its four
words. -/
theorem C10_ump_stream_partial (k : UmpKind) (b b' : Buf .ump)
    (hs : k = .fixed Msg.streamFunctionBlockDiscovery → 4 ≤ b.length) :
    UmpStream.tryFrom b = .ok (k, b') ↔
      (∃ h, (k, h) ∈ umpTable ∧ h.type = 15) ∧ k.tryFrom b = .ok b ∧ b' = b := by
  have ha : ∀ p ∈ UmpStream.arms, (p.2, ⟨15, 6, 10, p.1⟩) ∈ umpTable := by decide +kernel
  have hc : ∀ e ∈ umpTable, e.2.type = 15 →
      (e.1 = .fixed Msg.streamFunctionBlockDiscovery ∧ e.1.room = 4 ∨ e.1.room = 0) ∧
      e.2.pos = 6 ∧ e.2.width = 10 ∧ (e.2.code, e.1) ∈ UmpStream.arms := by decide +kernel
  constructor
  · intro hok
    obtain ⟨c, h1, h2, h3⟩ := UmpStream.tryFrom_iff.mp hok
    have := table_self (ha _ h1) h3
    subst this
    exact ⟨⟨_, ha _ h1, rfl⟩, h3, rfl⟩
  · rintro ⟨⟨h, he, ht⟩, hk, rfl⟩
    obtain ⟨h0, h1, h2, h3⟩ := hc _ he ht
    have hr : k.room ≤ b'.length := by
      rcases h0 with ⟨e, h0⟩ | h0 <;> simp only at h0
      · rw [h0]; exact hs e
      · omega
    have := (accepted_header he hr hk).2
    simp only at h1 h2
    rw [h1, h2] at this
    exact UmpStream.tryFrom_iff.mpr ⟨_, h3, this, hk⟩

example : UmpStream.tryFrom [0xF0110000, 0, 0, 0] = .err .invalidData ∧
    UmpStream.tryFrom [0xF0118001, 0, 0, 0] =
      .ok (.fixed Msg.streamFunctionBlockInfo, [0xF0118001, 0, 0, 0]) ∧
    FlexData.tryFrom [0xD0100005, 0x25000000, 0, 0] =
      .ok (.fixed Msg.flexSetKeySignature, [0xD0100005, 0x25000000, 0, 0]) := by decide +kernel

/-! ## C11 -/

/-- C11: `BytesMessage::try_from` gives a message of a type exactly when the type's own parser
accepts the slice; then the status byte is one of the type's. -/
theorem C11_bytes_dispatch {k : BytesKind} {lo hi : Nat} (he : (k, lo, hi) ∈ bytesTable)
    (b b' : Buf .bytes) :
    (BytesMessage.tryFrom b = .ok (k, b') ↔ k.tryFrom b = .ok b ∧ b' = b) ∧
    (k.tryFrom b = .ok b → ∃ x rest, b = x :: rest ∧ lo ≤ x.toNat ∧ x.toNat < hi) := by
  constructor
  · rw [BytesMessage.tryFrom_iff]
    constructor
    · rintro ⟨lo', hi', s, he', h1, h2, h3, h4⟩
      have := bytes_table_self he' h4
      subst this
      exact ⟨h4, rfl⟩
    · rintro ⟨h, rfl⟩
      obtain ⟨s, h1, h2, h3⟩ := accepted_status he h
      exact ⟨lo, hi, s, he, h1, h2, h3, h⟩
  · intro h
    obtain ⟨s, h1, h2, h3⟩ := accepted_status he h
    cases b with
    | nil => cases h1
    | cons x rest => cases h1; exact ⟨x, rest, rfl, h2, h3⟩

example : BytesMessage.tryFrom [0xE5, 0x12, 0x34] = .ok (.fixed Msg.cv1PitchBend, [0xE5, 0x12, 0x34]) :=
  ((C11_bytes_dispatch (lo := 0xE0) (hi := 0xF0) (by decide +kernel) _ _).1).mpr
    ⟨by decide +kernel, rfl⟩

/-- C11: what `BytesMessage::try_from` returns is of a type in the table. -/
theorem C11_bytes_variant (b b' : Buf .bytes) (k : BytesKind)
    (hok : BytesMessage.tryFrom b = .ok (k, b')) : ∃ lo hi, (k, lo, hi) ∈ bytesTable := by
  obtain ⟨lo, hi, _, h, _⟩ := BytesMessage.tryFrom_iff.mp hok
  exact ⟨lo, hi, h⟩

example : ∃ lo hi, (BytesKind.fixed Msg.cv1PitchBend, lo, hi) ∈ bytesTable :=
  C11_bytes_variant [0xE5, 0x12, 0x34] [0xE5, 0x12, 0x34] _ (by decide +kernel)

/-- C11: no slice is accepted by two types, and a slice whose status byte belongs to no type
is refused. -/
theorem C11_bytes_unique {k₁ k₂ : BytesKind} {lo₁ hi₁ lo₂ hi₂ : Nat}
    (he₁ : (k₁, lo₁, hi₁) ∈ bytesTable) (he₂ : (k₂, lo₂, hi₂) ∈ bytesTable) (b : Buf .bytes)
    (h₁ : k₁.tryFrom b = .ok b) (h₂ : k₂.tryFrom b = .ok b) : k₁ = k₂ := by
  have : ∀ e ∈ bytesTable, ∀ e' ∈ bytesTable, e.1 = e'.1 ∨ e.2.2 ≤ e'.2.1 ∨ e'.2.2 ≤ e.2.1 := by
    decide +kernel
  obtain ⟨s, a1, a2, a3⟩ := accepted_status he₁ h₁
  obtain ⟨s', b1, b2, b3⟩ := accepted_status he₂ h₂
  rw [a1] at b1
  cases b1
  rcases this _ he₁ _ he₂ with h | h | h
  · exact h
  · simp only at h; omega
  · simp only at h; omega

example (k : BytesKind) (lo hi : Nat) (he : (k, lo, hi) ∈ bytesTable)
    (h : k.tryFrom [0xE5, 0x12, 0x34] = .ok [0xE5, 0x12, 0x34]) : k = .fixed Msg.cv1PitchBend :=
  C11_bytes_unique he (lo₂ := 0xE0) (hi₂ := 0xF0) (by decide +kernel) _ h (by decide +kernel)

theorem C11_bytes_unknown (b : Buf .bytes)
    (hn : ∀ k lo hi x rest, (k, lo, hi) ∈ bytesTable → b = x :: rest →
      ¬ (lo ≤ x.toNat ∧ x.toNat < hi)) : ∃ e, BytesMessage.tryFrom b = .err e := by
  rcases (C05_bytes_enums_total b).1 with ⟨k, h⟩ | h
  · obtain ⟨lo, hi, he⟩ := C11_bytes_variant b b k h
    obtain ⟨x, rest, h1, h2⟩ := (C11_bytes_dispatch he b b).2 ((C11_bytes_dispatch he b b).1.mp h).1
    exact absurd h2 (hn _ _ _ _ _ he h1)
  · exact h

/-- Undefined status bytes and a data byte. -/
example (x : BitVec 8) (hx : x ∈ [0xF4, 0xF5, 0xF7, 0xF9, 0xFD, (0x7F : BitVec 8)])
    (rest : Buf .bytes) : ∃ e, BytesMessage.tryFrom (x :: rest) = .err e := by
  refine C11_bytes_unknown _ ?_
  intro k lo hi y rest' he hb
  cases hb
  have : ∀ x ∈ [0xF4, 0xF5, 0xF7, 0xF9, 0xFD, (0x7F : BitVec 8)], ∀ e ∈ bytesTable,
      ¬ (e.2.1 ≤ x.toNat ∧ x.toNat < e.2.2) := by decide +kernel
  exact this _ hx _ he

theorem bytes_family {arms : List (Nat × MsgDesc)} {all : List MsgDesc} {view : Nat → Nat}
    {r : Nat → Nat × Nat}
    (hr : ∀ x ∈ arms, ∀ s, view s = x.1 ↔ (r x.1).1 ≤ s ∧ s < (r x.1).2)
    (hs : ∀ x ∈ arms, x.2 ∈ all ∧ (BytesKind.fixed x.2, r x.1) ∈ bytesTable)
    (hc : ∀ d ∈ all, ∃ x ∈ arms, x.2 = d) (d : MsgDesc) (b b' : Buf .bytes) :
    (∃ c, (c, d) ∈ arms ∧ (byteAt b).map view = some c ∧ d.tryFrom .bytes b = .ok b') ↔
      d ∈ all ∧ d.tryFrom .bytes b = .ok b ∧ b' = b := by
  constructor
  · rintro ⟨c, h1, h2, h3⟩
    obtain ⟨h4, h5⟩ := hs _ h1
    have := bytes_table_self (k := .fixed d) h5 h3
    subst this
    exact ⟨h4, h3, rfl⟩
  · rintro ⟨h1, h2, rfl⟩
    obtain ⟨⟨c, d'⟩, h3, rfl⟩ := hc d h1
    obtain ⟨s, a1, a2, a3⟩ := accepted_status (k := .fixed d') (hs _ h3).2 h2
    exact ⟨c, h3, by rw [a1]; exact congrArg some ((hr _ h3 s).mpr ⟨a2, a3⟩), h2⟩

/-- C11: the same for `ChannelVoice1` and `SystemCommon` over bytes. -/
theorem C11_channel_voice1 (d : MsgDesc) (b b' : Buf .bytes) :
    ChannelVoice1.tryFrom .bytes b = .ok (d, b') ↔
      d ∈ Msg.cv1All ∧ d.tryFrom .bytes b = .ok b ∧ b' = b := by
  rw [ChannelVoice1.tryFrom_bytes_iff]
  exact bytes_family (view := (· / 16)) (r := fun c => (16 * c, 16 * c + 16))
    (fun x _ s => by simp only; omega) (by decide +kernel) (by decide +kernel) d b b'

example : ChannelVoice1.tryFrom .bytes [0x93, 60, 100] =
    .ok (Msg.cv1NoteOn, [0x93, 60, 100]) := by decide +kernel

theorem C11_system_common (d : MsgDesc) (b b' : Buf .bytes) :
    SystemCommon.tryFrom .bytes b = .ok (d, b') ↔
      d ∈ Msg.sysAll ∧ d.tryFrom .bytes b = .ok b ∧ b' = b := by
  rw [SystemCommon.tryFrom_bytes_iff]
  have := bytes_family (arms := SystemCommon.arms) (all := Msg.sysAll) (view := id)
    (r := fun c => (c, c + 1))
    (fun x _ s => by simp only [id]; omega) (by decide +kernel) (by decide +kernel) d b b'
  rw [← this]
  simp only [Option.map_id_fun, id]

example : BytesMessage.tryFrom [0xE5, 0x12, 0x34] = .ok (.fixed Msg.cv1PitchBend, [0xE5, 0x12, 0x34]) ∧
    BytesMessage.tryFrom [0xF0, 1, 2, 0xF7] = .ok (.sysex7, [0xF0, 1, 2, 0xF7]) ∧
    SystemCommon.tryFrom .bytes [0xFA] = .ok (Msg.sysStart, [0xFA]) := by decide +kernel

end Midi2
