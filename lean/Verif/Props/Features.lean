import Verif.Spec.Features
import Verif.Props.Packet

/-!
# C65: Cargo features

A feature for a group of messages adds its messages and changes no other result.  Feature `std`
is different: without it texts are not looked at, so slices are accepted which a build with `std`
refuses.
-/

namespace Midi2

/-! ## With all features -/

theorem FlexText.tryFromIn_true (t : FlexText) (b : Buf .ump) : t.tryFromIn true b = t.tryFrom b :=
  rfl

theorem StreamText.tryFromIn_true (t : StreamText) (b : Buf .ump) :
    t.tryFromIn true b = t.tryFrom b := rfl

theorem UmpKind.tryFromIn_true : UmpKind.tryFromIn true = UmpKind.tryFrom := by
  funext k b
  cases k <;> rfl

/-- C65: the enums with all features are those of the rest of the model. -/
theorem C65_all_features (b : Buf .ump) (c : Buf .bytes) :
    UmpMessage.tryFromIn (.all true) b = UmpMessage.tryFrom b ∧
    BytesMessage.tryFromIn (.all true) c = BytesMessage.tryFrom c ∧
    Packet.tryFromIn (.all true) b = Packet.tryFrom b ∧
    ∀ k : UmpKind, k.tryFromIn true b = k.tryFrom b := by
  refine ⟨?_, ?_, ?_, fun k => by rw [UmpKind.tryFromIn_true]⟩
  · unfold UmpMessage.tryFromIn UmpMessage.tryFrom
    split
    · rfl
    · simp only [UmpMessage.ofTypeIn, UmpMessage.ofType, FlexData.tryFromIn, UmpStream.tryFromIn, FlexData.tryFrom, UmpStream.tryFrom,
        Features.all, UmpKind.tryFromIn_true, if_true]
      rfl
  · unfold BytesMessage.tryFromIn BytesMessage.tryFrom
    split
    · rfl
    · congr 1
      funext w
      unfold BytesMessage.ofStatusIn BytesMessage.ofStatus
      simp only [Features.all, true_and]
  · rfl

/-! ## What a feature adds -/

/-- C65: with the feature of its message type a slice gives what it gives with all features;
without it `InvalidData`.  Slices of other message types are refused by all builds. -/
theorem C65_ump_exactly (F : Features) (b : Buf .ump) :
    (∀ f : PacketKind, fieldAt b 0 0 4 = some f.code →
      UmpMessage.tryFromIn F b =
        if F.on f then UmpMessage.tryFromIn (.all F.std) b else .err .invalidData) ∧
    ((∀ f : PacketKind, fieldAt b 0 0 4 ≠ some f.code) →
      UmpMessage.tryFromIn F b = .err .invalidData) := by
  cases b with
  | nil => exact ⟨fun f h => (nomatch h), fun _ => rfl⟩
  | cons w t =>
    have e : ∀ G : Features, UmpMessage.tryFromIn G (w :: t) =
        UmpMessage.ofTypeIn G (field w 0 4) (w :: t) := by
      intro G
      rw [← Packet.type_nibble]
      rfl
    simp only [e, fieldAt_cons]
    constructor
    · intro f hf
      rw [Option.some.inj hf]
      cases f <;> simp [UmpMessage.ofTypeIn, PacketKind.code, Features.all]
    · intro h
      have h' : ∀ f : PacketKind, field w 0 4 ≠ f.code := fun f e => h f (by rw [e])
      have h0 := h' .utility
      have h1 := h' .systemCommon
      have h2 := h' .channelVoice1
      have h3 := h' .sysex7
      have h4 := h' .channelVoice2
      have h5 := h' .sysex8
      have h6 := h' .flexData
      have h7 := h' .umpStream
      simp only [PacketKind.code] at h0 h1 h2 h3 h4 h5 h6 h7
      generalize field w 0 4 = c at *
      unfold UmpMessage.ofTypeIn
      split <;> first | contradiction | rfl

/-- C65: the same over bytes. -/
theorem C65_bytes_exactly (F : Features) (s : BitVec 8) (t : Buf .bytes) :
    (∀ f, bytesFeature s.toNat = some f →
      BytesMessage.tryFromIn F (s :: t) =
        if F.on f then BytesMessage.tryFromIn (.all F.std) (s :: t) else .err .invalidData) ∧
    (bytesFeature s.toNat = none → BytesMessage.tryFromIn F (s :: t) = .err .invalidData) := by
  have e : ∀ G : Features, BytesMessage.tryFromIn G (s :: t) =
      BytesMessage.ofStatusIn G s.toNat (s :: t) := fun _ => rfl
  simp only [e]
  have hs := s.isLt
  generalize s.toNat = c at *
  unfold bytesFeature BytesMessage.ofStatusIn
  by_cases h1 : c < 0x80
  · rw [if_pos h1]
    refine ⟨fun f h => (nomatch h), fun _ => ?_⟩
    rw [if_neg (by omega), if_neg (by omega), if_neg (by omega)]
  · rw [if_neg h1]
    by_cases h2 : c < 0xF0
    · rw [if_pos h2]
      refine ⟨fun f h => ?_, fun h => (nomatch h)⟩
      cases h
      by_cases hf : F.on .channelVoice1 = true
      · rw [if_pos ⟨hf, by omega, by omega⟩, if_pos hf, if_pos ⟨rfl, by omega, by omega⟩]
      · rw [if_neg (fun h => hf h.1), if_neg (by omega), if_neg (by omega), if_neg hf]
    · rw [if_neg h2]
      by_cases h3 : c = 0xF0
      · rw [if_pos h3]
        refine ⟨fun f h => ?_, fun h => (nomatch h)⟩
        cases h
        rw [if_neg (by omega)]
        by_cases hf : F.on .sysex7 = true
        · rw [if_pos ⟨hf, h3⟩, if_pos hf, if_neg (by omega), if_pos ⟨rfl, h3⟩]
        · rw [if_neg (fun h => hf h.1), if_neg (by omega), if_neg hf]
      · rw [if_neg h3]
        refine ⟨fun f h => ?_, fun h => (nomatch h)⟩
        cases h
        rw [if_neg (by omega), if_neg (by omega)]
        by_cases hf : F.on .systemCommon = true
        · have h4 : ¬(0x80 ≤ c ∧ c ≤ 0xEF) := by omega
          simp [hf, h3, h4, Features.all]
        · rw [if_neg (fun h => hf h.1), if_neg hf]

theorem lookup_filter {α : Type} (p : α → Bool) (c : Nat) : ∀ (l : List (Nat × α)),
    (l.map Prod.fst).Nodup →
    (l.filter fun x => p x.2).lookup c = (l.lookup c).filter p
  | [], _ => rfl
  | (d, a) :: l, hn => by
    rw [List.map_cons, List.nodup_cons] at hn
    have ih := lookup_filter p c l hn.2
    by_cases hc : c = d
    · subst hc
      have h0 : l.lookup c = none := by
        rw [List.lookup_eq_none_iff]
        intro x hx
        have : x.1 ≠ c := fun e => hn.1 (List.mem_map.mpr ⟨x, hx, e⟩)
        simpa using fun e => this e.symm
      by_cases hp : p a = true
      · rw [List.filter_cons_of_pos (by exact hp)]
        simp [List.lookup, Option.filter_some, hp]
      · rw [List.filter_cons_of_neg (by exact hp), ih, h0]
        simp [List.lookup, Option.filter_some, hp]
    · have e : (c == d) = false := by simpa using hc
      by_cases hp : p a = true
      · rw [List.filter_cons_of_pos (by exact hp)]
        simp only [List.lookup, e]
        exact ih
      · rw [List.filter_cons_of_neg (by exact hp)]
        simp only [List.lookup, e]
        exact ih

/-- C65: the same of packets. -/
theorem C65_packet_exactly (F : Features) (b : Buf .ump) :
    (∀ f : PacketKind, fieldAt b 0 0 4 = some f.code →
      Packet.tryFromIn F b = if F.on f then Packet.tryFrom b else .err .invalidData) ∧
    ((∀ f : PacketKind, fieldAt b 0 0 4 ≠ some f.code) →
      Packet.tryFromIn F b = .err .invalidData) := by
  cases b with
  | nil => exact ⟨fun f h => (nomatch h), fun _ => rfl⟩
  | cons w t =>
    have e : Packet.tryFromIn F (w :: t) =
        dispatch PacketKind.tryFrom (Packet.arms.filter fun x => F.on x.2) (field w 0 4) (w :: t) := by
      rw [← Packet.type_nibble]
      rfl
    rw [e, packet_tryFrom_cons, fieldAt_cons]
    unfold dispatch
    rw [lookup_filter _ _ _ (by decide)]
    constructor
    · intro f hf
      rw [Option.some.inj hf, packet_arms_lookup]
      by_cases h : F.on f = true
      · rw [if_pos h, Option.filter_some, if_pos h]
      · rw [if_neg h, Option.filter_some, if_neg h]
    · intro h
      cases e : Packet.arms.lookup (field w 0 4) with
      | none => rfl
      | some k => exact absurd (by rw [packet_arms_code e]) (h k)

/-- C65: a build with more groups of messages gives the same result wherever a build with fewer
succeeds.  Missing: the same for `std`, which the code violates. -/
theorem C65_additive_partial (F G : Features) (h : F.Within G) :
    (∀ b x, UmpMessage.tryFromIn F b = .ok x → UmpMessage.tryFromIn G b = .ok x) ∧
    (∀ b x, BytesMessage.tryFromIn F b = .ok x → BytesMessage.tryFromIn G b = .ok x) ∧
    (∀ b x, Packet.tryFromIn F b = .ok x → Packet.tryFromIn G b = .ok x) := by
  refine ⟨fun b x hx => ?_, fun b x hx => ?_, fun b x hx => ?_⟩
  · by_cases hf : ∃ f : PacketKind, fieldAt b 0 0 4 = some f.code
    · obtain ⟨f, hf⟩ := hf
      rw [(C65_ump_exactly F b).1 f hf] at hx
      rw [(C65_ump_exactly G b).1 f hf, ← h.2]
      split at hx
      · rename_i on
        rw [if_pos (h.1 f on), hx]
      · cases hx
    · rw [(C65_ump_exactly F b).2 (fun f e => hf ⟨f, e⟩)] at hx
      cases hx
  · cases b with
    | nil => cases hx
    | cons s t =>
      cases hf : bytesFeature s.toNat with
      | none => rw [(C65_bytes_exactly F s t).2 hf] at hx; cases hx
      | some f =>
        rw [(C65_bytes_exactly F s t).1 f hf] at hx
        rw [(C65_bytes_exactly G s t).1 f hf, ← h.2]
        split at hx
        · rename_i on
          rw [if_pos (h.1 f on), hx]
        · cases hx
  · by_cases hf : ∃ f : PacketKind, fieldAt b 0 0 4 = some f.code
    · obtain ⟨f, hf⟩ := hf
      rw [(C65_packet_exactly F b).1 f hf] at hx
      rw [(C65_packet_exactly G b).1 f hf]
      split at hx
      · rename_i on
        rw [if_pos (h.1 f on), hx]
      · cases hx
    · rw [(C65_packet_exactly F b).2 (fun f e => hf ⟨f, e⟩)] at hx
      cases hx

example : UmpMessage.tryFromIn ⟨fun f => f == .channelVoice2, true⟩ [0x40904000#32, 0x10000000] =
      .ok (.fixed Msg.cv2NoteOn, [0x40904000#32, 0x10000000]) ∧
    UmpMessage.tryFromIn ⟨fun f => f == .channelVoice1, true⟩ [0x40904000#32, 0x10000000] =
      .err .invalidData ∧
    BytesMessage.tryFromIn ⟨fun f => f == .sysex7, false⟩ [0xF0#8, 0x7F, 0xF7] =
      .ok (.sysex7, [0xF0#8, 0x7F, 0xF7]) ∧
    BytesMessage.tryFromIn ⟨fun f => f == .sysex7, false⟩ [0x90#8, 0x7F, 0x40] =
      .err .invalidData ∧
    Packet.tryFromIn ⟨fun f => f == .sysex7, false⟩ [0x30010000#32, 0] =
      .ok (.sysex7, [0x30010000#32, 0]) ∧
    Features.Within ⟨fun f => f == .channelVoice2, true⟩ (.all true) :=
  ⟨by decide +kernel, by decide +kernel, by decide +kernel, by decide +kernel, by decide +kernel,
    fun _ _ => rfl, rfl⟩

/-! ## Without `std` -/

theorem FlexText.tryFromIn_iff (t : FlexText) (b : Buf .ump) :
    t.tryFromIn false b = .ok b ↔ t.AcceptsBytes b := by
  unfold tryFromIn
  by_cases hl : b.length < 4
  · rw [if_pos hl]
    constructor
    · intro h; cases h
    · intro A
      have := A.len
      omega
  · rw [if_neg hl]
    have hb : 0 < b.length := by omega
    have hc : Fld.flexOptionalChannel.validate32 b = .ok () := rfl
    rw [Sx.seq_ok, Sx.seq_ok, Sx.seq_ok, Sx.seq_ok, Sx.seq_ok, Sx.seq_ok, Sx.seq_ok,
      validate_type_iff hb, groups_iff (by omega) _ hb, bank_iff, status_iff]
    have hf : validateFormats b = .ok () ↔ _ := formats_iff (k := 4) (by omega) 0xD 4 (by omega) b
    rw [hf]
    constructor
    · rintro ⟨_, h2, _, h3, h4, h5, _, _⟩
      exact ⟨by omega, h5, h2, h3, h4⟩
    · intro A
      refine ⟨?_, A.groups, hc, A.banks, A.statuses, A.formats, rfl, rfl⟩
      obtain ⟨w, e1, _, e3⟩ := typedRun_get (k := 4) (ty := 0xD) (by omega)
        (typedRun_pos (k := 4) (ty := 0xD) (c := 8) A.formats)
      rw [Nat.mul_zero] at e1
      rw [fieldAt, e1, Option.map_some, e3]

theorem StreamText.tryFromIn_iff {t : StreamText} (b : Buf .ump) :
    t.tryFromIn false b = .ok b ↔ t.AcceptsBytes b := by
  unfold tryFromIn
  by_cases hl : b.length < 4
  · rw [if_pos hl]
    constructor
    · intro h; cases h
    · intro A
      have := A.len
      omega
  · rw [if_neg hl]
    have hb : 0 < b.length := by omega
    have hbl : t.checkBlock b = .ok () ↔
        (t.offset = 1 → ∀ j, 4 * (j + 1) ≤ b.length → fieldAt b (4 * j) 16 8 = fieldAt b 0 16 8) := by
      unfold checkBlock
      by_cases h1 : t.offset = 1
      · rw [if_pos h1, validateBlock_iff hb]
        exact ⟨fun h _ => h, fun h => h h1⟩
      · rw [if_neg h1]
        exact ⟨fun _ h => absurd h h1, fun _ => rfl⟩
    rw [Sx.seq_ok, Sx.seq_ok, Sx.seq_ok, Sx.seq_ok, Sx.seq_ok,
      FlexText.validate_type_iff hb, status_iff, hbl]
    have hf : Fld.streamFormats.validate32 b = .ok () ↔ _ :=
      formats_iff (k := 4) (by omega) 0xF 2 (by omega) b
    rw [hf]
    constructor
    · rintro ⟨_, h2, h3, h4, _, _⟩
      exact ⟨by omega, h3, h2, h4⟩
    · intro A
      refine ⟨?_, A.statuses, A.formats, A.blocks, rfl, rfl⟩
      obtain ⟨w, e1, _, e3⟩ := typedRun_get (k := 4) (ty := 0xF) (by omega)
        (typedRun_pos (k := 4) (ty := 0xF) (c := 4) A.formats)
      rw [Nat.mul_zero] at e1
      rw [fieldAt, e1, Option.map_some, e3]

/-- C65: the slices text messages are parsed from without `std`: what the text bytes are does not
matter. -/
theorem C65_text_accepts_exactly (b : Buf .ump) :
    (∀ t : FlexText, t.tryFromIn false b = .ok b ↔ t.AcceptsBytes b) ∧
    ∀ t : StreamText, t ∈ StreamText.all → (t.tryFromIn false b = .ok b ↔ t.AcceptsBytes b) :=
  ⟨fun t => t.tryFromIn_iff b, fun _ _ => StreamText.tryFromIn_iff b⟩

/-- C65: `try_from` of a message type gives with `std` a message over the same slice exactly when
it does so without and the text, if the type has one, is UTF-8. -/
theorem C65_std_exactly (k : UmpKind) (h : Header) (he : (k, h) ∈ umpTable) (b : Buf .ump) :
    k.tryFromIn true b = .ok b ↔ k.tryFromIn false b = .ok b ∧ k.TextReadable b := by
  cases k with
  | fixed d => exact ⟨fun h => ⟨h, trivial⟩, fun h => h.1⟩
  | sysex k => exact ⟨fun h => ⟨h, trivial⟩, fun h => h.1⟩
  | flexText t =>
    show t.tryFrom b = .ok b ↔ t.tryFromIn false b = .ok b ∧ _
    rw [FlexText.tryFrom_iff, FlexText.tryFromIn_iff]
    exact ⟨fun A => ⟨⟨A.len, A.formats, A.groups, A.banks, A.statuses⟩, A.text⟩,
      fun ⟨A, h⟩ => ⟨A.len, A.formats, A.groups, A.banks, A.statuses, h⟩⟩
  | streamText t =>
    show t.tryFrom b = .ok b ↔ t.tryFromIn false b = .ok b ∧ _
    rw [StreamText.tryFrom_iff (StreamText.known_of_mem (table_other _ he).1), StreamText.tryFromIn_iff]
    exact ⟨fun A => ⟨⟨A.len, A.formats, A.statuses, A.blocks⟩, A.text⟩,
      fun ⟨A, h⟩ => ⟨A.len, A.formats, A.statuses, A.blocks, h⟩⟩

/-- C65: without `std` the text of an accepted message can be read byte by byte (the only reader
there is), whether it is UTF-8 or not. -/
theorem C65_text_bytes (b : Buf .ump) :
    (∀ t : FlexText, t.tryFromIn false b = .ok b →
      ∃ l, FlexText.textBytes b = .ok l ∧
        l.map BitVec.toNat = (FlexText.slots b).dropLast.filter (· ≠ 0)) ∧
    ∀ t : StreamText, t ∈ StreamText.all → t.tryFromIn false b = .ok b →
      ∃ l, t.textBytes b = .ok l ∧ l.map BitVec.toNat = (t.slots b).filter (· ≠ 0) := by
  refine ⟨fun t h => ?_, fun t ht _ => ?_⟩
  · have A := (FlexText.tryFromIn_iff t b).mp h
    exact ⟨_, FlexText.textBytes_eq b A.len, by rw [FlexText.dropLast_slots, filter_toNat]⟩
  · have K := StreamText.known_of_mem ht
    exact ⟨_, StreamText.textBytes_eq K b, by rw [StreamText.slots_eq K, filter_toNat]⟩

theorem FlexText.tryFromIn_false_self {t : FlexText} {b b' : Buf .ump}
    (h : t.tryFromIn false b = .ok b') : b' = b := by
  unfold tryFromIn at h
  split at h
  · cases h
  · rw [Sx.seq_ok, Sx.seq_ok, Sx.seq_ok, Sx.seq_ok, Sx.seq_ok, Sx.seq_ok, Sx.seq_ok] at h
    have := h.2.2.2.2.2.2.2
    cases this; rfl

theorem StreamText.tryFromIn_false_self {t : StreamText} {b b' : Buf .ump}
    (h : t.tryFromIn false b = .ok b') : b' = b := by
  unfold tryFromIn at h
  split at h
  · cases h
  · rw [Sx.seq_ok, Sx.seq_ok, Sx.seq_ok, Sx.seq_ok, Sx.seq_ok] at h
    have := h.2.2.2.2.2
    cases this; rfl

theorem FlexText.tryFromIn_false_ne_panic (t : FlexText) (b : Buf .ump) :
    t.tryFromIn false b ≠ .panic := by
  unfold tryFromIn
  by_cases hl : b.length < 4
  · rw [if_pos hl]; simp
  · rw [if_neg hl]
    have hb : 0 < b.length := by omega
    refine seq_ne_panic (at_check_ne_panic hb _) (seq_ne_panic (check_ne_panic _)
      (seq_ne_panic (by simp [Fld.validate32]) (seq_ne_panic (check_ne_panic _)
        (seq_ne_panic (check_ne_panic _) (seq_ne_panic ?_
          (seq_ne_panic (by simp [ifStd]) (by simp)))))))
    exact formats_no_panic 4 0xD (fun w => U32.crumb w 4 == 0#2) (fun w => U32.crumb w 4 == 1#2)
      (fun w => U32.crumb w 4 == 2#2) (fun w => U32.crumb w 4 == 3#2) b

theorem StreamText.tryFromIn_false_ne_panic (t : StreamText) (b : Buf .ump) :
    t.tryFromIn false b ≠ .panic := by
  unfold tryFromIn
  by_cases hl : b.length < 4
  · rw [if_pos hl]; simp
  · rw [if_neg hl]
    have hb : 0 < b.length := by omega
    refine seq_ne_panic (at_check_ne_panic hb _)
      (seq_ne_panic (check_ne_panic _)
      (seq_ne_panic ?_ (seq_ne_panic ?_
        (seq_ne_panic (by simp [ifStd]) (by simp)))))
    · exact formats_no_panic 4 0xF (fun w => U32.crumb w 2 == 0#2) (fun w => U32.crumb w 2 == 1#2)
        (fun w => U32.crumb w 2 == 2#2) (fun w => U32.crumb w 2 == 3#2) b
    · unfold checkBlock
      split
      · exact at_check_ne_panic hb _
      · simp

theorem table_total_in {k : UmpKind} {h : Header} (he : (k, h) ∈ umpTable) (std : Bool)
    (b : Buf .ump) : k.tryFromIn std b = .ok b ∨ ∃ e, k.tryFromIn std b = .err e := by
  cases std with
  | true => rw [UmpKind.tryFromIn_true]; exact table_total he b
  | false =>
    cases k with
    | fixed d => exact table_total he b
    | sysex k => exact table_total he b
    | flexText t =>
      show t.tryFromIn false b = .ok b ∨ ∃ e, t.tryFromIn false b = .err e
      cases h : t.tryFromIn false b with
      | ok b' => rw [FlexText.tryFromIn_false_self h]; exact .inl rfl
      | err e => exact .inr ⟨e, rfl⟩
      | panic => exact absurd h (t.tryFromIn_false_ne_panic b)
    | streamText t =>
      show t.tryFromIn false b = .ok b ∨ ∃ e, t.tryFromIn false b = .err e
      cases h : t.tryFromIn false b with
      | ok b' => rw [StreamText.tryFromIn_false_self h]; exact .inl rfl
      | err e => exact .inr ⟨e, rfl⟩
      | panic => exact absurd h (t.tryFromIn_false_ne_panic b)

theorem arms_total_in {arms : List (Nat × UmpKind)} (std : Bool)
    (hs : ∀ p ∈ arms, p.2 ∈ umpTable.map Prod.fst) (b : Buf .ump) : ∀ c k, (c, k) ∈ arms →
      UmpKind.tryFromIn std k b = .ok b ∨ ∃ e, UmpKind.tryFromIn std k b = .err e := by
  intro c k h
  obtain ⟨⟨k', h'⟩, h1, h2⟩ := List.mem_map.mp (hs _ h)
  cases h2
  exact table_total_in h1 std b

theorem flex_arms_table : ∀ p ∈ FlexData.arms, p.2 ∈ umpTable.map Prod.fst := by decide +kernel

theorem stream_arms_table : ∀ p ∈ UmpStream.arms, p.2 ∈ umpTable.map Prod.fst := by decide +kernel

theorem flex_total_in (std : Bool) (b : Buf .ump) :
    (∃ k, FlexData.tryFromIn std b = .ok (k, b)) ∨ ∃ e, FlexData.tryFromIn std b = .err e := by
  unfold FlexData.tryFromIn
  by_cases hb : b = []
  · rw [if_pos (by rw [hb]; rfl)]; exact .inr ⟨_, rfl⟩
  · rw [if_neg (by simpa using hb), at'_lt (head_ne hb), Res.ok_bind]
    exact dispatch_cases _ _ (arms_total_in std flex_arms_table b)

theorem stream_total_in (std : Bool) (b : Buf .ump) :
    (∃ k, UmpStream.tryFromIn std b = .ok (k, b)) ∨ ∃ e, UmpStream.tryFromIn std b = .err e := by
  unfold UmpStream.tryFromIn
  by_cases hb : b = []
  · rw [if_pos (by rw [hb]; rfl)]; exact .inr ⟨_, rfl⟩
  · rw [if_neg (by simpa using hb), at'_lt (head_ne hb), Res.ok_bind]
    exact dispatch_cases _ _ (arms_total_in std stream_arms_table b)

/-- C65: no build panics on any slice. -/
theorem C65_total (F : Features) (b : Buf .ump) (c : Buf .bytes) :
    ((∃ k, UmpMessage.tryFromIn F b = .ok (k, b)) ∨ ∃ e, UmpMessage.tryFromIn F b = .err e) ∧
    ((∃ k, BytesMessage.tryFromIn F c = .ok (k, c)) ∨ ∃ e, BytesMessage.tryFromIn F c = .err e) ∧
    ((∃ x, Packet.tryFromIn F b = .ok x) ∨ ∃ e, Packet.tryFromIn F b = .err e) := by
  refine ⟨?_, ?_, ?_⟩
  · by_cases hf : ∃ f : PacketKind, fieldAt b 0 0 4 = some f.code
    · obtain ⟨f, hf⟩ := hf
      rw [(C65_ump_exactly F b).1 f hf]
      split
      · have hb : b ≠ [] := by
          intro e; rw [e] at hf; cases hf
        unfold UmpMessage.tryFromIn
        rw [if_neg (by simpa using hb), at'_lt (head_ne hb), Res.ok_bind]
        simp only [UmpMessage.ofTypeIn, Features.all, if_true]
        split
        · exact flex_total_in _ b
        · exact map_total _ (cv1_total .ump b)
        · exact map_total _ (cv2_total b)
        · exact sysex_total _ (C05_sysex_total .s7 b)
        · exact sysex_total _ (C05_sysex_total .s8 b)
        · exact map_total _ (sys_total .ump b)
        · exact stream_total_in _ b
        · exact map_total _ (utility_total b)
        · exact .inr ⟨_, rfl⟩
      · exact .inr ⟨_, rfl⟩
    · rw [(C65_ump_exactly F b).2 (fun f e => hf ⟨f, e⟩)]
      exact .inr ⟨_, rfl⟩
  · cases c with
    | nil => exact .inr ⟨_, rfl⟩
    | cons s t =>
      cases hf : bytesFeature s.toNat with
      | none => rw [(C65_bytes_exactly F s t).2 hf]; exact .inr ⟨_, rfl⟩
      | some f =>
        rw [(C65_bytes_exactly F s t).1 f hf]
        split
        · have : BytesMessage.tryFromIn (.all F.std) (s :: t) =
              BytesMessage.tryFromIn (.all true) (s :: t) := rfl
          rw [this, (C65_all_features [] (s :: t)).2.1]
          exact (C05_bytes_enums_total (s :: t)).1
        · exact .inr ⟨_, rfl⟩
  · by_cases hf : ∃ f : PacketKind, fieldAt b 0 0 4 = some f.code
    · obtain ⟨f, hf⟩ := hf
      rw [(C65_packet_exactly F b).1 f hf]
      split
      · by_cases hk : ∃ k : PacketKind, k.Accepts b
        · obtain ⟨k, hk⟩ := hk
          exact .inl ⟨_, (C34_packet_accepts_exactly b).1 k hk⟩
        · exact .inr ⟨_, (C34_packet_accepts_exactly b).2 (fun k h => hk ⟨k, h⟩)⟩
      · exact .inr ⟨_, rfl⟩
    · rw [(C65_packet_exactly F b).2 (fun f e => hf ⟨f, e⟩)]
      exact .inr ⟨_, rfl⟩

example : UmpMessage.tryFromIn ⟨fun _ => false, true⟩ [0x20933C64] = .err .invalidData ∧
    UmpMessage.tryFromIn (.all false) [0x20933C64] = .ok (.fixed Msg.cv1NoteOn, [0x20933C64]) := by
  decide +kernel

theorem dispatch_std {arms : List (Nat × UmpKind)} (hn : (arms.map Prod.fst).Nodup)
    (hs : ∀ p ∈ arms, p.2 ∈ umpTable.map Prod.fst) (c : Nat) (b : Buf .ump) (k : UmpKind) :
    dispatch (UmpKind.tryFromIn true) arms c b = .ok (k, b) ↔
      dispatch (UmpKind.tryFromIn false) arms c b = .ok (k, b) ∧ k.TextReadable b := by
  rw [dispatch_iff hn, dispatch_iff hn]
  constructor
  · rintro ⟨h1, h2⟩
    obtain ⟨⟨k', h'⟩, e1, e2⟩ := List.mem_map.mp (hs _ h1)
    cases e2
    obtain ⟨h3, h4⟩ := (C65_std_exactly k h' e1 b).mp h2
    exact ⟨⟨h1, h3⟩, h4⟩
  · rintro ⟨⟨h1, h3⟩, h4⟩
    obtain ⟨⟨k', h'⟩, e1, e2⟩ := List.mem_map.mp (hs _ h1)
    cases e2
    exact ⟨h1, (C65_std_exactly k h' e1 b).mpr ⟨h3, h4⟩⟩

theorem readable_asUmp {x : Res (MsgDesc × Buf .ump)} {k : UmpKind} {b : Buf .ump}
    (h : (x >>= fun y => pure (asUmp y)) = .ok (k, b)) : k.TextReadable b := by
  cases x with
  | ok y => cases h; trivial
  | err e => cases h
  | panic => cases h

theorem readable_sysex {x : Res (Buf .ump)} {s : Sx} {k : UmpKind} {b : Buf .ump}
    (h : (x >>= fun y => pure (UmpKind.sysex s, y)) = .ok (k, b)) : k.TextReadable b := by
  cases x with
  | ok y => cases h; trivial
  | err e => cases h
  | panic => cases h

/-- C65: the same of `UmpMessage::try_from`, whatever the other features: adding `std` refuses
exactly the messages whose text is not UTF-8. -/
theorem C65_ump_std_exactly (on : PacketKind → Bool) (b : Buf .ump) (k : UmpKind) :
    UmpMessage.tryFromIn ⟨on, true⟩ b = .ok (k, b) ↔
      UmpMessage.tryFromIn ⟨on, false⟩ b = .ok (k, b) ∧ k.TextReadable b := by
  by_cases hb : b = []
  · subst hb
    exact ⟨fun h => (nomatch h), fun h => (nomatch h.1)⟩
  · unfold UmpMessage.tryFromIn
    rw [if_neg (by simpa using hb), if_neg (by simpa using hb), at'_lt (head_ne hb), Res.ok_bind,
      Res.ok_bind]
    simp only [UmpMessage.ofTypeIn]
    split
    · split
      · unfold FlexData.tryFromIn
        rw [if_neg (by simpa using hb), if_neg (by simpa using hb), at'_lt (head_ne hb), Res.ok_bind,
          Res.ok_bind]
        exact dispatch_std (by decide +kernel) flex_arms_table _ b k
      · exact ⟨fun h => (nomatch h), fun h => (nomatch h.1)⟩
    · split
      · exact ⟨fun h => ⟨h, readable_asUmp h⟩, And.left⟩
      · exact ⟨fun h => (nomatch h), fun h => (nomatch h.1)⟩
    · split
      · exact ⟨fun h => ⟨h, readable_asUmp h⟩, And.left⟩
      · exact ⟨fun h => (nomatch h), fun h => (nomatch h.1)⟩
    · split
      · exact ⟨fun h => ⟨h, readable_sysex h⟩, And.left⟩
      · exact ⟨fun h => (nomatch h), fun h => (nomatch h.1)⟩
    · split
      · exact ⟨fun h => ⟨h, readable_sysex h⟩, And.left⟩
      · exact ⟨fun h => (nomatch h), fun h => (nomatch h.1)⟩
    · split
      · exact ⟨fun h => ⟨h, readable_asUmp h⟩, And.left⟩
      · exact ⟨fun h => (nomatch h), fun h => (nomatch h.1)⟩
    · split
      · unfold UmpStream.tryFromIn
        rw [if_neg (by simpa using hb), if_neg (by simpa using hb), at'_lt (head_ne hb), Res.ok_bind,
          Res.ok_bind]
        exact dispatch_std (by decide +kernel) stream_arms_table _ b k
      · exact ⟨fun h => (nomatch h), fun h => (nomatch h.1)⟩
    · split
      · exact ⟨fun h => ⟨h, readable_asUmp h⟩, And.left⟩
      · exact ⟨fun h => (nomatch h), fun h => (nomatch h.1)⟩
    · exact ⟨fun h => (nomatch h), fun h => (nomatch h.1)⟩

example : (UmpKind.streamText .endpointName, (⟨15, 6, 10, 3⟩ : Header)) ∈ umpTable ∧
    StreamText.AcceptsBytes .endpointName [0xF003FF00#32, 0, 0, 0] ∧
    ¬ UmpKind.TextReadable (.streamText .endpointName) [0xF003FF00#32, 0, 0, 0] := by
  have h1 : UmpKind.tryFromIn false (.streamText .endpointName) [0xF003FF00#32, 0, 0, 0] =
      .ok [0xF003FF00#32, 0, 0, 0] := by decide +kernel
  have h2 : UmpKind.tryFromIn true (.streamText .endpointName) [0xF003FF00#32, 0, 0, 0] ≠
      .ok [0xF003FF00#32, 0, 0, 0] := by decide +kernel
  have hm : (UmpKind.streamText .endpointName, (⟨15, 6, 10, 3⟩ : Header)) ∈ umpTable := by
    decide +kernel
  exact ⟨hm, StreamText.tryFromIn_iff (t := .endpointName) _ |>.mp h1,
    fun h => h2 ((C65_std_exactly _ _ hm _).mpr ⟨h1, h⟩)⟩

/-- C65: an endpoint name of the single byte 0xFF is accepted without `std` and refused with it,
so adding the feature takes a message away. -/
theorem C65_std_violation : ∃ b : Buf .ump, ∃ k,
    UmpMessage.tryFromIn (.all false) b = .ok (k, b) ∧
    UmpMessage.tryFromIn (.all true) b = .err .invalidData :=
  ⟨[0xF003FF00#32, 0, 0, 0], .streamText .endpointName, by decide +kernel, by decide +kernel⟩

/-! ## Packets -/

theorem flex_arms_text : ∀ p ∈ FlexData.arms, ∀ t, p.2 ≠ .streamText t := by
  have : (FlexData.arms.all fun p => match p.2 with | .streamText _ => false | _ => true) = true := by
    decide +kernel
  intro p hp t e
  have := List.all_eq_true.mp this p hp
  rw [e] at this
  cases this

theorem stream_arms_text : ∀ p ∈ UmpStream.arms, ∀ t, p.2 ≠ .flexText t := by
  have : (UmpStream.arms.all fun p => match p.2 with | .flexText _ => false | _ => true) = true := by
    decide +kernel
  intro p hp t e
  have := List.all_eq_true.mp this p hp
  rw [e] at this
  cases this

theorem no_text_asUmp {x : Res (MsgDesc × Buf .ump)} {k : UmpKind} {b : Buf .ump}
    (h : (x >>= fun y => pure (asUmp y)) = .ok (k, b)) : ∃ d, k = .fixed d := by
  cases x with
  | ok y => cases h; exact ⟨_, rfl⟩
  | err e => cases h
  | panic => cases h

theorem no_text_sysex {x : Res (Buf .ump)} {s : Sx} {k : UmpKind} {b : Buf .ump}
    (h : (x >>= fun y => pure (UmpKind.sysex s, y)) = .ok (k, b)) : k = .sysex s := by
  cases x with
  | ok y => cases h; rfl
  | err e => cases h
  | panic => cases h

/-- Without `std` too a text message is parsed by its type and has a place in the table. -/
theorem text_of_accepted {F : Features} {b : Buf .ump} {k : UmpKind}
    (hk : (∃ t, k = .flexText t) ∨ ∃ t, k = .streamText t)
    (hok : UmpMessage.tryFromIn F b = .ok (k, b)) :
    k.tryFromIn F.std b = .ok b ∧ ∃ h, (k, h) ∈ umpTable := by
  have hb : b ≠ [] := by intro e; subst e; cases hok
  have nofix : ∀ d, k ≠ .fixed d := by
    rintro d rfl
    rcases hk with ⟨t, e⟩ | ⟨t, e⟩ <;> cases e
  have nosx : ∀ s, k ≠ .sysex s := by
    rintro s rfl
    rcases hk with ⟨t, e⟩ | ⟨t, e⟩ <;> cases e
  have key : ∀ {arms : List (Nat × UmpKind)} {c : Nat}, (arms.map Prod.fst).Nodup →
      (∀ p ∈ arms, p.2 ∈ umpTable.map Prod.fst) →
      dispatch (UmpKind.tryFromIn F.std) arms c b = .ok (k, b) →
      k.tryFromIn F.std b = .ok b ∧ ∃ h, (k, h) ∈ umpTable := by
    intro arms c hn hs h
    obtain ⟨h1, h2⟩ := (dispatch_iff hn).mp h
    obtain ⟨⟨k', h'⟩, e1, e2⟩ := List.mem_map.mp (hs _ h1)
    cases e2
    exact ⟨h2, h', e1⟩
  unfold UmpMessage.tryFromIn at hok
  rw [if_neg (by simpa using hb), at'_lt (head_ne hb), Res.ok_bind] at hok
  simp only [UmpMessage.ofTypeIn] at hok
  split at hok <;> (try split at hok) <;> first
    | (cases hok; done)
    | (obtain ⟨d, e⟩ := no_text_asUmp hok; exact absurd e (nofix d))
    | exact absurd (no_text_sysex hok) (nosx _)
    | (unfold FlexData.tryFromIn at hok
       rw [if_neg (by simpa using hb), at'_lt (head_ne hb), Res.ok_bind] at hok
       exact key (by decide +kernel) flex_arms_table hok)
    | (unfold UmpStream.tryFromIn at hok
       rw [if_neg (by simpa using hb), at'_lt (head_ne hb), Res.ok_bind] at hok
       exact key (by decide +kernel) stream_arms_table hok)

/-- The chunks of `packets()` of a message accepted with all groups of messages. -/
theorem chunks_in (std : Bool) {b : Buf .ump} {k : UmpKind}
    (hok : UmpMessage.tryFromIn (.all std) b = .ok (k, b)) (hc : k.Complete b)
    (hf : k ≠ .fixed Msg.streamFunctionBlockDiscovery) :
    ∃ d ps h, ∃ kind : PacketKind, UmpMessage.data (k, b) = .ok d ∧
      UmpMessage.packets (k, b) = .ok ps ∧ (k, h) ∈ umpTable ∧ ps.flatten = d ∧
      kind.code = h.type ∧ fieldAt b 0 0 4 = some h.type ∧
      (∀ c ∈ ps, c.length = k.packetWords) ∧
      ∀ c ∈ ps, Packet.tryFrom c = .ok (kind, c) := by
  have hstd : k.TextReadable b → _ := fun hr =>
    accepted_chunks b b k (by
      rw [← (C65_all_features b []).1]
      cases std with
      | true => exact hok
      | false => exact (C65_ump_std_exactly _ b k).mpr ⟨hok, hr⟩) hc hf
  cases k with
  | fixed d => exact hstd trivial
  | sysex s => exact hstd trivial
  | flexText t =>
    obtain ⟨hk, h, he⟩ := text_of_accepted (.inl ⟨t, rfl⟩) hok
    have hk' : t.tryFromIn false b = .ok b := by
      cases std with
      | true => exact ((C65_std_exactly _ h he b).mp hk).1
      | false => exact hk
    have hT : h.type = 13 := by rw [show h = _ from (table_other _ he).2]
    obtain ⟨d, ps, q1, q2, q3, q4, q5, q6⟩ :=
      flex_data_of_formats ((FlexText.tryFromIn_iff t b).mp hk').formats hc
    have h0 : fieldAt b 0 0 4 = some h.type := by
      rw [hT]
      exact run_type (b := b) (k := 4) (t := 13) (j := 0) (by decide)
        (typedRun_pos (k := 4) (ty := 0xD) (c := 8) ((FlexText.tryFromIn_iff t b).mp hk').formats)
    refine ⟨d, ps, h, .flexData, q1, q3, he, q6, hT.symm, h0, q5, chunk_packets (fun c hc => q5 c hc) ?_
      (fun h => by rcases h with h | h <;> cases h) (fun h => by cases h)⟩
    intro j c hj
    rw [chunk_field (show d <+: b by rw [q2]; exact List.take_prefix ..) (by decide : 0 < 4) q5 q6 hj]
    refine run_type (k := 4) (by decide) ?_
    show j < (FlexText.run b).length
    rw [← q4]
    exact (List.getElem?_eq_some_iff.mp hj).1
  | streamText t =>
    obtain ⟨hk, h, he⟩ := text_of_accepted (.inr ⟨t, rfl⟩) hok
    have hk' : t.tryFromIn false b = .ok b := by
      cases std with
      | true => exact ((C65_std_exactly _ h he b).mp hk).1
      | false => exact hk
    have hT : h.type = 15 := by rw [show h = _ from (table_other _ he).2]
    obtain ⟨d, ps, q1, q2, q3, q4, q5, q6⟩ :=
      stream_data_of_formats ((StreamText.tryFromIn_iff b).mp hk').formats hc
    have h0 : fieldAt b 0 0 4 = some h.type := by
      rw [hT]
      exact run_type (b := b) (k := 4) (t := 15) (j := 0) (by decide)
        (typedRun_pos (k := 4) (ty := 0xF) (c := 4) ((StreamText.tryFromIn_iff b).mp hk').formats)
    refine ⟨d, ps, h, .umpStream, q1, q3, he, q6, hT.symm, h0, q5, chunk_packets (fun c hc => q5 c hc) ?_
      (fun h => by rcases h with h | h <;> cases h) (fun h => by cases h)⟩
    intro j c hj
    rw [chunk_field (show d <+: b by rw [q2]; exact List.take_prefix ..) (by decide : 0 < 4) q5 q6 hj]
    refine run_type (k := 4) (by decide) ?_
    show j < (StreamText.run b).length
    rw [← q4]
    exact (List.getElem?_eq_some_iff.mp hj).1

/-- C65: in every build the packets of a message `UmpMessage::try_from` accepted can be iterated:
the arm of `Packet::try_from` its packets need is there, so the iterator does not panic.
Missing: a truncated last packet and `FunctionBlockDiscovery`, as in C33. -/
theorem C65_packets_partial (F : Features) (b : Buf .ump) (k : UmpKind)
    (hok : UmpMessage.tryFromIn F b = .ok (k, b)) (hc : k.Complete b)
    (hf : k ≠ .fixed Msg.streamFunctionBlockDiscovery) :
    ∃ d ps, ∃ kind : PacketKind, UmpMessage.data (k, b) = .ok d ∧
      UmpMessage.packets (k, b) = .ok ps ∧ ps.flatten = d ∧
      (∀ c ∈ ps, c.length = k.packetWords) ∧
      fieldAt b 0 0 4 = some kind.code ∧ F.on kind = true ∧
      ∀ n, Packet.itNextIn F (ps.drop n) =
        .ok (ps[n]?.map fun c => (kind, c), ps.drop (n + 1)) := by
  by_cases hex : ∃ f : PacketKind, fieldAt b 0 0 4 = some f.code
  · obtain ⟨f, hty⟩ := hex
    rw [(C65_ump_exactly F b).1 f hty] at hok
    split at hok
    case isFalse => cases hok
    case isTrue on =>
      obtain ⟨d, ps, h, kind, h1, h2, h3, h4, h5, h0, h6, h7⟩ := chunks_in F.std hok hc hf
      have hfk : f = kind := by
        have e := Option.some.inj (hty.symm.trans h0)
        rw [← h5] at e
        cases f <;> cases kind <;> first | rfl | cases e
      subst hfk
      refine ⟨d, ps, f, h1, h2, h4, h6, hty, on, fun n => ?_⟩
      cases e : ps[n]? with
      | none =>
        have hle := List.getElem?_eq_none_iff.mp e
        rw [List.drop_of_length_le hle, List.drop_of_length_le (by omega)]
        rfl
      | some c =>
        obtain ⟨hlt, hv⟩ := List.getElem?_eq_some_iff.mp e
        rw [List.drop_eq_getElem_cons hlt, hv]
        have hm := List.mem_of_getElem? e
        have hct : fieldAt c 0 0 4 = some f.code := by
          by_cases hk : ∃ k : PacketKind, k.Accepts c
          · obtain ⟨k', hk'⟩ := hk
            have := (h7 c hm).symm.trans ((C34_packet_accepts_exactly c).1 k' hk')
            rw [show f = k' from congrArg Prod.fst (Res.ok.inj this)]
            exact hk'.type
          · have := (h7 c hm).symm.trans ((C34_packet_accepts_exactly c).2 (fun k h => hk ⟨k, h⟩))
            cases this
        have : Packet.tryFromIn F c = .ok (f, c) := by
          rw [(C65_packet_exactly F c).1 f hct, if_pos on, h7 c hm]
        simp only [Packet.itNextIn, this]
        rfl
  · rw [(C65_ump_exactly F b).2 (fun f e => hex ⟨f, e⟩)] at hok
    cases hok

example : UmpMessage.tryFromIn ⟨fun f => f == .umpStream, false⟩
      [0xF4036162#32, 0x63646566, 0x6768696A, 0x6B6C6DFF, 0xFC03FE00, 0, 0, 0] =
      .ok (.streamText .endpointName,
        [0xF4036162#32, 0x63646566, 0x6768696A, 0x6B6C6DFF, 0xFC03FE00, 0, 0, 0]) ∧
    UmpKind.Complete (.streamText .endpointName)
      [0xF4036162#32, 0x63646566, 0x6768696A, 0x6B6C6DFF, 0xFC03FE00, 0, 0, 0] :=
  ⟨by decide +kernel, by show 4 * _ ≤ _; decide⟩

end Midi2
