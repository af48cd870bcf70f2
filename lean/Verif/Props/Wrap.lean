import Verif.Spec.Wrap
import Verif.Props.Dispatch
import Verif.Props.ReparseExact

/-!
# C67: messages as values of the enums
-/

namespace Midi2

theorem via_table : (umpTable.all fun e =>
    match e.1 with
    | .fixed d => match MsgDesc.via.lookup d with
      | some .utility => e.2.type == 0
      | some .systemCommon => e.2.type == 1
      | some .channelVoice1 => e.2.type == 2
      | some .channelVoice2 => e.2.type == 4
      | some .flexData => e.2.type == 13
      | some .umpStream => e.2.type == 15
      | none => false
    | .sysex .s7 => e.2.type == 3
    | .sysex .s8 => e.2.type == 5
    | .flexText _ => e.2.type == 13
    | .streamText _ => e.2.type == 15) = true := by decide +kernel

/-- C67: every message, of whatever type and over whatever buffer, can be turned into an
`UmpMessage`: the variant is the one of its message type in the standard, the message is kept, and
`data()` and `packets()` return (or panic) as those of the message. -/
theorem C67_ump_wrap {k : UmpKind} {h : Header} (he : (k, h) ∈ umpTable) (b : Buf .ump) :
    ∃ v, k.intoUmp b = some v ∧ v.messageType = h.type ∧ v.message = (k, b) ∧
      v.data = k.data b ∧ v.packets = k.packets b := by
  have ht := List.all_eq_true.mp via_table _ he
  cases k with
  | fixed d =>
    simp only at ht
    cases hl : MsgDesc.via.lookup d with
    | none => rw [hl] at ht; cases ht
    | some g =>
      rw [hl] at ht
      simp only [UmpKind.intoUmp, MsgDesc.intoUmp, hl, Option.map_some]
      cases g <;> exact ⟨_, rfl, (beq_iff_eq.mp ht).symm, rfl, rfl, rfl⟩
  | sysex s => cases s <;> exact ⟨_, rfl, (beq_iff_eq.mp ht).symm, rfl, rfl, rfl⟩
  | flexText t => exact ⟨_, rfl, (beq_iff_eq.mp ht).symm, rfl, rfl, rfl⟩
  | streamText t => exact ⟨_, rfl, (beq_iff_eq.mp ht).symm, rfl, rfl, rfl⟩

example : ∃ v, UmpKind.intoUmp (.fixed Msg.cv2NoteOn) [0x409A3C03, 0x80001234] = some v ∧
    v.messageType = 4 ∧ v.message = (.fixed Msg.cv2NoteOn, [0x409A3C03, 0x80001234]) :=
  have ⟨v, h1, h2, h3, _⟩ := C67_ump_wrap (k := .fixed Msg.cv2NoteOn) (h := ⟨4, 8, 4, 9⟩)
    (by decide +kernel) [0x409A3C03, 0x80001234]
  ⟨v, h1, h2, h3⟩

/-- C67: nothing is lost: equal `UmpMessage`s come from messages of the same type with the same
words. -/
theorem C67_ump_wrap_injective {k k' : UmpKind} {h h' : Header} (he : (k, h) ∈ umpTable)
    (he' : (k', h') ∈ umpTable) (b b' : Buf .ump) :
    k.intoUmp b = k'.intoUmp b' ↔ k = k' ∧ b = b' := by
  constructor
  · intro heq
    obtain ⟨v, h1, _, h2, _⟩ := C67_ump_wrap he b
    obtain ⟨v', h1', _, h2', _⟩ := C67_ump_wrap he' b'
    rw [h1, h1'] at heq
    cases Option.some.inj heq
    rw [h2] at h2'
    cases h2'
    exact ⟨rfl, rfl⟩
  · rintro ⟨rfl, rfl⟩; rfl

example : UmpKind.intoUmp (.sysex .s7) [0x30020102, 0] ≠ UmpKind.intoUmp (.sysex .s8) [0x30020102, 0] :=
  fun h => absurd ((C67_ump_wrap_injective (h := ⟨3, 8, 0, 0⟩) (h' := ⟨5, 8, 0, 0⟩) (by decide +kernel)
    (by decide +kernel) _ _).mp h).1 (by decide)

/-- Without the outer variants the parser is that of `Model/Dispatch.lean`. -/
theorem UmpValue.tryFrom_message (b : Buf .ump) :
    (UmpValue.tryFrom b >>= fun v => pure v.message) = UmpMessage.tryFrom b := by
  unfold UmpValue.tryFrom UmpMessage.tryFrom
  by_cases hb : b.isEmpty
  · rw [if_pos hb, if_pos hb]; rfl
  · rw [if_neg hb, if_neg hb]
    cases hw : at' b 0 with
    | err e => rfl
    | panic => rfl
    | ok w =>
      simp only [Res.ok_bind]
      generalize (U32.nibble w 0).toNat = t
      unfold UmpMessage.ofType
      split
      case h_1 => cases FlexData.tryFrom b <;> rfl
      case h_2 => cases ChannelVoice1.tryFrom .ump b <;> rfl
      case h_3 => cases ChannelVoice2.tryFrom b <;> rfl
      case h_4 => cases Sx.s7.tryFrom b <;> rfl
      case h_5 => cases Sx.s8.tryFrom b <;> rfl
      case h_6 => cases SystemCommon.tryFrom .ump b <;> rfl
      case h_7 => cases UmpStream.tryFrom b <;> rfl
      case h_8 => cases Utility.tryFrom b <;> rfl
      case h_9 => split <;> first | rfl | contradiction

theorem bind_ok_inv {α β : Type} {x : Res α} {f : α → Res β} {y : β} (h : (x >>= f) = .ok y) :
    ∃ a, x = .ok a ∧ f a = .ok y := by
  cases x with
  | ok a => exact ⟨a, rfl, h⟩
  | err e => cases h
  | panic => cases h

/-- What the parser returns is a wrapped message. -/
theorem UmpValue.tryFrom_wrapped {b : Buf .ump} {v : UmpValue} (hok : UmpValue.tryFrom b = .ok v) :
    v.message.1.intoUmp v.message.2 = some v := by
  unfold UmpValue.tryFrom at hok
  by_cases hb : b.isEmpty
  · rw [if_pos hb] at hok; cases hok
  · rw [if_neg hb] at hok
    obtain ⟨w, hw, hok⟩ := bind_ok_inv hok
    have hfam : ∀ {d : MsgDesc} {l : List MsgDesc} {g : Via},
        (∀ d ∈ l, MsgDesc.via.lookup d = some g) → d ∈ l → MsgDesc.via.lookup d = some g :=
      fun h h' => h _ h'
    split at hok
    case h_1 =>
      obtain ⟨⟨k, b'⟩, h1, h2⟩ := bind_ok_inv hok
      cases h2
      obtain ⟨⟨h, he, ht⟩, _⟩ := (C10_flex_data_partial k b b').mp h1
      have ht' := List.all_eq_true.mp via_table _ he
      cases k with
      | fixed d =>
        show d.intoUmp b' = _
        unfold MsgDesc.intoUmp
        simp only at ht'
        split at ht' <;> rename_i hl
        all_goals first
          | (rw [hl]; rfl)
          | (exfalso; rw [ht] at ht'; cases ht')
          | cases ht'
      | sysex s => cases s <;> (exfalso; simp only at ht'; rw [ht] at ht'; cases ht')
      | flexText t => rfl
      | streamText t => exfalso; simp only at ht'; rw [ht] at ht'; cases ht'
    case h_2 =>
      obtain ⟨⟨k, b'⟩, h1, h2⟩ := bind_ok_inv hok
      cases h2
      have := hfam (g := .channelVoice1) (by decide +kernel) ((C10_channel_voice1 k b b').mp h1).1
      show k.intoUmp b' = _
      unfold MsgDesc.intoUmp; rw [this]; rfl
    case h_3 =>
      obtain ⟨⟨k, b'⟩, h1, h2⟩ := bind_ok_inv hok
      cases h2
      have := hfam (g := .channelVoice2) (by decide +kernel) ((C10_channel_voice2 k b b').mp h1).1
      show k.intoUmp b' = _
      unfold MsgDesc.intoUmp; rw [this]; rfl
    case h_4 =>
      obtain ⟨b', h1, h2⟩ := bind_ok_inv hok
      cases h2; rfl
    case h_5 =>
      obtain ⟨b', h1, h2⟩ := bind_ok_inv hok
      cases h2; rfl
    case h_6 =>
      obtain ⟨⟨k, b'⟩, h1, h2⟩ := bind_ok_inv hok
      cases h2
      have := hfam (g := .systemCommon) (by decide +kernel) ((C10_system_common k b b').mp h1).1
      show k.intoUmp b' = _
      unfold MsgDesc.intoUmp; rw [this]; rfl
    case h_7 =>
      obtain ⟨⟨k, b'⟩, h1, h2⟩ := bind_ok_inv hok
      cases h2
      obtain ⟨c, h1, _, _⟩ := UmpStream.tryFrom_iff.mp h1
      have : ∀ p ∈ UmpStream.arms, match p.2 with
          | .fixed d => MsgDesc.via.lookup d = some .umpStream
          | .streamText _ => True
          | _ => False := by
        have : (UmpStream.arms.all fun p => match p.2 with
          | .fixed d => decide (MsgDesc.via.lookup d = some .umpStream)
          | .streamText _ => true
          | _ => false) = true := by decide +kernel
        intro p hp
        have := List.all_eq_true.mp this p hp
        revert this
        cases p.2 <;> simp
      have := this _ h1
      cases k with
      | fixed d =>
        simp only at this
        show d.intoUmp b' = _
        unfold MsgDesc.intoUmp; rw [this]; rfl
      | streamText t => rfl
      | sysex s => exact this.elim
      | flexText t => exact this.elim
    case h_8 =>
      obtain ⟨⟨k, b'⟩, h1, h2⟩ := bind_ok_inv hok
      cases h2
      have := hfam (g := .utility) (by decide +kernel) ((C10_utility k b b').mp h1).1
      show k.intoUmp b' = _
      unfold MsgDesc.intoUmp; rw [this]; rfl
    case h_9 => cases hok

/-- C67: parsing a slice as an `UmpMessage` gives what parsing it as a message of its type and
turning that into an `UmpMessage` gives. -/
theorem C67_ump_parse (b : Buf .ump) (v : UmpValue) (hok : UmpValue.tryFrom b = .ok v) :
    ∃ k h, (k, h) ∈ umpTable ∧ h.Of b ∧ k.tryFrom b = .ok b ∧ k.intoUmp b = some v := by
  have hm := UmpValue.tryFrom_message b
  rw [hok] at hm
  obtain ⟨h1, h2, h, he, ho⟩ := C10_ump_variant b v.message.2 v.message.1 hm.symm
  refine ⟨v.message.1, h, he, ho, h2, ?_⟩
  have := UmpValue.tryFrom_wrapped hok
  rw [h1] at this
  exact this

example : ∃ k h, (k, h) ∈ umpTable ∧ h.Of [0x409A3C03, 0x80001234] ∧
    k.tryFrom [0x409A3C03, 0x80001234] = .ok [0x409A3C03, 0x80001234] ∧
    k.intoUmp [0x409A3C03, 0x80001234] = some (.channelVoice2 Msg.cv2NoteOn [0x409A3C03, 0x80001234]) :=
  C67_ump_parse _ _ (by decide +kernel)

/-- C67, the other direction: a slice that a message type's parser accepts is parsed by
`UmpMessage` to the wrapped message.  Missing, since the code violates it: the three misfiled flex
data texts, and `FunctionBlockDiscovery` in a slice with another status (see C10). -/
theorem C67_ump_reparse_partial {k : UmpKind} {h : Header} (he : (k, h) ∈ umpTable) (b : Buf .ump)
    (hok : k.tryFrom b = .ok b) (hm : k ∉ misfiled)
    (hs : k = .fixed Msg.streamFunctionBlockDiscovery → fieldAt b 0 6 10 = some 0x10) :
    ∃ v, UmpValue.tryFrom b = .ok v ∧ k.intoUmp b = some v := by
  have h1 := (C10_ump_dispatch_exactly he b hok).1 ⟨hm, hs⟩
  rw [← UmpValue.tryFrom_message] at h1
  obtain ⟨v, h2, h3⟩ := bind_ok_inv h1
  have h4 : v.message = (k, b) := Res.ok.inj h3
  have := UmpValue.tryFrom_wrapped h2
  rw [h4] at this
  exact ⟨v, h2, this⟩

example : ∃ v, UmpValue.tryFrom [0x30020102, 0] = .ok v ∧
    UmpKind.intoUmp (.sysex .s7) [0x30020102, 0] = some v :=
  C67_ump_reparse_partial (h := ⟨3, 8, 0, 0⟩) (by decide +kernel) _ (by decide +kernel)
    (by decide +kernel) (fun h => absurd h (by decide))

/-- C67 fails for the misfiled flex data texts: the wrapped message is never what the parser
returns. -/
theorem C67_ump_reparse_violation (k : UmpKind) (hk : k ∈ misfiled) (b x : Buf .ump)
    (v : UmpValue) :
    UmpValue.tryFrom x = .ok v → k.intoUmp b ≠ some v := by
  intro h1 h2
  have hm := UmpValue.tryFrom_message x
  rw [h1] at hm
  have : ∀ k ∈ misfiled, ∃ h, (k, h) ∈ umpTable := by
    have : ∀ k ∈ misfiled, k ∈ umpTable.map Prod.fst := by decide +kernel
    intro k hk
    obtain ⟨⟨k', h⟩, h1, rfl⟩ := List.mem_map.mp (this k hk)
    exact ⟨h, h1⟩
  obtain ⟨h, he⟩ := this k hk
  obtain ⟨v', e1, _, e2, _⟩ := C67_ump_wrap he b
  rw [h2] at e1
  cases Option.some.inj e1
  rw [Res.ok_bind, e2] at hm
  exact (misfiled_never (b := x) hk) hm.symm

-- A note on, a text, and a text the parser does not find.
example : UmpValue.tryFrom [0x409A3C03, 0x80001234] =
    .ok (.channelVoice2 Msg.cv2NoteOn [0x409A3C03, 0x80001234]) ∧
    UmpKind.intoUmp (.fixed Msg.cv2NoteOn) [0x409A3C03, 0x80001234] =
      some (.channelVoice2 Msg.cv2NoteOn [0x409A3C03, 0x80001234]) := by decide +kernel
example : UmpKind.tryFrom (.flexText ⟨"RecordingDate", 0x1, 0xB⟩) [0xD010010B, 0x41000000, 0, 0] =
    .ok [0xD010010B, 0x41000000, 0, 0] ∧
    UmpValue.tryFrom [0xD010010B, 0x41000000, 0, 0] = .err .invalidData := by decide +kernel

/-! ## Over bytes -/

theorem bytes_via_table : (bytesTable.all fun e =>
    match e.1 with
    | .fixed d => match MsgDesc.via.lookup d with
      | some .channelVoice1 => decide (0x80 ≤ e.2.1 ∧ e.2.2 ≤ 0xF0)
      | some .systemCommon => decide (0xF1 ≤ e.2.1 ∧ e.2.2 ≤ 0x100)
      | _ => false
    | .sysex7 => e.2 == (0xF0, 0xF1)) = true := by decide +kernel

/-- C67 over bytes: every message, of whatever type and over whatever buffer, can be turned into a
`BytesMessage`: the variant is the one whose group has the status bytes of the type, the message
is kept, and `data()` is that of the message. -/
theorem C67_bytes_wrap {k : BytesKind} {lo hi : Nat} (he : (k, lo, hi) ∈ bytesTable)
    (b : Buf .bytes) :
    ∃ v, k.intoBytes b = some v ∧ (∀ s, lo ≤ s → s < hi → v.HasStatus s) ∧ v.message = (k, b) ∧
      v.data = k.data b := by
  have ht := List.all_eq_true.mp bytes_via_table _ he
  cases k with
  | fixed d =>
    simp only at ht
    simp only [BytesKind.intoBytes]
    split at ht <;> rename_i hl
    · rw [hl]
      have ht := of_decide_eq_true ht
      exact ⟨_, rfl, fun s h1 h2 => by show 0x80 ≤ s ∧ s < 0xF0; omega, rfl, rfl⟩
    · rw [hl]
      have ht := of_decide_eq_true ht
      exact ⟨_, rfl, fun s h1 h2 => by show 0xF1 ≤ s ∧ s < 0x100; omega, rfl, rfl⟩
    · cases ht
  | sysex7 =>
    have ht := beq_iff_eq.mp ht
    cases ht
    exact ⟨_, rfl, fun s h1 h2 => by show s = 0xF0; omega, rfl, rfl⟩

example : ∃ v, BytesKind.intoBytes (.fixed Msg.cv1NoteOn) [0x95, 0x40, 0x7F] = some v ∧
    v.message = (.fixed Msg.cv1NoteOn, [0x95, 0x40, 0x7F]) :=
  have ⟨v, h1, _, h3, _⟩ := C67_bytes_wrap (k := .fixed Msg.cv1NoteOn) (lo := 0x90) (hi := 0xA0)
    (by decide +kernel) [0x95, 0x40, 0x7F]
  ⟨v, h1, h3⟩

/-- C67 over bytes: equal `BytesMessage`s come from messages of the same type with the same
bytes. -/
theorem C67_bytes_wrap_injective {k k' : BytesKind} {r r' : Nat × Nat} (he : (k, r) ∈ bytesTable)
    (he' : (k', r') ∈ bytesTable) (b b' : Buf .bytes) :
    k.intoBytes b = k'.intoBytes b' ↔ k = k' ∧ b = b' := by
  constructor
  · intro heq
    obtain ⟨v, h1, _, h2, _⟩ := C67_bytes_wrap (lo := r.1) (hi := r.2) he b
    obtain ⟨v', h1', _, h2', _⟩ := C67_bytes_wrap (lo := r'.1) (hi := r'.2) he' b'
    rw [h1, h1'] at heq
    cases Option.some.inj heq
    rw [h2] at h2'
    cases h2'
    exact ⟨rfl, rfl⟩
  · rintro ⟨rfl, rfl⟩; rfl

example : BytesKind.intoBytes (.fixed Msg.cv1NoteOn) [0x95, 0x40, 0x7F] ≠
    BytesKind.intoBytes (.fixed Msg.cv1NoteOff) [0x95, 0x40, 0x7F] :=
  fun h => absurd ((C67_bytes_wrap_injective (r := (0x90, 0xA0)) (r' := (0x80, 0x90)) (by decide +kernel)
    (by decide +kernel) _ _).mp h).1 (by decide)

theorem BytesValue.tryFrom_message (b : Buf .bytes) :
    (BytesValue.tryFrom b >>= fun v => pure v.message) = BytesMessage.tryFrom b := by
  unfold BytesValue.tryFrom BytesMessage.tryFrom
  by_cases hb : b.isEmpty
  · rw [if_pos hb, if_pos hb]; rfl
  · rw [if_neg hb, if_neg hb]
    cases hw : at' b 0 with
    | err e => rfl
    | panic => rfl
    | ok w =>
      simp only [Res.ok_bind]
      generalize w.toNat = s
      unfold BytesMessage.ofStatus
      split
      · cases ChannelVoice1.tryFrom .bytes b <;> rfl
      · split
        · cases Sxb.tryFrom b <;> rfl
        · split
          · cases SystemCommon.tryFrom .bytes b <;> rfl
          · rfl

theorem BytesValue.tryFrom_wrapped {b : Buf .bytes} {v : BytesValue}
    (hok : BytesValue.tryFrom b = .ok v) : v.message.1.intoBytes v.message.2 = some v := by
  unfold BytesValue.tryFrom at hok
  by_cases hb : b.isEmpty
  · rw [if_pos hb] at hok; cases hok
  · rw [if_neg hb] at hok
    obtain ⟨w, hw, hok⟩ := bind_ok_inv hok
    simp only at hok
    have h1 : ∀ d ∈ Msg.cv1All, MsgDesc.via.lookup d = some .channelVoice1 := by decide +kernel
    have h2 : ∀ d ∈ Msg.sysAll, MsgDesc.via.lookup d = some .systemCommon := by decide +kernel
    split at hok
    · obtain ⟨⟨d, b'⟩, e1, e2⟩ := bind_ok_inv hok
      cases e2
      have := h1 d ((C11_channel_voice1 d b b').mp e1).1
      show BytesKind.intoBytes (.fixed d) b' = _
      simp only [BytesKind.intoBytes, this]
    · split at hok
      · obtain ⟨b', e1, e2⟩ := bind_ok_inv hok
        cases e2; rfl
      · split at hok
        · obtain ⟨⟨d, b'⟩, e1, e2⟩ := bind_ok_inv hok
          cases e2
          have := h2 d ((C11_system_common d b b').mp e1).1
          show BytesKind.intoBytes (.fixed d) b' = _
          simp only [BytesKind.intoBytes, this]
        · cases hok

/-- C67 over bytes: parsing a slice as a `BytesMessage` gives a value exactly when it is that of
parsing the slice as a message of some type and turning that into a `BytesMessage`. -/
theorem C67_bytes_parse (b : Buf .bytes) (v : BytesValue) :
    BytesValue.tryFrom b = .ok v ↔
      ∃ k lo hi, (k, lo, hi) ∈ bytesTable ∧ k.tryFrom b = .ok b ∧ k.intoBytes b = some v := by
  constructor
  · intro hok
    have hm := BytesValue.tryFrom_message b
    rw [hok] at hm
    obtain ⟨lo, hi, he⟩ := C11_bytes_variant b v.message.2 v.message.1 hm.symm
    obtain ⟨h2, h1⟩ := ((C11_bytes_dispatch he b v.message.2).1).mp hm.symm
    have := BytesValue.tryFrom_wrapped hok
    rw [h1] at this
    exact ⟨_, lo, hi, he, h2, this⟩
  · rintro ⟨k, lo, hi, he, hk, hv⟩
    have h1 := ((C11_bytes_dispatch he b b).1).mpr ⟨hk, rfl⟩
    rw [← BytesValue.tryFrom_message] at h1
    obtain ⟨v', h2, h3⟩ := bind_ok_inv h1
    have h4 : v'.message = (k, b) := Res.ok.inj h3
    have := BytesValue.tryFrom_wrapped h2
    rw [h4, hv] at this
    cases this
    exact h2

example : BytesValue.tryFrom [0x95, 0x40, 0x7F] = .ok (.channelVoice1 Msg.cv1NoteOn [0x95, 0x40, 0x7F]) ∧
    BytesValue.tryFrom [0xF0, 1, 2, 0xF7] = .ok (.sysex7 [0xF0, 1, 2, 0xF7]) := by decide +kernel

end Midi2
