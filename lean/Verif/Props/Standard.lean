import Verif.Spec.Standard
import Verif.Props.Layout

/-!
# C64: agreement with the published standard

Against the layout of the UMP and MIDI 2.0 Protocol specification (`Verif/Spec/Standard.lean`)
the getters of every message agree for every property but five; for those five, exactly which
messages are read as the standard says.
-/

namespace Midi2

/-- C64, all properties but the five of `Standard.amendments`: a property of the standard's
layout has a getter, and it returns the value denoted by the bits the standard names. -/
theorem C64_standard_layout_partial {d : MsgDesc} (hd : d ∈ Msg.all) :
    ∃ l ∈ Standard.ump, l.name = d.name ∧
      ∀ n ps, (n, ps) ∈ l.props → (d.name, n) ∉ Standard.amendments.map (fun a => (a.1, a.2.1)) →
        ∃ f, (n, f) ∈ d.props ∧ f.accessible .ump = true ∧
          ∀ (b : Buf .ump) v, d.umpSize ≤ b.length → f.read .ump b = .ok v →
            ∃ k, valueOf b ps 0 = some k ∧ f.Denotes k v := by
  obtain ⟨l, h1, h2, h3, h4⟩ := C51_ump_layout hd
  refine ⟨_, List.mem_map_of_mem h1, h2, fun n ps hps hn => ?_⟩
  simp only [List.mem_map, List.mem_filter] at hps
  obtain ⟨⟨n', qs⟩, ⟨hq, -⟩, e⟩ := hps
  simp only [Prod.mk.injEq] at e
  obtain ⟨rfl, rfl⟩ := e
  obtain ⟨f, hf, ha⟩ := (h3 n').mp (List.mem_map.mpr ⟨_, hq, rfl⟩)
  refine ⟨f, hf, ha, fun b v hl hr => ?_⟩
  have : Standard.place l.name n' qs = qs := by
    unfold Standard.place
    cases e : Standard.amendments.find? (fun a => a.1 == l.name && a.2.1 == n') with
    | none => rfl
    | some a =>
      exfalso
      apply hn
      have hm := List.mem_of_find?_eq_some e
      have hp := List.find?_some e
      simp only [Bool.and_eq_true, beq_iff_eq] at hp
      refine List.mem_map.mpr ⟨a, hm, ?_⟩
      rw [hp.1, hp.2, h2]
  rw [this]
  exact h4 _ _ hq f hf b v hl hr

/-- Every message type but three is read entirely as the standard says; e.g. note on. -/
example : Msg.cv2NoteOn ∈ Msg.all ∧ ∀ n, (Msg.cv2NoteOn.name, n) ∉
    Standard.amendments.map (fun a => (a.1, a.2.1)) := by
  refine ⟨by simp [Msg.all, Msg.cv2All], fun n => ?_⟩
  simp [Standard.amendments, Msg.cv2NoteOn]

/-! ## The five other properties -/

/-- Layout entry of a property of a message. -/
theorem layout_entry {d : MsgDesc} (hd : d ∈ Msg.all) {n : String} {f : Fld}
    {ps : List (Nat × Nat × Nat)}
    (ht : ∀ l ∈ Layout.ump, l.name = d.name → (n, ps) ∈ l.props) (hf : (n, f) ∈ d.props)
    {b : Buf .ump} {v : f.Ty} (hl : d.umpSize ≤ b.length) (hr : f.read .ump b = .ok v) :
    ∃ k, valueOf b ps 0 = some k ∧ f.Denotes k v := by
  obtain ⟨l, h1, h2, -, h4⟩ := C51_ump_layout hd
  exact h4 _ _ (ht l h1 h2) _ hf b v hl hr

theorem fieldAt_some {b : Buf .ump} {i : Nat} (h : i < b.length) (p n : Nat) :
    ∃ x, fieldAt b i p n = some x ∧ x < 2 ^ n := by
  simp only [fieldAt, List.getElem?_eq_getElem h, Option.map_some]
  exact ⟨_, rfl, Nat.mod_lt _ (Nat.two_pow_pos n)⟩

/-- C64: the bank of a program change is read as the standard says exactly if there is none
or its two septets are equal. -/
theorem C64_program_bank_exactly (b : Buf .ump) (hl : 2 ≤ b.length) (v : Option (BitVec 14))
    (hr : Fld.programBank.read .ump b = .ok v) :
    (∃ k, valueOf b [(0, 31, 1), (1, 17, 7), (1, 25, 7)] 0 = some k ∧
      Fld.programBank.Denotes k v) ↔ v = none ∨ fieldAt b 1 17 7 = fieldAt b 1 25 7 := by
  obtain ⟨k', e', hk'⟩ := layout_entry (d := Msg.cv2ProgramChange) (n := "bank")
    (f := .programBank) (ps := [(0, 31, 1), (1, 25, 7), (1, 17, 7)])
    (by simp [Msg.all, Msg.cv2All]) (by decide +kernel) (by simp [Msg.cv2ProgramChange]) hl hr
  obtain ⟨x, hx, hx'⟩ := fieldAt_some (b := b) (i := 0) (by omega) 31 1
  obtain ⟨m, hm, hm'⟩ := fieldAt_some (b := b) (i := 1) (by omega) 17 7
  obtain ⟨l, hl2, hl'⟩ := fieldAt_some (b := b) (i := 1) (by omega) 25 7
  simp only [valueOf, hx, hm, hl2, Option.bind_eq_bind, Option.bind_some,
    Option.some.injEq] at e' ⊢
  simp only [Nat.zero_mul, Nat.zero_add, Nat.reducePow] at e' hx' hm' hl' ⊢
  cases v with
  | none =>
    have hk' : k' / 16384 = 0 := hk'
    refine ⟨fun _ => .inl rfl, fun _ => ⟨_, rfl, ?_⟩⟩
    show _ / 16384 = 0
    omega
  | some v =>
    have hk' : k' = 16384 + v.toNat := hk'
    have hv := v.isLt
    constructor
    · rintro ⟨k, e, hk⟩
      have hk : k = 16384 + v.toNat := hk
      exact .inr (by omega)
    · rintro (h | h)
      · cases h
      · refine ⟨_, rfl, ?_⟩
        show _ = 16384 + v.toNat
        omega

example : ¬ ∃ k, valueOf [0x40C00001, 0x05000102] [(0, 31, 1), (1, 17, 7), (1, 25, 7)] 0 = some k ∧
    Fld.programBank.Denotes k (some 0x0101) := by
  intro h
  rcases (C64_program_bank_exactly [0x40C00001, 0x05000102] (by decide) (some 0x0101)
    (by decide +kernel)).mp h with h | h
  · cases h
  · exact absurd h (by decide)

/-- Two one-bit properties of word 0 in exchanged places. -/
theorem exchanged_bits {d : MsgDesc} (hd : d ∈ Msg.all) {n : String} {s : UmpSchema}
    {p q : Nat} (ht : ∀ l ∈ Layout.ump, l.name = d.name → (n, [(0, p, 1)]) ∈ l.props)
    (hf : (n, Fld.schema .bool s) ∈ d.props) {b : Buf .ump} {v : Bool}
    (hl : d.umpSize ≤ b.length) (h0 : 0 < b.length)
    (hr : (Fld.schema .bool s).read .ump b = .ok v) :
    (∃ k, valueOf b [(0, q, 1)] 0 = some k ∧ (Fld.schema .bool s).Denotes k v) ↔
      fieldAt b 0 q 1 = fieldAt b 0 p 1 := by
  obtain ⟨k', e', hk'⟩ := layout_entry hd ht hf hl hr
  obtain ⟨x, hx, hx'⟩ := fieldAt_some h0 p 1
  obtain ⟨y, hy, hy'⟩ := fieldAt_some h0 q 1
  simp only [valueOf, hx, hy, Option.bind_eq_bind, Option.bind_some, Option.some.injEq,
    Nat.zero_mul, Nat.zero_add] at e' ⊢
  subst e'
  have hk' : v = decide (x = 1) ∧ x ≤ 1 := hk'
  constructor
  · rintro ⟨k, rfl, hk⟩
    have hk : v = decide (y = 1) ∧ y ≤ 1 := hk
    have : decide (y = 1) = decide (x = 1) := by rw [← hk.1, hk'.1]
    have := decide_eq_decide.mp this
    omega
  · rintro rfl
    exact ⟨y, rfl, hk'⟩

/-- C64: the two flags of per-note management and the two of function block discovery are
read as the standard says exactly if they are equal. -/
theorem C64_flags_exactly {msg n : String} {ps : List (Nat × Nat × Nat)}
    (ha : (msg, n, ps) ∈ Standard.amendments) (hm : msg ≠ "channel_voice2::ProgramChange")
    {d : MsgDesc} (hd : d ∈ Msg.all) (hn : d.name = msg) {f : Fld} (hf : (n, f) ∈ d.props)
    (b : Buf .ump) (hl : d.umpSize ≤ b.length) (v : f.Ty) (hr : f.read .ump b = .ok v) :
    (∃ k, valueOf b ps 0 = some k ∧ f.Denotes k v) ↔ fieldAt b 0 30 1 = fieldAt b 0 31 1 := by
  have h0 : 0 < b.length := by
    have : ∀ d ∈ Msg.all, 0 < d.umpSize := by decide +kernel
    exact Nat.lt_of_lt_of_le (this d hd) hl
  simp only [Standard.amendments, List.mem_cons, Prod.mk.injEq, List.not_mem_nil, or_false] at ha
  rcases ha with ⟨rfl, rfl, rfl⟩ | ⟨rfl, rfl, rfl⟩ | ⟨rfl, rfl, rfl⟩ | ⟨rfl, rfl, rfl⟩ |
    ⟨rfl, rfl, rfl⟩
  · exact absurd rfl hm
  · have : ∀ d ∈ Msg.all, d.name = "channel_voice2::PerNoteManagement" →
      d = Msg.cv2PerNoteManagement := by decide +kernel
    obtain rfl := this d hd hn
    have hf' := hf
    simp [Msg.cv2PerNoteManagement] at hf'
    subst hf'
    exact exchanged_bits hd (by decide +kernel) hf hl h0 hr
  · have : ∀ d ∈ Msg.all, d.name = "channel_voice2::PerNoteManagement" →
      d = Msg.cv2PerNoteManagement := by decide +kernel
    obtain rfl := this d hd hn
    have hf' := hf
    simp [Msg.cv2PerNoteManagement] at hf'
    subst hf'
    rw [eq_comm (a := fieldAt b 0 30 1)]
    exact exchanged_bits hd (by decide +kernel) hf hl h0 hr
  · have : ∀ d ∈ Msg.all, d.name = "ump_stream::FunctionBlockDiscovery" →
      d = Msg.streamFunctionBlockDiscovery := by decide +kernel
    obtain rfl := this d hd hn
    have hf' := hf
    simp [Msg.streamFunctionBlockDiscovery] at hf'
    subst hf'
    rw [eq_comm (a := fieldAt b 0 30 1)]
    exact exchanged_bits hd (by decide +kernel) hf hl h0 hr
  · have : ∀ d ∈ Msg.all, d.name = "ump_stream::FunctionBlockDiscovery" →
      d = Msg.streamFunctionBlockDiscovery := by decide +kernel
    obtain rfl := this d hd hn
    have hf' := hf
    simp [Msg.streamFunctionBlockDiscovery] at hf'
    subst hf'
    exact exchanged_bits hd (by decide +kernel) hf hl h0 hr

/-! ## Witnesses -/

/-- C64 is violated: a sender asks to reset the per-note controllers of a note; on the wire
this is the standard's request to detach them. -/
theorem C64_per_note_management_violation :
    ("reset", Fld.schema .bool ⟨0x00000002, 0, 0, 0⟩) ∈ Msg.cv2PerNoteManagement.props ∧
    (Fld.schema .bool ⟨0x00000002, 0, 0, 0⟩).write .ump [0x40F04000, 0] true =
      .ok [0x40F04002, 0] ∧
    fieldAt [0x40F04002, 0] 0 30 1 = some 1 ∧ fieldAt [0x40F04002, 0] 0 31 1 = some 0 := by
  decide +kernel

/-- C64 is violated: a sender selects bank 1; on the wire this is bank 128. -/
theorem C64_program_bank_violation :
    Fld.programBank.write .ump [0x40C00000, 0x00000000] (some 1) =
      .ok [0x40C00001, 0x00000100] ∧
    valueOf [0x40C00001, 0x00000100] [(1, 17, 7), (1, 25, 7)] 0 = some 128 := by
  decide +kernel

/-- C64 is violated: a sender asks for the info of a function block; on the wire this asks
for its name. -/
theorem C64_function_block_discovery_violation :
    ("requesting_function_block_info", Fld.schema .bool ⟨0x00000002, 0, 0, 0⟩) ∈
      Msg.streamFunctionBlockDiscovery.props ∧
    (Fld.schema .bool ⟨0x00000002, 0, 0, 0⟩).write .ump [0xF0100000, 0, 0, 0] true =
      .ok [0xF0100002, 0, 0, 0] ∧
    fieldAt [0xF0100002, 0, 0, 0] 0 30 1 = some 1 ∧
    fieldAt [0xF0100002, 0, 0, 0] 0 31 1 = some 0 := by
  decide +kernel

/-- C64 is violated: the chord type 7 suspended 4th, and the bass sharps/flats code which
says that the bass note is the tonic, are refused. -/
theorem C64_chord_codes_violation :
    Msg.flexSetChordName.tryFrom .ump [0xD0000006, 0x031B0000, 0, 0] = .err .invalidData ∧
    fieldAt [0xD0000006, 0x031B0000, 0, 0] 1 8 8 = some Standard.sevenSuspended4th ∧
    Msg.flexSetChordName.tryFrom .ump [0xD0000006, 0x03010000, 0, 0x80000000] =
      .err .invalidData ∧
    fieldAt [0xD0000006, 0x03010000, 0, 0x80000000] 3 0 4 = some Standard.bassIsTonic ∧
    Msg.flexSetChordName.tryFrom .ump [0xD0000006, 0x03010000, 0, 0] =
      .ok [0xD0000006, 0x03010000, 0, 0] := by
  decide +kernel

/-- The flags theorem on concrete messages: both flags set, one flag set. -/
example : fieldAt [0x40F04003#32, 0] 0 30 1 = fieldAt [0x40F04003#32, 0] 0 31 1 ∧
    fieldAt [0x40F04002#32, 0] 0 30 1 ≠ fieldAt [0x40F04002#32, 0] 0 31 1 ∧
    (Fld.schema .bool ⟨0x00000001, 0, 0, 0⟩).read .ump [0x40F04002, 0] = .ok false := by
  decide +kernel

end Midi2
