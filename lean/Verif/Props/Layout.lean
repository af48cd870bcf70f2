import Verif.Lemmas.Layout
import Verif.Props.Parse

/-!
# C51: wire layout

Getters read – and by C01/C02 setters write – the bits that the independent table
`Verif/Spec/Layout.lean` names, and accepted messages carry the constant fields of that
table.
-/

namespace Midi2

/-- Layout of a message type. -/
def layoutOf (t : List Layout) (d : MsgDesc) : Option Layout := t.find? (fun l => l.name == d.name)

theorem table_layout : Msg.all.all (fun d =>
    match layoutOf Layout.ump d with
    | none => false
    | some l => decide (l.props =
        ((d.props.filter (fun p => p.2.accessible .ump)).map fun p => (p.1, p.2.pieces)))) = true := by
  decide +kernel

theorem table_layout8 : Msg.hybridAll.all (fun d =>
    match layoutOf Layout.bytes d with
    | none => false
    | some l => decide (l.props =
        ((d.props.filter (fun p => p.2.accessible .bytes)).map fun p => (p.1, p.2.pieces8)))) =
      true := by
  decide +kernel

theorem accessible_not_const {m : Fmt} {f : Fld} (h : f.accessible m = true) :
    f.isConst = false := by
  simp only [Fld.accessible, Bool.and_eq_true, Bool.not_eq_true'] at h
  exact h.1

theorem layoutOf_mem {t : List Layout} {d : MsgDesc} {l : Layout} (h : layoutOf t d = some l) :
    l ∈ t ∧ l.name = d.name :=
  have : (l.name == d.name) = true := List.find?_some (p := fun l : Layout => l.name == d.name) (a := l) h
  ⟨List.mem_of_find?_eq_some h, eq_of_beq this⟩

/-- C51 (UMP): every message type has a layout in the table, naming exactly the
properties with a getter; every getter returns the value denoted by the bits of its
layout entry. -/
theorem C51_ump_layout {d : MsgDesc} (hd : d ∈ Msg.all) :
    ∃ l ∈ Layout.ump, l.name = d.name ∧
      (∀ n, n ∈ l.props.map (·.1) ↔ ∃ f, (n, f) ∈ d.props ∧ f.accessible .ump = true) ∧
      ∀ n ps, (n, ps) ∈ l.props → ∀ f, (n, f) ∈ d.props → ∀ (b : Buf .ump) v,
        d.umpSize ≤ b.length → f.read .ump b = .ok v →
        ∃ k, valueOf b ps 0 = some k ∧ f.Denotes k v := by
  have ht := List.all_eq_true.mp table_layout d hd
  cases e : layoutOf Layout.ump d with
  | none => rw [e] at ht; cases ht
  | some l =>
    rw [e] at ht
    have ht := of_decide_eq_true ht
    obtain ⟨h1, h2⟩ := layoutOf_mem e
    refine ⟨l, h1, h2, ?_, ?_⟩
    · intro n
      rw [ht]
      simp
    · intro n ps hps f hf b v hl hr
      rw [ht, List.mem_map] at hps
      obtain ⟨⟨n', g⟩, hg, eg⟩ := hps
      rw [List.mem_filter] at hg
      simp only [Prod.mk.injEq] at eg
      obtain ⟨rfl, rfl⟩ := eg
      have hn := of_decide_eq_true (List.all_eq_true.mp table_names d hd)
      have := eq_of_nodup_map hn hf hg.1
      subst this
      have hfit := MsgDesc.fits_mem (List.all_eq_true.mp table_ump_fits d hd) hf
      simp only [Fld.fits, Bool.and_eq_true, decide_eq_true_eq] at hfit
      exact Fld.read32_value f (accessible_not_const hg.2) (Nat.le_trans hfit.2 hl) hr

/-- C51 (bytes). -/
theorem C51_bytes_layout {d : MsgDesc} (hd : d ∈ Msg.hybridAll) :
    ∃ l ∈ Layout.bytes, l.name = d.name ∧
      (∀ n, n ∈ l.props.map (·.1) ↔ ∃ f, (n, f) ∈ d.props ∧ f.accessible .bytes = true) ∧
      ∀ n ps, (n, ps) ∈ l.props → ∀ f, (n, f) ∈ d.props → ∀ (b : Buf .bytes) v,
        f.read .bytes b = .ok v → ∃ k, valueOf8 b ps 0 = some k ∧ f.Denotes k v := by
  have ht := List.all_eq_true.mp table_layout8 d hd
  cases e : layoutOf Layout.bytes d with
  | none => rw [e] at ht; cases ht
  | some l =>
    rw [e] at ht
    have ht := of_decide_eq_true ht
    obtain ⟨h1, h2⟩ := layoutOf_mem e
    refine ⟨l, h1, h2, ?_, ?_⟩
    · intro n
      rw [ht]
      simp
    · intro n ps hps f hf b v hr
      rw [ht, List.mem_map] at hps
      obtain ⟨⟨n', g⟩, hg, eg⟩ := hps
      rw [List.mem_filter] at hg
      simp only [Prod.mk.injEq] at eg
      obtain ⟨rfl, rfl⟩ := eg
      have hn := of_decide_eq_true (List.all_eq_true.mp table_names d (hybrid_sub_all hd))
      have := eq_of_nodup_map hn hf hg.1
      subst this
      exact Fld.read8_value f hg.2 hr

/-- The theorem pins the wire position: a note-on of velocity 0x1234 has that number in
the upper half of word 1. -/
example (b : Buf .ump) (hl : 2 ≤ b.length)
    (h : Fld.read .ump (.schema .u16 ⟨0, 0xFFFF0000, 0, 0⟩) b = .ok (0x1234 : BitVec 16)) :
    fieldAt b 1 0 16 = some 0x1234 := by
  obtain ⟨l, h1, h2, _, h3⟩ := C51_ump_layout (d := Msg.cv2NoteOn) (by simp [Msg.all, Msg.cv2All])
  have hl' : ("velocity", [(1, 0, 16)]) ∈ l.props := by
    have : ∀ l ∈ Layout.ump, l.name = "channel_voice2::NoteOn" →
      ("velocity", [(1, 0, 16)]) ∈ l.props := by decide +kernel
    exact this l h1 h2
  obtain ⟨k, e, hk⟩ := h3 _ _ hl' _ (by simp [Msg.cv2NoteOn]) b _ hl h
  have hk : k = 0x1234 := hk
  subst hk
  simp only [valueOf, Option.bind_eq_bind] at e
  cases h : fieldAt b 1 0 16 with
  | none => rw [h] at e; cases e
  | some x => rw [h] at e; simp at e; rw [e]

/-! ## Constant fields -/

/-- The constant field a property stands for. -/
def Fld.constField : Fld → List (Nat × Nat × Nat × Nat)
  | .umpType t => [(0, 0, 4, t.toNat)]
  | .cvStatus s => [(0, 8, 4, s.toNat)]
  | .sysStatus s => [(0, 8, 8, s.toNat)]
  | .flexStatus s => [(0, 24, 8, s.toNat)]
  | .flexBank s => [(0, 16, 8, s.toNat)]
  | .flexFormat s => [(0, 8, 2, s.toNat)]
  | .streamStatus s => [(0, 6, 10, s.toNat)]
  | _ => []

theorem table_consts : Msg.all.all (fun d =>
    match layoutOf Layout.ump d with
    | none => false
    | some l => l.consts.all fun c => d.props.any fun p => p.2.constField.contains c) = true := by
  decide +kernel

theorem constField_legal {f : Fld} {b : Buf .ump} (h : f.Legal b) (hl : 4 ≤ b.length ∨
    (∀ s, f ≠ .streamStatus s) ∧ (∀ s, f ≠ .flexStatus s) ∧ (∀ s, f ≠ .flexBank s))
    {c : Nat × Nat × Nat × Nat} (hc : c ∈ f.constField) :
    fieldAt b c.1 c.2.1 c.2.2.1 = some c.2.2.2 := by
  cases f
  case umpType | cvStatus | sysStatus | flexFormat =>
    simp only [Fld.constField, List.mem_singleton] at hc
    subst hc
    exact h
  case flexStatus s =>
    simp only [Fld.constField, List.mem_singleton] at hc
    subst hc
    rcases hl with hl | hl
    · exact h 0 hl
    · exact absurd rfl (hl.2.1 s)
  case flexBank s =>
    simp only [Fld.constField, List.mem_singleton] at hc
    subst hc
    rcases hl with hl | hl
    · exact h 0 hl
    · exact absurd rfl (hl.2.2 s)
  case streamStatus s =>
    simp only [Fld.constField, List.mem_singleton] at hc
    subst hc
    rcases hl with hl | hl
    · exact h 0 hl
    · exact absurd rfl (hl.1 s)
  all_goals exact absurd hc (by simp [Fld.constField])

/-- C51: an accepted message carries the type, status and other constant fields of its
layout.  (`FunctionBlockDiscovery`, whose declared minimum size is one word, needs a
slice of four words: shorter slices are accepted with any status.) -/
theorem C51_ump_constants {d : MsgDesc} (hd : d ∈ Msg.all) (b : Buf .ump)
    (hok : d.tryFrom .ump b = .ok b)
    (h4 : d.name = "ump_stream::FunctionBlockDiscovery" → 4 ≤ b.length) :
    ∃ l ∈ Layout.ump, l.name = d.name ∧
      ∀ w p n v, (w, p, n, v) ∈ l.consts → fieldAt b w p n = some v := by
  have ht := List.all_eq_true.mp table_consts d hd
  have hwf : d.WellFormed .ump b := by
    refine Classical.byContradiction fun hc => ?_
    rw [(C07_ump_accepts_exactly hd b).2 hc] at hok
    cases hok
  cases e : layoutOf Layout.ump d with
  | none => rw [e] at ht; cases ht
  | some l =>
    rw [e] at ht
    obtain ⟨h1, h2⟩ := layoutOf_mem e
    refine ⟨l, h1, h2, ?_⟩
    intro w p n v hc
    have := List.all_eq_true.mp ht _ hc
    obtain ⟨q, hq, hq2⟩ := List.any_eq_true.mp this
    have hq2 : (w, p, n, v) ∈ q.2.constField := by simpa using hq2
    refine constField_legal (hwf.2 q hq) ?_ hq2
    have htab : ∀ d ∈ Msg.all, ∀ q ∈ d.props, d.name = "ump_stream::FunctionBlockDiscovery" ∨
        4 ≤ d.umpSize ∨ (match q.2 with
          | .streamStatus _ | .flexStatus _ | .flexBank _ => false | _ => true) = true := by
      decide +kernel
    rcases htab d hd q hq with h | h | h
    · exact .inl (h4 h)
    · exact .inl (Nat.le_trans h hwf.1)
    · refine .inr ⟨fun s hs => ?_, fun s hs => ?_, fun s hs => ?_⟩ <;>
        (rw [hs] at h; cases h)

example : fieldAt [0xD0100006#32, 0x13011A2B, 0x3C4D0000, 0xE5190000] 0 24 8 = some 6 := by
  obtain ⟨l, h1, h2, h3⟩ := C51_ump_constants (d := Msg.flexSetChordName)
    (by simp [Msg.all, Msg.flexAll]) [0xD0100006, 0x13011A2B, 0x3C4D0000, 0xE5190000]
    (by decide +kernel) (by decide)
  have : ∀ l ∈ Layout.ump, l.name = "flex_data::SetChordName" → (0, 24, 8, 6) ∈ l.consts := by
    decide +kernel
  exact h3 _ _ _ _ (this l h1 h2)

/-- The constant byte field a property stands for. -/
def Fld.constField8 : Fld → List (Nat × Nat × Nat × Nat)
  | .cvStatus s => [(0, 0, 4, s.toNat)]
  | .sysStatus s => [(0, 0, 8, s.toNat)]
  | _ => []

theorem table_consts8 : Msg.hybridAll.all (fun d =>
    match layoutOf Layout.bytes d with
    | none => false
    | some l => l.consts.all fun c => d.props.any fun p => p.2.constField8.contains c) = true := by
  decide +kernel

theorem constField8_legal {f : Fld} {b : Buf .bytes} (h : f.Legal8 b)
    {c : Nat × Nat × Nat × Nat} (hc : c ∈ f.constField8) :
    fieldAt8 b c.1 c.2.1 c.2.2.1 = some c.2.2.2 := by
  cases f
  case cvStatus s =>
    simp only [Fld.constField8, List.mem_singleton] at hc
    subst hc
    simp only [Fld.Legal8, Option.map_eq_some_iff] at h
    obtain ⟨x, h1, h2⟩ := h
    have := x.isLt
    simp only [fieldAt8, h1, Option.map_some]
    congr 1
    simp only [Nat.reduceSub, Nat.reducePow]
    omega
  case sysStatus s =>
    simp only [Fld.constField8, List.mem_singleton] at hc
    subst hc
    simp only [Fld.Legal8, Option.map_eq_some_iff] at h
    obtain ⟨x, h1, h2⟩ := h
    have := x.isLt
    simp only [fieldAt8, h1, Option.map_some]
    congr 1
    simp only [Nat.reduceSub, Nat.reducePow]
    omega
  all_goals exact absurd hc (by simp [Fld.constField8])

/-- C51: an accepted byte message carries the status of its layout. -/
theorem C51_bytes_constants {d : MsgDesc} (hd : d ∈ Msg.hybridAll) (b : Buf .bytes)
    (hok : d.tryFrom .bytes b = .ok b) :
    ∃ l ∈ Layout.bytes, l.name = d.name ∧
      ∀ w p n v, (w, p, n, v) ∈ l.consts → fieldAt8 b w p n = some v := by
  have ht := List.all_eq_true.mp table_consts8 d hd
  have hwf : d.WellFormed .bytes b := by
    refine Classical.byContradiction fun hc => ?_
    rw [(C07_bytes_accepts_exactly hd b).2 hc] at hok
    cases hok
  cases e : layoutOf Layout.bytes d with
  | none => rw [e] at ht; cases ht
  | some l =>
    rw [e] at ht
    obtain ⟨h1, h2⟩ := layoutOf_mem e
    refine ⟨l, h1, h2, ?_⟩
    intro w p n v hc
    have := List.all_eq_true.mp ht _ hc
    obtain ⟨q, hq, hq2⟩ := List.any_eq_true.mp this
    exact constField8_legal (hwf.2 q hq) (by simpa using hq2)

example : ∃ l ∈ Layout.bytes, l.name = "channel_voice1::NoteOn" ∧
    ∀ w p n v, (w, p, n, v) ∈ l.consts → fieldAt8 [0x93, 0x3C, 0x7F] w p n = some v :=
  C51_bytes_constants (d := Msg.cv1NoteOn) (by decide +kernel) [0x93, 0x3C, 0x7F] (by decide +kernel)

/-- C51: declared minimum sizes are the sizes of the table, except for
`FunctionBlockDiscovery` (declared 1, format 4). -/
theorem C51_ump_sizes {d : MsgDesc} (hd : d ∈ Msg.all) :
    ∃ l ∈ Layout.ump, l.name = d.name ∧
      (d.umpSize = l.words ↔ d.name ≠ "ump_stream::FunctionBlockDiscovery") := by
  have : ∀ d ∈ Msg.all, ∃ l ∈ Layout.ump, l.name = d.name ∧
      (d.umpSize = l.words ↔ d.name ≠ "ump_stream::FunctionBlockDiscovery") := by decide +kernel
  exact this d hd

example : ∃ l ∈ Layout.ump, l.name = "channel_voice2::NoteOn" ∧ 2 = l.words := by
  obtain ⟨l, h1, h2, h3⟩ := C51_ump_sizes (d := Msg.cv2NoteOn) (by decide +kernel)
  exact ⟨l, h1, h2, h3.mpr (by decide)⟩

/-- C51: declared minimum byte sizes are those of MIDI 1.0 except for three system
common messages. -/
theorem C51_bytes_sizes {d : MsgDesc} (hd : d ∈ Msg.hybridAll) :
    ∃ l ∈ Layout.bytes, l.name = d.name ∧
      (d.bytesSize = some l.words ↔ d.name ∉ ["system_common::TuneRequest",
        "system_common::TimeCode", "system_common::SongPositionPointer"]) := by
  have : ∀ d ∈ Msg.hybridAll, ∃ l ∈ Layout.bytes, l.name = d.name ∧
      (d.bytesSize = some l.words ↔ d.name ∉ ["system_common::TuneRequest",
        "system_common::TimeCode", "system_common::SongPositionPointer"]) := by decide +kernel
  exact this d hd

example : ∃ l ∈ Layout.bytes, l.name = "system_common::TuneRequest" ∧ some 2 ≠ some l.words := by
  obtain ⟨l, h1, h2, h3⟩ := C51_bytes_sizes (d := Msg.sysTuneRequest) (by decide +kernel)
  exact ⟨l, h1, h2, fun h => absurd (h3.mp h) (by decide)⟩

end Midi2
