import Verif.Lemmas.Legal
import Verif.Props.Setters

/-!
# C05, C06, C07, C12, C33: parsing fixed-size messages

`Verif/Spec/Legal.lean` says which slices are well-formed.
-/

namespace Midi2

/-! ## C07 and C05 -/

/-- C07 (UMP): `try_from` returns the slice as a message exactly when it is
well-formed, and `InvalidData` otherwise. -/
theorem C07_ump_accepts_exactly {d : MsgDesc} (hd : d ∈ Msg.all) (b : Buf .ump) :
    (d.WellFormed .ump b → d.tryFrom .ump b = .ok b) ∧
    (¬ d.WellFormed .ump b → d.tryFrom .ump b = .err .invalidData) := by
  have hfit := List.all_eq_true.mp table_ump_fits d hd
  have hval : d.umpSize ≤ b.length → ∀ p ∈ d.props,
      (p.2.validate .ump b = .ok () ↔ p.2.Legal b) ∧ p.2.validate .ump b ≠ .panic := by
    intro hl p hp
    have := MsgDesc.fits_mem hfit (show (p.1, p.2) ∈ d.props from hp)
    simp only [Fld.fits, Bool.and_eq_true, decide_eq_true_eq] at this
    exact Fld.validate32_iff p.2 this.1 (Nat.le_trans this.2 hl)
  constructor
  · rintro ⟨hl, hp⟩
    exact (tryFrom_iff d .ump b).mpr ⟨hl, fun p h => ((hval hl p h).1).mpr (hp p h)⟩
  · intro hn
    unfold MsgDesc.tryFrom
    split
    · rfl
    · next hl =>
      have hl : d.umpSize ≤ b.length := Nat.le_of_not_lt hl
      cases e : validateProps .ump d.props b with
      | ok u =>
        refine absurd ⟨hl, fun p h => ?_⟩ hn
        exact (hval hl p h).1.mp ((validateProps_iff .ump d.props b).mp e p h)
      | err x => rw [validateProps_err e]; rfl
      | panic => exact absurd e (validateProps_no_panic fun p h => (hval hl p h).2)

/-- C07 (bytes). -/
theorem C07_bytes_accepts_exactly {d : MsgDesc} (hd : d ∈ Msg.hybridAll) (b : Buf .bytes) :
    (d.WellFormed .bytes b → d.tryFrom .bytes b = .ok b) ∧
    (¬ d.WellFormed .bytes b → d.tryFrom .bytes b = .err .invalidData) := by
  have himp : ∀ d ∈ Msg.hybridAll, ∀ p ∈ d.props, p.2.implemented8 = true := by decide +kernel
  have hpos : ∀ d ∈ Msg.hybridAll, 0 < d.bytesSize.getD 0 := by decide +kernel
  have hval : d.bytesSize.getD 0 ≤ b.length → ∀ p ∈ d.props,
      (p.2.validate .bytes b = .ok () ↔ p.2.Legal8 b) ∧ p.2.validate .bytes b ≠ .panic := by
    intro hl p hp
    exact Fld.validate8_iff p.2 (himp d hd p hp) (Nat.lt_of_lt_of_le (hpos d hd) hl)
  constructor
  · rintro ⟨hl, hp⟩
    exact (tryFrom_iff d .bytes b).mpr ⟨hl, fun p h => ((hval hl p h).1).mpr (hp p h)⟩
  · intro hn
    unfold MsgDesc.tryFrom
    split
    · rfl
    · next hl =>
      have hl : d.bytesSize.getD 0 ≤ b.length := Nat.le_of_not_lt hl
      cases e : validateProps .bytes d.props b with
      | ok u =>
        refine absurd ⟨hl, fun p h => ?_⟩ hn
        exact (hval hl p h).1.mp ((validateProps_iff .bytes d.props b).mp e p h)
      | err x => rw [validateProps_err e]; rfl
      | panic => exact absurd e (validateProps_no_panic fun p h => (hval hl p h).2)

/-- Both outcomes occur: a note-on with attribute code 3 is accepted, with 4 it is
rejected. -/
example : Msg.cv2NoteOn.tryFrom .ump [0x4A926003, 0x12345678] =
    .ok [0x4A926003, 0x12345678] :=
  (C07_ump_accepts_exactly (by simp [Msg.all, Msg.cv2All]) _).1 (by
    refine ⟨by decide, ?_⟩
    intro p hp
    simp only [Msg.cv2NoteOn, List.mem_cons, List.not_mem_nil, or_false] at hp
    rcases hp with rfl | rfl | rfl | rfl | rfl | rfl | rfl <;>
      first | trivial | exact ⟨3, by decide, by decide⟩ | (show fieldAt _ _ _ _ = _; decide))
example : Msg.cv2NoteOn.tryFrom .ump [0x4A926004, 0x12345678] = .err .invalidData :=
  (C07_ump_accepts_exactly (by simp [Msg.all, Msg.cv2All]) _).2 (by
    rintro ⟨_, h⟩
    obtain ⟨c, h1, h2⟩ := h ("attribute", .noteAttribute) (by simp [Msg.cv2NoteOn])
    have : some c = some 4 := h1.symm.trans (by decide)
    cases this
    omega)
/-- A stream message may consist of several packets whose formats are begin, continue,
end. -/
example : SeqOk [1, 2, 2, 3] := .inr ⟨2, rfl⟩

/-- C05 for the fixed-size message types (UMP): for every slice `try_from` returns,
without panicking. -/
theorem C05_fixed_ump_total {d : MsgDesc} (hd : d ∈ Msg.all) (b : Buf .ump) :
    d.tryFrom .ump b = .ok b ∨ d.tryFrom .ump b = .err .invalidData := by
  by_cases h : d.WellFormed .ump b
  · exact .inl ((C07_ump_accepts_exactly hd b).1 h)
  · exact .inr ((C07_ump_accepts_exactly hd b).2 h)

example : Msg.cv2NoteOn.tryFrom .ump [] = .ok [] ∨ Msg.cv2NoteOn.tryFrom .ump [] = .err .invalidData :=
  C05_fixed_ump_total (by decide +kernel) []

/-- C05 for the fixed-size message types (bytes). -/
theorem C05_fixed_bytes_total {d : MsgDesc} (hd : d ∈ Msg.hybridAll) (b : Buf .bytes) :
    d.tryFrom .bytes b = .ok b ∨ d.tryFrom .bytes b = .err .invalidData := by
  by_cases h : d.WellFormed .bytes b
  · exact .inl ((C07_bytes_accepts_exactly hd b).1 h)
  · exact .inr ((C07_bytes_accepts_exactly hd b).2 h)

example : Msg.cv1NoteOn.tryFrom .bytes [0x93] = .ok [0x93] ∨
    Msg.cv1NoteOn.tryFrom .bytes [0x93] = .err .invalidData :=
  C05_fixed_bytes_total (by decide +kernel) [0x93]

/-! ## C06 -/

theorem data_ok {d : MsgDesc} {m : Fmt} {b : Buf m} (h : d.minSize m ≤ b.length) :
    d.data m b = .ok (b.take (d.minSize m)) := if_pos h

/-- C06 for the fixed-size message types (UMP): every getter of an accepted message,
`data()` and `packets()` return. -/
theorem C06_fixed_ump_reads {d : MsgDesc} (hd : d ∈ Msg.all) (b : Buf .ump)
    (hok : d.tryFrom .ump b = .ok b) :
    (∀ n f, (n, f) ∈ d.props → ∃ v, f.read .ump b = .ok v) ∧
    d.data .ump b = .ok (b.take d.umpSize) ∧ (∃ ps, d.packets b = .ok ps) := by
  obtain ⟨hl, hv⟩ := (tryFrom_iff d .ump b).mp hok
  refine ⟨fun n f hf => ?_, data_ok hl, ?_⟩
  · exact Fld.read_ok (MsgDesc.fits_mem (List.all_eq_true.mp table_ump_fits d hd) hf) hl
      (hv _ hf)
  · exact ⟨_, by unfold MsgDesc.packets; rw [data_ok hl]; rfl⟩

/-- C06 for the fixed-size message types (bytes), except `SongPositionPointer` over two
bytes. -/
theorem C06_fixed_bytes_reads_partial {d : MsgDesc} (hd : d ∈ Msg.hybridAll) (b : Buf .bytes)
    (hok : d.tryFrom .bytes b = .ok b)
    (h3 : d.name = "system_common::SongPositionPointer" → 3 ≤ b.length) :
    (∀ n f, (n, f) ∈ d.props → ∃ v, f.read .bytes b = .ok v) ∧
    d.data .bytes b = .ok (b.take (d.minSize .bytes)) := by
  obtain ⟨hl, hv⟩ := (tryFrom_iff d .bytes b).mp hok
  obtain ⟨_, size, hfit, hsz⟩ := good_bytes hd hl h3
  exact ⟨fun n f hf => Fld.read_ok (MsgDesc.fits_mem hfit hf) hsz (hv _ hf), data_ok hl⟩

example : Msg.cv1NoteOn.data .bytes [0x93, 0x3C, 0x40, 0xF8] = .ok [0x93, 0x3C, 0x40] :=
  (C06_fixed_bytes_reads_partial (d := Msg.cv1NoteOn) (by decide +kernel) [0x93, 0x3C, 0x40, 0xF8]
    (by decide +kernel) (fun h => absurd h (by decide))).2

/-- C06 is violated by the two-byte `SongPositionPointer`: it is accepted but
`position()` panics. -/
theorem C06_song_position_pointer_violation (x : BitVec 8) :
    Msg.sysSongPositionPointer.tryFrom .bytes [0xF2, x] = .ok [0xF2, x] ∧
    ("position", Fld.hybrid .u14 ⟨0, 0x7F, 0x7F⟩ ⟨0x00007F7F, 0, 0, 0⟩) ∈
      Msg.sysSongPositionPointer.props ∧
    Fld.read .bytes (.hybrid .u14 ⟨0, 0x7F, 0x7F⟩ ⟨0x00007F7F, 0, 0, 0⟩) [0xF2, x] = .panic :=
  ⟨rfl, by simp [Msg.sysSongPositionPointer], rfl⟩

/-- A chord name with every optional field in use is read completely. -/
example : ∃ v, Fld.read .ump (.alteration ⟨0, 0x000000FF, 0, 0⟩)
    [0xD0100006, 0x13011A2B, 0x3C4D0000, 0xE5190000] = .ok v :=
  (C06_fixed_ump_reads (d := Msg.flexSetChordName) (by simp [Msg.all, Msg.flexAll])
    [0xD0100006, 0x13011A2B, 0x3C4D0000, 0xE5190000] (by decide +kernel)).1
    "chord_alteration2" _ (by simp [Msg.flexSetChordName])

/-! ## C12 -/

/-- The message types whose parse looks only at the message itself. -/
def Msg.localAll : List MsgDesc := Msg.cv1All ++ Msg.cv2All ++ Msg.sysAll ++ Msg.utilAll

theorem localAll_sub {d : MsgDesc} (hd : d ∈ Msg.localAll) : d ∈ Msg.all := by
  simp only [Msg.localAll, List.mem_append] at hd
  simp only [Msg.all, List.mem_append]
  rcases hd with ((h | h) | h) | h <;> simp [h]

/-- C12 (UMP): for channel voice, system common and utility messages, appending
anything to a slice changes neither acceptance nor any getter nor `data()`. -/
theorem C12_ump_suffix {d : MsgDesc} (hd : d ∈ Msg.localAll) (b s : Buf .ump)
    (hl : d.umpSize ≤ b.length) :
    (d.tryFrom .ump (b ++ s) = .ok (b ++ s) ↔ d.tryFrom .ump b = .ok b) ∧
    (∀ n f, (n, f) ∈ d.props → f.read .ump (b ++ s) = f.read .ump b) ∧
    d.data .ump (b ++ s) = d.data .ump b ∧ d.data .ump b = .ok (b.take d.umpSize) := by
  have hfit := List.all_eq_true.mp table_ump_fits d (localAll_sub hd)
  have hloc := List.all_eq_true.mp table_local d hd
  have hl' : d.umpSize ≤ (b ++ s).length := by rw [List.length_append]; omega
  refine ⟨?_, ?_, ?_, data_ok hl⟩
  · rw [tryFrom_iff, tryFrom_iff]
    have : ∀ p ∈ d.props, p.2.validate .ump (b ++ s) = p.2.validate .ump b := fun p hp =>
      Fld.validate_append (MsgDesc.fits_mem hfit (show (p.1, p.2) ∈ d.props from hp))
        (fun _ => by simpa using List.all_eq_true.mp hloc p hp) hl s
    constructor
    · exact fun h => ⟨hl, fun p hp => by rw [← this p hp]; exact h.2 p hp⟩
    · exact fun h => ⟨hl', fun p hp => by rw [this p hp]; exact h.2 p hp⟩
  · exact fun n f hf => Fld.read_append (MsgDesc.fits_mem hfit hf) hl s
  · rw [data_ok (m := .ump) hl, data_ok (m := .ump) hl',
      List.take_append_of_le_length (show d.minSize .ump ≤ b.length from hl)]

/-- C12 (bytes).  (For `SongPositionPointer` the slice must have three bytes for
its getter to be independent of what follows.) -/
theorem C12_bytes_suffix {d : MsgDesc} (hd : d ∈ Msg.hybridAll) (b s : Buf .bytes)
    (hl : d.minSize .bytes ≤ b.length)
    (h3 : d.name = "system_common::SongPositionPointer" → 3 ≤ b.length) :
    (d.tryFrom .bytes (b ++ s) = .ok (b ++ s) ↔ d.tryFrom .bytes b = .ok b) ∧
    (∀ n f, (n, f) ∈ d.props → f.read .bytes (b ++ s) = f.read .bytes b) ∧
    d.data .bytes (b ++ s) = d.data .bytes b ∧
    d.data .bytes b = .ok (b.take (d.minSize .bytes)) := by
  obtain ⟨_, size, hfit, hsz⟩ := good_bytes hd hl h3
  have hl' : d.minSize .bytes ≤ (b ++ s).length := by rw [List.length_append]; omega
  refine ⟨?_, ?_, ?_, data_ok hl⟩
  · rw [tryFrom_iff, tryFrom_iff]
    have : ∀ p ∈ d.props, p.2.validate .bytes (b ++ s) = p.2.validate .bytes b := fun p hp =>
      Fld.validate_append (MsgDesc.fits_mem hfit (show (p.1, p.2) ∈ d.props from hp))
        (fun h => by cases h) hsz s
    constructor
    · exact fun h => ⟨hl, fun p hp => by rw [← this p hp]; exact h.2 p hp⟩
    · exact fun h => ⟨hl', fun p hp => by rw [this p hp]; exact h.2 p hp⟩
  · exact fun n f hf => Fld.read_append (MsgDesc.fits_mem hfit hf) hsz s
  · rw [data_ok hl, data_ok hl', List.take_append_of_le_length hl]

example : Msg.cv2NoteOn.tryFrom .ump ([0x4A926003, 0x12345678] ++ [0xFFFFFFFF, 1, 2]) =
    .ok ([0x4A926003, 0x12345678] ++ [0xFFFFFFFF, 1, 2]) :=
  (C12_ump_suffix (d := Msg.cv2NoteOn) (by simp [Msg.localAll, Msg.cv2All])
    [0x4A926003, 0x12345678] [0xFFFFFFFF, 1, 2] (by decide)).1.mpr (by decide +kernel)

/-- C12 does not extend to flex-data messages: a set-tempo message followed by another
well-formed message is rejected, although it is accepted on its own. -/
theorem C12_flex_data_violation :
    Msg.flexSetTempo.tryFrom .ump [0xD0100000, 0x1000, 0, 0] = .ok [0xD0100000, 0x1000, 0, 0] ∧
    Msg.flexSetTempo.tryFrom .ump
      ([0xD0100000, 0x1000, 0, 0] ++ [0xD0100001, 0x04020800, 0, 0]) = .err .invalidData := by
  decide +kernel

/-! ## C33 -/

/-- C33 for the fixed-size message types: `packets()` yields one packet, which is
`data()`. -/
theorem C33_fixed_packets {d : MsgDesc} (hd : d ∈ Msg.all) (b : Buf .ump)
    (hl : d.umpSize ≤ b.length) :
    ∃ p, d.packets b = .ok [p] ∧ d.data .ump b = .ok p ∧ p = b.take d.umpSize ∧
      p.length = d.umpSize ∧ 0 < p.length := by
  have hpos : ∀ d ∈ Msg.all, 0 < d.umpSize := by decide +kernel
  have hlen : (b.take d.umpSize).length = d.umpSize := by rw [List.length_take]; omega
  refine ⟨b.take d.umpSize, ?_, data_ok hl, rfl, hlen, by rw [hlen]; exact hpos d hd⟩
  unfold MsgDesc.packets
  rw [data_ok (m := .ump) hl]
  show Res.ok _ = _
  congr 1
  show chunksExact d.umpSize (b.take d.umpSize) = _
  rw [chunksExact_cons (hpos d hd) (Nat.le_of_eq hlen.symm), List.take_take, Nat.min_self,
    chunksExact_short]
  rw [List.length_drop, hlen, Nat.sub_self]
  exact hpos d hd

example : Msg.cv2NoteOn.packets [0x4A926003, 0x12345678, 7] =
    .ok [[0x4A926003, 0x12345678]] := by
  obtain ⟨p, h, _, e, _⟩ := C33_fixed_packets (d := Msg.cv2NoteOn)
    (by simp [Msg.all, Msg.cv2All]) [0x4A926003, 0x12345678, 7] (by decide)
  rw [h, e]; rfl

end Midi2
