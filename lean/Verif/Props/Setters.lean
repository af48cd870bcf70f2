import Verif.Lemmas.Unfaithful

/-!
# C01–C04, C09: getters and setters of the fixed-size messages

Vocabulary (see `Verif/Model/Messages.lean`, `Verif/Model/MsgOps.lean`):
`d ∈ Msg.all` ranges over every fixed-size message type, `(n, f) ∈ d.props` over its
properties, `f.accessible m` says that getter and setter exist in representation `m`,
`f.read m` / `f.write m` are the getter and the setter.  `Fld.faithful`
(`Verif/Spec/Footprint.lean`) is `true` for every value of every property, except for
some `Controller`s and key signature `Flats(0)`.
-/

namespace Midi2

/-- C01: over any UMP buffer of at least the minimum size, setting a property and
getting it returns the value – exactly for the faithful values. -/
theorem C01_ump_set_get {d : MsgDesc} (hd : d ∈ Msg.all) {n : String} {f : Fld}
    (hf : (n, f) ∈ d.props) (ha : f.accessible .ump = true) (b : Buf .ump)
    (hb : d.minSize .ump ≤ b.length) (v : f.Ty) :
    (∃ b', f.write .ump b v = .ok b' ∧ f.read .ump b' = .ok v) ↔ f.faithful v = true := by
  have hfit := MsgDesc.fits_mem (List.all_eq_true.mp table_ump_fits d hd) hf
  constructor
  · rintro ⟨b', e1, e2⟩
    cases h : f.faithful v with
    | true => rfl
    | false => exact absurd e2 (Fld.write_unfaithful hfit hb v h b' e1)
  · intro hv
    obtain ⟨b', e1, _, e3, _⟩ := Fld.write_law ha hfit hb v hv
    exact ⟨b', e1, e3⟩

example : ¬ ∃ b', Fld.write .ump .controller [0x40000000, 0] (.volume 5) = .ok b' ∧
    Fld.read .ump .controller b' = .ok (.volume 6) := by
  rintro ⟨b', h1, h2⟩
  obtain ⟨b'', h3, h4⟩ := (C01_ump_set_get (d := Msg.cv2RegisteredPerNoteController) (n := "controller")
    (f := .controller) (by decide +kernel) (by simp [Msg.cv2RegisteredPerNoteController]) rfl
    [0x40000000, 0] (by decide) (.volume 5)).mpr rfl
  cases h1.symm.trans h3
  cases h2.symm.trans h4

/-- C01, without the notion of faithfulness: for every property other than
the controller of `RegisteredPerNoteController` and the sharps/flats of
`SetKeySignature`, get after set returns the value, for all values. -/
theorem C01_ump_set_get_plain {d : MsgDesc} (hd : d ∈ Msg.all) {n : String} {f : Fld}
    (hf : (n, f) ∈ d.props) (ha : f.accessible .ump = true)
    (h1 : f ≠ .controller) (h2 : f ≠ .keySharpsFlats) (b : Buf .ump)
    (hb : d.minSize .ump ≤ b.length) (v : f.Ty) :
    ∃ b', f.write .ump b v = .ok b' ∧ f.read .ump b' = .ok v := by
  refine (C01_ump_set_get hd hf ha b hb v).mpr ?_
  cases f <;> first | rfl | exact absurd rfl h1 | exact absurd rfl h2

/-- The hypotheses of C01 are met: note-on velocity over a buffer full of ones. -/
example : ∃ b', Fld.write .ump (.schema .u16 ⟨0, 0xFFFF0000, 0, 0⟩) [0xFFFFFFFF, 0xFFFFFFFF]
      (0x1234 : BitVec 16) = .ok b' ∧
    Fld.read .ump (.schema .u16 ⟨0, 0xFFFF0000, 0, 0⟩) b' = .ok (0x1234 : BitVec 16) :=
  C01_ump_set_get_plain (d := Msg.cv2NoteOn) (n := "velocity") (by simp [Msg.all, Msg.cv2All])
    (by simp [Msg.cv2NoteOn]) (by decide) (by decide) (by decide) _ (by decide) _

/-- C02: over any byte buffer of at least the minimum size (three bytes for
`SongPositionPointer`, whose declared minimum of two is too small), setting a property
and getting it returns the value. -/
theorem C02_bytes_set_get_partial {d : MsgDesc} (hd : d ∈ Msg.hybridAll) {n : String} {f : Fld}
    (hf : (n, f) ∈ d.props) (ha : f.accessible .bytes = true) (b : Buf .bytes)
    (hb : d.minSize .bytes ≤ b.length)
    (h3 : d.name = "system_common::SongPositionPointer" → 3 ≤ b.length) (v : f.Ty) :
    ∃ b', f.write .bytes b v = .ok b' ∧ f.read .bytes b' = .ok v := by
  obtain ⟨_, size, hfit, hsz⟩ := good_bytes hd hb h3
  have hv : f.faithful v = true := by
    have hfit := MsgDesc.fits_mem hfit hf
    simp only [Fld.fits, Bool.and_eq_true] at hfit
    cases f <;> first
      | rfl
      | exact absurd (show false = true from hfit.1) (by decide)
  obtain ⟨b', e1, _, e3, _⟩ := Fld.write_law ha (MsgDesc.fits_mem hfit hf) hsz v hv
  exact ⟨b', e1, e3⟩

example : ∃ b', Fld.write .bytes (.hybrid .u7 ⟨0, 0, 0x7F⟩ ⟨0x0000007F, 0, 0, 0⟩)
      [0x92#8, 0xFF, 0xFF] (0x55 : BitVec 7) = .ok b' ∧
    Fld.read .bytes (.hybrid .u7 ⟨0, 0, 0x7F⟩ ⟨0x0000007F, 0, 0, 0⟩) b' = .ok (0x55 : BitVec 7) :=
  C02_bytes_set_get_partial (d := Msg.cv1NoteOn) (n := "velocity")
    (by simp [Msg.hybridAll, Msg.cv1All])
    (by simp [Msg.cv1NoteOn]) (by decide) _ (by decide) (by decide) _

/-- C02 fails for `SongPositionPointer` over two bytes (its declared minimum size):
every call of `set_position` panics. -/
theorem C02_song_position_pointer_violation (x y : BitVec 8) (v : BitVec 14) :
    (∃ n, (n, Fld.hybrid .u14 ⟨0, 0x7F, 0x7F⟩ ⟨0x00007F7F, 0, 0, 0⟩) ∈
      Msg.sysSongPositionPointer.props) ∧
    Msg.sysSongPositionPointer.minSize .bytes ≤ [x, y].length ∧
    Fld.write .bytes (.hybrid .u14 ⟨0, 0x7F, 0x7F⟩ ⟨0x00007F7F, 0, 0, 0⟩) [x, y] v = .panic :=
  ⟨⟨"position", by simp [Msg.sysSongPositionPointer]⟩, show 2 ≤ 2 by omega, rfl⟩

/-- C03 (UMP): setting one property leaves the getter of every other property of the
message (and its validity) unchanged. -/
theorem C03_ump_no_interference {d : MsgDesc} (hd : d ∈ Msg.all) {n n' : String} {f g : Fld}
    (hf : (n, f) ∈ d.props) (hg : (n', g) ∈ d.props) (hne : n ≠ n')
    (ha : f.accessible .ump = true) (b b' : Buf .ump) (hb : d.minSize .ump ≤ b.length) (v : f.Ty)
    (hw : f.write .ump b v = .ok b') :
    g.read .ump b' = g.read .ump b ∧ g.validate .ump b' = g.validate .ump b := by
  have hfit := MsgDesc.fits_mem (List.all_eq_true.mp table_ump_fits d hd) hf
  have hsep := MsgDesc.separated_mem (List.all_eq_true.mp table_ump_separated d hd) hf hg hne ha
  rcases Fld.write_any ha hfit hb v with e | ⟨b1, e1, e2, _⟩
  · rw [e] at hw; cases hw
  · rw [e1] at hw; cases hw
    exact ⟨Fld.read_of_sep hsep e2, Fld.validate_of_sep hsep e2⟩

/-- C03 (bytes).  Here the setter must not have panicked, which covers the two-byte
`SongPositionPointer`. -/
theorem C03_bytes_no_interference {d : MsgDesc} (hd : d ∈ Msg.hybridAll) {n n' : String}
    {f g : Fld} (hf : (n, f) ∈ d.props) (hg : (n', g) ∈ d.props) (hne : n ≠ n')
    (ha : f.accessible .bytes = true) (b b' : Buf .bytes) (hb : d.minSize .bytes ≤ b.length)
    (h3 : d.name = "system_common::SongPositionPointer" → 3 ≤ b.length) (v : f.Ty)
    (hw : f.write .bytes b v = .ok b') :
    g.read .bytes b' = g.read .bytes b ∧ g.validate .bytes b' = g.validate .bytes b := by
  obtain ⟨hsep, size, hfit, hsz⟩ := good_bytes hd hb h3
  have hsep := MsgDesc.separated_mem hsep hf hg hne ha
  rcases Fld.write_any ha (MsgDesc.fits_mem hfit hf) hsz v with e | ⟨b1, e1, e2, _⟩
  · rw [e] at hw; cases hw
  · rw [e1] at hw; cases hw
    exact ⟨Fld.read_of_sep hsep e2, Fld.validate_of_sep hsep e2⟩

example : Fld.read .ump (.schema .u4 ⟨0x0F000000, 0, 0, 0⟩) [0x4A92FFFF, 0x1234FFFF]
    = Fld.read .ump (.schema .u4 ⟨0x0F000000, 0, 0, 0⟩) [0x4A92FFFF, 0xFFFFFFFF] :=
  (C03_ump_no_interference (d := Msg.cv2NoteOn) (n := "velocity") (n' := "group")
    (f := .schema .u16 ⟨0, 0xFFFF0000, 0, 0⟩)
    (by simp [Msg.all, Msg.cv2All]) (by simp [Msg.cv2NoteOn]) (by simp [Msg.cv2NoteOn])
    (by decide) (by decide) _ _ (by decide) (0x1234 : BitVec 16) (by rfl)).1

/-- C04 (UMP): a setter changes only bits of its declared mask; the length and all
words past the message (where every mask is zero) stay the same. -/
theorem C04_ump_footprint {d : MsgDesc} (hd : d ∈ Msg.all) {n : String} {f : Fld}
    (hf : (n, f) ∈ d.props) (ha : f.accessible .ump = true) (b b' : Buf .ump)
    (hb : d.minSize .ump ≤ b.length) (v : f.Ty) (hw : f.write .ump b v = .ok b') :
    b'.length = b.length ∧
    ∀ i (h : i < b.length) (h' : i < b'.length) (k : Nat),
      b'[i].getLsbD k ≠ b[i].getLsbD k → (f.umpBits.at i).getLsbD k = true ∧ i < d.umpSize := by
  have hfit := MsgDesc.fits_mem (List.all_eq_true.mp table_ump_fits d hd) hf
  rcases Fld.write_any ha hfit hb v with e | ⟨b1, e1, e2, _⟩
  · rw [e] at hw; cases hw
  · rw [e1] at hw; cases hw
    refine ⟨e2.1.symm, fun i h h' k hk => ?_⟩
    have hm : (f.umpBits.at i).getLsbD k = true := by
      have := congrArg (fun x : BitVec 32 => x.getLsbD k) (e2.2 i h h')
      simp only [BitVec.getLsbD_and, BitVec.getLsbD_not, Fld.bits] at this
      by_cases hk32 : k < 32
      · cases hc : (f.umpBits.at i).getLsbD k with
        | true => rfl
        | false => rw [hc] at this; simp [hk32] at this; exact absurd this.symm hk
      · rw [BitVec.getLsbD_of_ge _ _ (Nat.le_of_not_lt hk32),
          BitVec.getLsbD_of_ge _ _ (Nat.le_of_not_lt hk32)] at hk
        exact absurd rfl hk
    refine ⟨hm, ?_⟩
    simp only [Fld.fits, Bool.and_eq_true, decide_eq_true_eq] at hfit
    refine Nat.lt_of_lt_of_le (lt_need fun h0 => ?_) hfit.2
    rw [h0] at hm; simp at hm

example (i : Nat) (h : i < 3) (k : Nat)
    (hk : ([0x4A92FFFF, 0x1234FFFF, 7] : List (BitVec 32))[i].getLsbD k ≠
      ([0x4A92FFFF, 0xFFFFFFFF, 7] : List (BitVec 32))[i].getLsbD k) : i < 2 :=
  ((C04_ump_footprint (d := Msg.cv2NoteOn) (n := "velocity") (f := .schema .u16 ⟨0, 0xFFFF0000, 0, 0⟩)
    (by decide +kernel) (by simp [Msg.cv2NoteOn]) rfl [0x4A92FFFF, 0xFFFFFFFF, 7]
    [0x4A92FFFF, 0x1234FFFF, 7] (by decide) (0x1234 : BitVec 16) rfl).2 i h h k hk).2

/-- C04 (bytes). -/
theorem C04_bytes_footprint {d : MsgDesc} (hd : d ∈ Msg.hybridAll) {n : String} {f : Fld}
    (hf : (n, f) ∈ d.props) (ha : f.accessible .bytes = true) (b b' : Buf .bytes)
    (hb : d.minSize .bytes ≤ b.length)
    (h3 : d.name = "system_common::SongPositionPointer" → 3 ≤ b.length) (v : f.Ty)
    (hw : f.write .bytes b v = .ok b') :
    b'.length = b.length ∧
    ∀ i (h : i < b.length) (h' : i < b'.length) (k : Nat),
      b'[i].getLsbD k ≠ b[i].getLsbD k → (f.byteBits.at i).getLsbD k = true ∧ i < 3 := by
  obtain ⟨_, size, hfit, hsz⟩ := good_bytes hd hb h3
  rcases Fld.write_any ha (MsgDesc.fits_mem hfit hf) hsz v with e | ⟨b1, e1, e2, _⟩
  · rw [e] at hw; cases hw
  · rw [e1] at hw; cases hw
    refine ⟨e2.1.symm, fun i h h' k hk => ?_⟩
    have hm : (f.byteBits.at i).getLsbD k = true := by
      have := congrArg (fun x : BitVec 8 => x.getLsbD k) (e2.2 i h h')
      simp only [BitVec.getLsbD_and, BitVec.getLsbD_not, Fld.bits] at this
      by_cases hk32 : k < 8
      · cases hc : (f.byteBits.at i).getLsbD k with
        | true => rfl
        | false => rw [hc] at this; simp [hk32] at this; exact absurd this.symm hk
      · rw [BitVec.getLsbD_of_ge _ _ (Nat.le_of_not_lt hk32),
          BitVec.getLsbD_of_ge _ _ (Nat.le_of_not_lt hk32)] at hk
        exact absurd rfl hk
    refine ⟨hm, ?_⟩
    match i, hm with
    | 0, _ => omega
    | 1, _ => omega
    | 2, _ => omega
    | i + 3, hm => exact absurd hm (by simp [BytesSchema.at])

/-- C04 is not vacuous: set_velocity changes bits, and the theorem locates one. -/
example : (Fld.umpBits (.schema .u16 ⟨0, 0xFFFF0000, 0, 0⟩)).at 1 = 0xFFFF0000 ∧
    Fld.write .ump (.schema .u16 ⟨0, 0xFFFF0000, 0, 0⟩) [0x4A92FFFF, 0xFFFFFFFF, 7]
      (0x1234 : BitVec 16) = .ok [0x4A92FFFF, 0x1234FFFF, 7] := ⟨rfl, rfl⟩

/-- C09 (UMP): after any sequence of setter calls on an accepted message the message is
still accepted, its length is unchanged, each property reads as the last value set for
it, and properties that were not set read as before. -/
theorem C09_ump_history {d : MsgDesc} (hd : d ∈ Msg.all) (b : Buf .ump)
    (hok : d.tryFrom .ump b = .ok b) (calls : List SetCall)
    (hc : ∀ c ∈ calls, c.legal d .ump) :
    ∃ b', runSetters .ump calls b = .ok b' ∧ b'.length = b.length ∧
      d.tryFrom .ump b' = .ok b' ∧
      (∀ pre n f v post, calls = pre ++ ⟨n, f, v⟩ :: post → (∀ c ∈ post, c.name ≠ n) →
        f.read .ump b' = .ok v) ∧
      (∀ n f, (n, f) ∈ d.props → (∀ c ∈ calls, c.name ≠ n) →
        f.read .ump b' = f.read .ump b) := by
  have hn := of_decide_eq_true (List.all_eq_true.mp table_names d hd)
  have hb := ((tryFrom_iff d .ump b).mp hok).1
  obtain ⟨b', e1, e2, e3, e4, e5⟩ := setter_history hn calls (good_ump hd hb) hc
  exact ⟨b', e1, e2, e3 hok, e4, e5⟩

theorem hybrid_sub_all {d : MsgDesc} (hd : d ∈ Msg.hybridAll) : d ∈ Msg.all := by
  simp only [Msg.hybridAll, List.mem_append] at hd
  simp only [Msg.all, List.mem_append]
  rcases hd with h | h
  · exact .inl (.inl (.inl (.inl (.inl h))))
  · exact .inl (.inl (.inr h))

/-- C09 (bytes). -/
theorem C09_bytes_history_partial {d : MsgDesc} (hd : d ∈ Msg.hybridAll) (b : Buf .bytes)
    (hok : d.tryFrom .bytes b = .ok b)
    (h3 : d.name = "system_common::SongPositionPointer" → 3 ≤ b.length)
    (calls : List SetCall) (hc : ∀ c ∈ calls, c.legal d .bytes) :
    ∃ b', runSetters .bytes calls b = .ok b' ∧ b'.length = b.length ∧
      d.tryFrom .bytes b' = .ok b' ∧
      (∀ pre n f v post, calls = pre ++ ⟨n, f, v⟩ :: post → (∀ c ∈ post, c.name ≠ n) →
        f.read .bytes b' = .ok v) ∧
      (∀ n f, (n, f) ∈ d.props → (∀ c ∈ calls, c.name ≠ n) →
        f.read .bytes b' = f.read .bytes b) := by
  have hn := of_decide_eq_true (List.all_eq_true.mp table_names d (hybrid_sub_all hd))
  have hb := ((tryFrom_iff d .bytes b).mp hok).1
  obtain ⟨b', e1, e2, e3, e4, e5⟩ := setter_history hn calls (good_bytes hd hb h3) hc
  exact ⟨b', e1, e2, e3 hok, e4, e5⟩

/-- A concrete history meeting the hypotheses: channel, velocity, channel again. -/
example : ∃ b', runSetters .ump
    [⟨"channel", .schema .u4 ⟨0x000F0000, 0, 0, 0⟩, (3 : BitVec 4)⟩,
     ⟨"velocity", .schema .u16 ⟨0, 0xFFFF0000, 0, 0⟩, (0xABCD : BitVec 16)⟩,
     ⟨"channel", .schema .u4 ⟨0x000F0000, 0, 0, 0⟩, (5 : BitVec 4)⟩]
    [0x4A920000, 0xFFFF0000] = .ok b' ∧
    Fld.read .ump (.schema .u4 ⟨0x000F0000, 0, 0, 0⟩) b' = .ok (5 : BitVec 4) := by
  obtain ⟨b', e, _, _, h, _⟩ := C09_ump_history (d := Msg.cv2NoteOn)
    (by simp [Msg.all, Msg.cv2All]) [0x4A920000, 0xFFFF0000] (by rfl)
    [⟨"channel", .schema .u4 ⟨0x000F0000, 0, 0, 0⟩, (3 : BitVec 4)⟩,
     ⟨"velocity", .schema .u16 ⟨0, 0xFFFF0000, 0, 0⟩, (0xABCD : BitVec 16)⟩,
     ⟨"channel", .schema .u4 ⟨0x000F0000, 0, 0, 0⟩, (5 : BitVec 4)⟩]
    (by
      intro c hc
      simp only [List.mem_cons, List.not_mem_nil, or_false] at hc
      rcases hc with rfl | rfl | rfl <;> exact ⟨by simp [Msg.cv2NoteOn], by decide, rfl⟩)
  exact ⟨b', e, h [_, _] _ _ _ [] rfl (by simp)⟩

end Midi2
