import Verif.Lemmas.Behind
import Verif.Model.Custom
import Verif.Props.Custom

/-!
# C62: `new()` over buffers that resize in any way
-/

namespace Midi2

/-- Writing its default into any buffer with the words that it needs, a property changes only its own
bits and then reads as the default. -/
theorem write_anywhere {f : Fld} (hw : f.walks = false) (him : f.implemented = true) {b : Buf .ump}
    (hn : f.umpBits.need ≤ b.length) (hv : f.faithful f.default = true) :
    ∃ c, f.write32 b f.default = .ok c ∧ SameOff f.umpBits.at b c ∧ f.read32 c = .ok f.default ∧
      (f.ranging = false → f.validate32 c = .ok ()) := by
  cases hr : f.ranging with
  | false =>
    obtain ⟨c, c1, c2, c3, c4⟩ := Fld.write32_law f hr him hn f.default hv
    exact ⟨c, c1, c2, c3, fun _ => c4⟩
  | true =>
    cases f
    case flexStatus t =>
      have h0 : 0 < b.length := Nat.lt_of_lt_of_le (by simp [Fld.umpBits, UmpSchema.need]) hn
      refine ⟨_, modifyAt_ok _ h0, SameOff.set _ _ _ fun _ => ?_, rfl, fun h => by cases h⟩
      rw [U32.setOctet_eq]; exact ins_off _ _ (by simp only [Fld.umpBits, UmpSchema.at]; decide)
    case flexBank t =>
      have h0 : 0 < b.length := Nat.lt_of_lt_of_le (by simp [Fld.umpBits, UmpSchema.need]) hn
      refine ⟨_, modifyAt_ok _ h0, SameOff.set _ _ _ fun _ => ?_, rfl, fun h => by cases h⟩
      rw [U32.setOctet_eq]; exact ins_off _ _ (by simp only [Fld.umpBits, UmpSchema.at]; decide)
    all_goals first | (cases hw; done) | (cases hr; done)

/-- Writing the defaults of some properties, whatever the buffer holds. -/
theorem initProps_fresh {d : MsgDesc} (hd : d ∈ Msg.all) : ∀ (ps : List (String × Fld)),
    (∀ q ∈ ps, q ∈ d.props ∧ q.2.walks = false ∧ q.2.faithful q.2.default = true ∧
      ∀ p ∈ d.props, p.1 ≠ q.1 → q.2.sep .ump p.2 = true) →
    (ps.map (·.1)).Nodup → ∀ b : Buf .ump, d.umpSize ≤ b.length →
    ∃ x, initProps .ump ps b = .ok x ∧ x.length = b.length ∧
      (∀ q ∈ ps, q.2.read .ump x = .ok q.2.default ∧
        (q.2.ranging = false → q.2.validate .ump x = .ok ())) ∧
      ∀ p ∈ d.props, p.1 ∉ ps.map (·.1) →
        p.2.read .ump x = p.2.read .ump b ∧ p.2.validate .ump x = p.2.validate .ump b
  | [], _, _, b, _ => ⟨b, rfl, rfl, fun _ h => (by cases h), fun _ _ _ => ⟨rfl, rfl⟩⟩
  | (n, f) :: ps, hp, hn, b, hb => by
    obtain ⟨p1, p2, p3, p4⟩ := hp _ List.mem_cons_self
    have hfit := MsgDesc.fits_mem (List.all_eq_true.mp table_ump_fits d hd) p1
    simp only [Fld.fits, Bool.and_eq_true, decide_eq_true_eq] at hfit
    obtain ⟨c, c1, c2, c3, c4⟩ := write_anywhere p2 hfit.1 (Nat.le_trans hfit.2 hb) p3
    have c1 : f.write .ump b f.default = .ok c := c1
    have c2 : SameOff (f.bits .ump) b c := c2
    simp only [List.map_cons, List.nodup_cons] at hn
    obtain ⟨x, x1, x2, x3, x4⟩ := initProps_fresh hd ps (fun q h => hp q (List.mem_cons_of_mem _ h))
      hn.2 c (by rw [← c2.1]; exact hb)
    refine ⟨x, ?_, by rw [x2, c2.1], fun q hq => ?_, fun p h1 h2 => ?_⟩
    · show (f.write .ump b f.default >>= fun b => initProps .ump ps b) = _
      rw [c1]; exact x1
    · rcases List.mem_cons.mp hq with rfl | hq
      · obtain ⟨e1, e2⟩ := x4 (n, f) p1 hn.1
        exact ⟨e1.trans c3, fun h => e2.trans (c4 h)⟩
      · exact x3 q hq
    · simp only [List.map_cons, List.mem_cons, not_or] at h2
      obtain ⟨e1, e2⟩ := x4 p h1 h2.2
      have hs := p4 p h1 h2.1
      exact ⟨e1.trans (Fld.read_of_sep hs c2), e2.trans (Fld.validate_of_sep hs c2)⟩

theorem default_fresh {f : Fld} (h : f.accessible .ump = true) :
    f.default = f.freshValue ∧ f.faithful f.default = true := by
  cases f
  case hybrid r s u => cases r <;> exact ⟨rfl, rfl⟩
  case schema r u => cases r <;> exact ⟨rfl, rfl⟩
  all_goals first | exact ⟨rfl, rfl⟩ | exact ⟨rfl, by decide⟩ | exact absurd h (by intro h; cases h)

theorem table_still : (Msg.cv1All ++ Msg.cv2All ++ Msg.flexAll ++ Msg.sysAll ++ Msg.utilAll).all
    (fun d => d.props.all fun q => !q.2.walks && q.2.faithful q.2.default &&
      d.props.all fun p => p.1 == q.1 || q.2.sep .ump p.2) = true := by
  decide +kernel

theorem validateProps_all : ∀ (ps : List (String × Fld)) (x : Buf .ump),
    (∀ q ∈ ps, q.2.validate .ump x = .ok ()) → validateProps .ump ps x = .ok ()
  | [], _, _ => rfl
  | (n, f) :: ps, x, h => by
    have e : f.validate .ump x = .ok () := h (n, f) List.mem_cons_self
    show (f.validate .ump x >>= fun _ => validateProps .ump ps x) = _
    rw [e]
    exact validateProps_all ps x fun q hq => h q (List.mem_cons_of_mem _ hq)

/-- C62: whatever the `resize` of a buffer does, and whatever the buffer then holds, `new()` of a message of
fixed size gives a message in which every getter returns its default, if the buffer has the words that
the message needs.  Except for flex data and stream messages, whose parsers look behind the
message (C12), the message is valid. -/
theorem C62_new_defaults {d : MsgDesc} (hd : d ∈ Msg.all) (f : Buf .ump → Nat → Buf .ump) (b : Buf .ump)
    (hr : d.room ≤ (f b d.umpSize).length) :
    ∃ x, d.newOn .ump f b = .ok x ∧ x.length = (f b d.umpSize).length ∧
      (∀ n g, (n, g) ∈ d.props → g.accessible .ump = true → g.read .ump x = .ok g.freshValue) ∧
      (d ∉ Msg.flexAll → d ∉ Msg.streamAll → d.tryFrom .ump x = .ok x) := by
  have hmin : ∀ d ∈ Msg.all, d.umpSize ≤ d.room := by decide +kernel
  have hmin := hmin d hd
  have hnames : (d.props.map (·.1)).Nodup :=
    of_decide_eq_true (List.all_eq_true.mp table_names d hd)
  unfold MsgDesc.newOn
  rw [show d.minSize .ump = d.umpSize from rfl]
  generalize f b d.umpSize = r at hr
  by_cases hs : d ∈ Msg.streamAll
  · obtain ⟨t, rest, hp, ht, hrest, h4, h0, hroom⟩ := stream_props d hs
    obtain ⟨y, n, y1, -, y2, -⟩ := stream_front ht h0 h4 (b := r) (z := r) (by omega) rfl (fun _ _ => rfl)
    have hly : y.length = r.length := y2.1
    have hmem : ∀ q ∈ rest, q ∈ d.props := fun q hq => by
      rw [hp]; exact List.mem_cons_of_mem _ (List.mem_cons_of_mem _ (List.mem_cons_of_mem _ hq))
    obtain ⟨x, x1, x2, x3, -⟩ := initProps_fresh hd rest (fun q hq => ⟨hmem q hq,
        accessible_stays (hrest q hq).1, (default_fresh (hrest q hq).1).2, fun p hp' hne =>
          MsgDesc.separated_mem (List.all_eq_true.mp table_ump_separated d hd) (hmem q hq) hp'
            (Ne.symm hne) (hrest q hq).1⟩)
      (by
        rw [hp] at hnames
        simp only [List.map_cons, List.nodup_cons] at hnames
        exact hnames.2.2.2) y (by omega)
    refine ⟨x, ?_, by rw [x2, hly], fun n g hg ha => ?_, fun _ h => absurd hs h⟩
    · rw [hp]
      exact (initProps_two .ump [_, _, _] rest r).trans (by rw [y1]; exact x1)
    · rw [hp] at hg
      simp only [List.mem_cons, Prod.mk.injEq] at hg
      rcases hg with ⟨_, rfl⟩ | ⟨_, rfl⟩ | ⟨_, rfl⟩ | hg
      · cases ha
      · cases ha
      · cases ha
      · rw [← (default_fresh ha).1]
        exact (x3 (n, g) hg).1
  · have hd' : d ∈ Msg.cv1All ++ Msg.cv2All ++ Msg.flexAll ++ Msg.sysAll ++ Msg.utilAll := by
      simp only [Msg.all, List.mem_append] at hd ⊢
      rcases hd with ((((h | h) | h) | h) | h) | h
      · exact .inl (.inl (.inl (.inl h)))
      · exact .inl (.inl (.inl (.inr h)))
      · exact .inl (.inl (.inr h))
      · exact .inl (.inr h)
      · exact absurd h hs
      · exact .inr h
    have htab := List.all_eq_true.mp table_still d hd'
    obtain ⟨x, x1, x2, x3, -⟩ := initProps_fresh hd d.props (fun q hq => by
        have := List.all_eq_true.mp htab q hq
        simp only [Bool.and_eq_true, Bool.not_eq_true'] at this
        refine ⟨hq, this.1.1, this.1.2, fun p hp hne => ?_⟩
        have := List.all_eq_true.mp this.2 p hp
        simp only [Bool.or_eq_true, beq_iff_eq] at this
        exact this.resolve_left hne) hnames r (by omega)
    refine ⟨x, x1, x2, fun n g hg ha => ?_, fun hfl _ => ?_⟩
    · rw [← (default_fresh ha).1]
      exact (x3 (n, g) hg).1
    · have hl : d.local = true := by
        apply List.all_eq_true.mp table_local d
        simp only [List.mem_append] at hd' ⊢
        rcases hd' with (((h | h) | h) | h) | h
        · exact .inl (.inl (.inl h))
        · exact .inl (.inl (.inr h))
        · exact absurd h hfl
        · exact .inl (.inr h)
        · exact .inr h
      have hv := validateProps_all d.props x fun q hq => (x3 q hq).2 (by
        have := List.all_eq_true.mp hl q hq
        simpa using this)
      unfold MsgDesc.tryFrom
      rw [if_neg (show ¬ x.length < d.minSize .ump by
        rw [show d.minSize .ump = d.umpSize from rfl]; omega), hv]
      rfl

-- Over a buffer that grows with ones: reserved bits stay set, the getters return the defaults and the
-- message is valid.
example : Msg.cv1NoteOn.newOn .ump (growAll 0xFFFFFFFF 32) [] = .ok [0x20908080] ∧
    Msg.cv1NoteOn.tryFrom .ump [0x20908080] = .ok [0x20908080] := by
  decide +kernel

example : ∃ x, Msg.cv1NoteOn.newOn .ump (growAll 0xFFFFFFFF 32) [] = .ok x ∧
    Msg.cv1NoteOn.tryFrom .ump x = .ok x :=
  have ⟨x, h1, _, _, h2⟩ := C62_new_defaults (d := Msg.cv1NoteOn) (by decide +kernel)
    (growAll 0xFFFFFFFF 32) [] (by decide +kernel)
  ⟨x, h1, h2 (by decide +kernel) (by decide +kernel)⟩

/-! ## Over bytes -/

/-- `write_anywhere` over bytes. -/
theorem write_anywhere8 {f : Fld} {size : Nat} (hf : f.fits .bytes size = true) {b : Buf .bytes}
    (hb : size ≤ b.length) :
    ∃ c, f.write .bytes b f.default = .ok c ∧ SameOff (f.bits .bytes) b c ∧
      (f.accessible .bytes = true → f.read .bytes c = .ok f.default) ∧
      f.validate .bytes c = .ok () := by
  have hf' := hf
  simp only [Fld.fits, Bool.and_eq_true, decide_eq_true_eq] at hf'
  obtain ⟨c, c1, c2, c3, c4⟩ := Fld.write8_law f hf'.1 (Nat.le_trans hf'.2 hb) f.default
  refine ⟨c, c1, c2, fun ha => ?_, c4⟩
  cases f
  case hybrid r s u => exact c3 (Fld.accessible_bytes ha hf'.1 r s u rfl)
  all_goals first
    | exact absurd (show false = true from ha) (by decide)
    | exact absurd (show false = true from hf'.1) (by decide)

/-- `initProps_fresh` over bytes. -/
theorem initProps_fresh8 {d : MsgDesc} {size : Nat} (hfit : d.fits .bytes size = true) :
    ∀ (ps : List (String × Fld)),
    (∀ q ∈ ps, q ∈ d.props ∧ ∀ p ∈ d.props, p.1 ≠ q.1 → q.2.sep .bytes p.2 = true) →
    (ps.map (·.1)).Nodup → ∀ b : Buf .bytes, size ≤ b.length →
    ∃ x, initProps .bytes ps b = .ok x ∧ x.length = b.length ∧
      (∀ q ∈ ps, (q.2.accessible .bytes = true → q.2.read .bytes x = .ok q.2.default) ∧
        q.2.validate .bytes x = .ok ()) ∧
      ∀ p ∈ d.props, p.1 ∉ ps.map (·.1) →
        p.2.read .bytes x = p.2.read .bytes b ∧ p.2.validate .bytes x = p.2.validate .bytes b
  | [], _, _, b, _ => ⟨b, rfl, rfl, fun _ h => (by cases h), fun _ _ _ => ⟨rfl, rfl⟩⟩
  | (n, f) :: ps, hp, hn, b, hb => by
    obtain ⟨p1, p4⟩ := hp _ List.mem_cons_self
    obtain ⟨c, c1, c2, c3, c4⟩ := write_anywhere8 (MsgDesc.fits_mem hfit p1) hb
    simp only [List.map_cons, List.nodup_cons] at hn
    obtain ⟨x, x1, x2, x3, x4⟩ := initProps_fresh8 hfit ps
      (fun q h => hp q (List.mem_cons_of_mem _ h)) hn.2 c (by rw [← c2.1]; exact hb)
    refine ⟨x, ?_, by rw [x2, c2.1], fun q hq => ?_, fun p h1 h2 => ?_⟩
    · show (f.write .bytes b f.default >>= fun b => initProps .bytes ps b) = _
      rw [c1]; exact x1
    · rcases List.mem_cons.mp hq with rfl | hq
      · obtain ⟨e1, e2⟩ := x4 (n, f) p1 hn.1
        exact ⟨fun h => e1.trans (c3 h), e2.trans c4⟩
      · exact x3 q hq
    · simp only [List.map_cons, List.mem_cons, not_or] at h2
      obtain ⟨e1, e2⟩ := x4 p h1 h2.2
      have hs := p4 p h1 h2.1
      exact ⟨e1.trans (Fld.read_of_sep hs c2), e2.trans (Fld.validate_of_sep hs c2)⟩

theorem table_still8 : Msg.hybridAll.all (fun d => d.props.all fun q =>
    d.props.all fun p => p.1 == q.1 || q.2.sep .bytes p.2) = true := by
  decide +kernel

theorem validateProps_all8 : ∀ (ps : List (String × Fld)) (x : Buf .bytes),
    (∀ q ∈ ps, q.2.validate .bytes x = .ok ()) → validateProps .bytes ps x = .ok ()
  | [], _, _ => rfl
  | (n, f) :: ps, x, h => by
    have e : f.validate .bytes x = .ok () := h (n, f) List.mem_cons_self
    show (f.validate .bytes x >>= fun _ => validateProps .bytes ps x) = _
    rw [e]
    exact validateProps_all8 ps x fun q hq => h q (List.mem_cons_of_mem _ hq)

/-- C62: whatever the `resize` of a byte buffer does, and whatever the buffer then holds, `new()` of a
channel voice or system common message gives a valid message in which every getter returns its
default, if the buffer has the bytes that the message needs (three for a song position pointer, C08). -/
theorem C62_new_bytes_defaults {d : MsgDesc} (hd : d ∈ Msg.hybridAll)
    (f : Buf .bytes → Nat → Buf .bytes) (b : Buf .bytes)
    (hr : d.room8 ≤ (f b (d.minSize .bytes)).length) :
    ∃ x, d.newOn .bytes f b = .ok x ∧ x.length = (f b (d.minSize .bytes)).length ∧
      (∀ n g, (n, g) ∈ d.props → g.accessible .bytes = true → g.read .bytes x = .ok g.freshValue) ∧
      d.tryFrom .bytes x = .ok x := by
  have hmin : ∀ d ∈ Msg.hybridAll, d.minSize .bytes ≤ d.room8 ∧ d.fits .bytes d.room8 = true ∧
      (d.props.map (·.1)).Nodup := by decide +kernel
  obtain ⟨hmin, hfit, hnames⟩ := hmin d hd
  unfold MsgDesc.newOn
  generalize f b (d.minSize .bytes) = r at hr
  have htab := List.all_eq_true.mp table_still8 d hd
  obtain ⟨x, x1, x2, x3, -⟩ := initProps_fresh8 hfit d.props (fun q hq => by
      refine ⟨hq, fun p hp hne => ?_⟩
      have := List.all_eq_true.mp (List.all_eq_true.mp htab q hq) p hp
      simp only [Bool.or_eq_true, beq_iff_eq] at this
      exact this.resolve_left hne) hnames r hr
  refine ⟨x, x1, x2, fun n g hg ha => ?_, ?_⟩
  · rw [← Fld.default_fresh]
    exact (x3 (n, g) hg).1 ha
  · unfold MsgDesc.tryFrom
    rw [if_neg (show ¬ x.length < d.minSize .bytes by omega),
      validateProps_all8 d.props x fun q hq => (x3 q hq).2]
    rfl

example : ∃ x, Msg.cv1NoteOn.newOn .bytes (growFilled 0xFF) [] = .ok x ∧
    Msg.cv1NoteOn.tryFrom .bytes x = .ok x :=
  have ⟨x, h1, _, _, h2⟩ := C62_new_bytes_defaults (d := Msg.cv1NoteOn) (by decide +kernel)
    (growFilled 0xFF) [] (by decide +kernel)
  ⟨x, h1, h2⟩

/-- C62: `new()` does not clear the top bits of data bytes: over a buffer that grows with `FF`, a note on
has status bytes in the place of data bytes. -/
theorem C62_new_bytes_violation :
    Grows (growFilled (0xFF : BitVec 8)) ∧
    Msg.cv1NoteOn.newOn .bytes (growFilled 0xFF) [] = .ok [0x90, 0x80, 0x80] ∧
    Msg.cv1NoteOn.newVec .bytes = .ok [0x90, 0, 0] :=
  ⟨growFilled_grows _, by decide +kernel, by decide +kernel⟩

end Midi2
